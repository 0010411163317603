import Verif.Props.Fair
import Verif.Props.NumpyBetter
import Verif.Props.NumpyCards
import Verif.Props.NumpyOdds

/-!
# Every deal of the array engine is equally likely, too: C92
-/

namespace Clubs.Numpy

open Spec

variable {d e : Dealer} {o : List Card} {rb rs : Bool} {sh : Shuffle} {obs : Observation} {bets : List PyNum} {bet : PyNum}

theorem array_reset_any (h : Seated (atSeat d)) (h0 : reset d rb rs sh = (e, .ok obs)) (sh' : Shuffle) :
    ∃ e' obs', reset d rb rs sh' = (e', .ok obs') := by
  obtain ⟨e', obs', he⟩ := reset_any h (reset_ok_atSeat h h0) sh'
  have := (reset_atSeat h rb rs sh').2
  rw [he] at this
  cases hr : (reset d rb rs sh').2 with
  | error x => rw [hr] at this; simp [Except.map] at this
  | ok x => exact ⟨_, x, Prod.ext rfl hr⟩

theorem array_laid_reset (h : ArrayReachable d) (ht : d.deck.tricked = false) (he : Enough d.cfg) (ho : o ∈ orders d)
    (h1 : reset d rb rs (toOrder o) = (e, .ok obs)) :
    Laid (boardSize d.cfg 0) o e ∧ e.communityCards.length = boardSize d.cfg 0 ∧ HandsShape d.cfg e.holeCards := by
  have hre : ArrayReachable e := by
    have := ArrayReachable.reset rb rs (isShuffle_toOrder o) h
    rwa [h1] at this
  have h1' := reset_ok_atSeat (array_seated h) h1
  obtain ⟨hl, hst, -⟩ := dealt_live (array_seated h) h1'
  have hst : e.street = 0 := hst
  have hcfg : e.cfg = d.cfg := (C41_clean (array_seated h) h1').1
  obtain ⟨a, ha, -⟩ := hl.action
  have ha : e.action = some a := ha
  obtain ⟨o1, o2, hsize⟩ := C74_shape hre (.inl (by rw [ha]; simp)) (by rw [hcfg]; exact he)
  rw [hcfg] at o1 o2
  rw [hst, hcfg] at hsize
  refine ⟨⟨?_, hsize.ge⟩, hsize, o1, fun hand hh => ?_⟩
  · have := (C74_order h h1).1
    rw [shuffle_toOrder ht ho] at this
    rw [← this, ← hsize, List.take_length, List.drop_length, List.nil_append, List.append_assoc]
  · obtain ⟨i, hi, rfl⟩ := (mem_getD []).1 hh
    exact o2 i (by rw [← o1]; exact hi)

/-- **C92** for the array engine: every hand of cards is equally likely for every seat. -/
theorem C92_hand (h : ArrayReachable d) (ht : d.deck.tricked = false) (he : Enough d.cfg) (h0 : reset d rb rs sh = (e, .ok obs)) {i : Nat}
    (hi : i < d.cfg.numPlayers) {hand : List Card} (hl : hand.length = d.cfg.numHoleCards.toNat) (hg : GameCards d.cfg hand) :
    chance (orders d) (fun o => ((reset d rb rs (toOrder o)).1.holeCards.getD i []).Perm hand) =
      1 / ((deckSize d.cfg).choose d.cfg.numHoleCards.toNat : Rat) := by
  have hd := array_dealt' h
  have hsz := full_length hd
  have hen : d.cfg.numPlayers * d.cfg.numHoleCards.toNat + boardSize d.cfg 0 ≤ deckSize d.cfg := by
    have h1 : boardSize d.cfg 0 ≤ (d.cfg.numCommunityCards.map Int.toNat).sum := by
      unfold boardSize
      conv_rhs => rw [← List.take_append_drop (0 + 1) d.cfg.numCommunityCards, List.map_append, List.sum_append]
      omega
    unfold Enough at he
    unfold deckSize
    omega
  have hmul : i * d.cfg.numHoleCards.toNat + d.cfg.numHoleCards.toNat ≤ d.cfg.numPlayers * d.cfg.numHoleCards.toNat := by
    rw [← Nat.succ_mul]; exact Nat.mul_le_mul_right _ hi
  have hb0 : (d.cfg.numCommunityCards.getD 0 0).toNat = boardSize d.cfg 0 := by
    unfold boardSize
    cases d.cfg.numCommunityCards with
    | nil => rfl
    | cons x l => simp
  have key := count_segment_set (s := boardSize d.cfg 0 + i * d.cfg.numHoleCards.toNat) hd.wf.cards_nodup hg.1
    (fun x hx => full_mem hd (hg.2 x hx)) (by rw [hl, hsz]; omega)
  rw [← hsz, ← hl]
  refine chance_choose (by rw [hsz, hl]; omega) (key ▸ List.countP_congr fun o ho => ?_)
  obtain ⟨e', obs', he'⟩ := array_reset_any (array_seated h) h0 (toOrder o)
  have hh := (C74_order h he').2.2.2 i hi
  rw [shuffle_toOrder ht ho, List.drop_drop, hb0] at hh
  rw [he', hh, hl]

/-- **C92** for the array engine: every deal is equally likely: the hands of all players and the first community cards. -/
theorem C92_deal (h : ArrayReachable d) (ht : d.deck.tricked = false) (he : Enough d.cfg) (h0 : reset d rb rs sh = (e, .ok obs))
    {H : List (List Card)} {B : List Card} (hH : HandsShape d.cfg H) (hB : B.length = boardSize d.cfg 0) (hg : GameCards d.cfg (H.flatten ++ B)) :
    chance (orders d) (fun o => (reset d rb rs (toOrder o)).1.holeCards = H ∧ (reset d rb rs (toOrder o)).1.communityCards = B) =
      1 / ((deckSize d.cfg).descFactorial (d.cfg.numPlayers * d.cfg.numHoleCards.toNat + B.length) : Rat) := by
  have hd := array_dealt' h
  rw [← full_length hd]
  have hm : ∀ x ∈ H.flatten ++ B, x ∈ d.deck.fullDeck := fun x hx => full_mem hd (hg.2 x hx)
  have hle := (List.subperm_of_subset hg.1 hm).length_le
  rw [List.length_append, List.length_flatten, shape_lengths hH, List.sum_replicate_nat] at hle
  refine chance_count hle (laid_count (c := boardSize d.cfg 0) hd.wf.cards_nodup (fun o ho => ?_) hB.ge (shape_lengths hH) hg.1 hm)
  obtain ⟨e', obs', he'⟩ := array_reset_any (array_seated h) h0 (toOrder o)
  obtain ⟨l1, l2, l3⟩ := array_laid_reset h ht he ho he'
  rw [he']
  exact ⟨l1, by rw [l2, hB], shape_lengths l3⟩

theorem array_laid_bets {c : Nat} (h : ArrayReachable d) (hl : Laid c o d) (bets : List PyNum) :
    ArrayReachable (arrayAfter d bets) ∧ Laid c o (arrayAfter d bets) ∧ (arrayAfter d bets).holeCards = d.holeCards ∧
    (arrayAfter d bets).cfg = d.cfg := by
  induction bets generalizing d with
  | nil => exact ⟨h, hl, rfl, rfl⟩
  | cons b bets ih =>
    obtain ⟨g1, g2, g3⟩ := C74_grow h b
    obtain ⟨i1, i2, i3, i4⟩ := ih (.step b h) (laid_grow hl g1 g2 g3)
    exact ⟨i1, i2, i3.trans g2, i4.trans (step_cfg d b)⟩

/-- **C92** for the array engine: every board is equally likely, whatever is bet. -/
theorem C92_board (h : ArrayReachable d) (ht : d.deck.tricked = false) (he : Enough d.cfg) (hs : IsShuffle sh)
    (h0 : reset d rb rs sh = (e, .ok obs)) (hon : Running (arrayAfter e bets)) {H : List (List Card)} {B : List Card}
    (hH : HandsShape d.cfg H) (hB : B.length = boardSize d.cfg (step (arrayAfter e bets) bet).1.street)
    (hg : GameCards d.cfg (H.flatten ++ B)) :
    chance (orders d) (fun o => (step (arrayAfter (reset d rb rs (toOrder o)).1 bets) bet).1.holeCards = H ∧
        (step (arrayAfter (reset d rb rs (toOrder o)).1 bets) bet).1.communityCards = B) =
      1 / ((deckSize d.cfg).descFactorial (d.cfg.numPlayers * d.cfg.numHoleCards.toNat + B.length) : Rat) := by
  have hd := array_dealt' h
  have htwo : 2 ≤ d.cfg.numPlayers := (array_seated h).two
  rw [← full_length hd]
  have hm : ∀ x ∈ H.flatten ++ B, x ∈ d.deck.fullDeck := fun x hx => full_mem hd (hg.2 x hx)
  have hle := (List.subperm_of_subset hg.1 hm).length_le
  rw [List.length_append, List.length_flatten, shape_lengths hH, List.sum_replicate_nat] at hle
  have hfin : ∀ o ∈ orders d, Laid (boardSize d.cfg 0) o (step (arrayAfter (reset d rb rs (toOrder o)).1 bets) bet).1 ∧
      (step (arrayAfter (reset d rb rs (toOrder o)).1 bets) bet).1.communityCards.length = B.length ∧
      HandsShape d.cfg (step (arrayAfter (reset d rb rs (toOrder o)).1 bets) bet).1.holeCards := by
    intro o ho
    obtain ⟨e', obs', he'⟩ := array_reset_any (array_seated h) h0 (toOrder o)
    obtain ⟨l1, l2, l3⟩ := array_laid_reset h ht he ho he'
    have hre : ArrayReachable e' := by
      have := ArrayReachable.reset rb rs (isShuffle_toOrder o) h
      rwa [he'] at this
    have hcfg : e'.cfg = d.cfg := (C41_clean (array_seated h) (reset_ok_atSeat (array_seated h) he')).1
    obtain ⟨b1, b2, b3, b4⟩ := array_laid_bets hre l1 bets
    obtain ⟨g1, g2, g3⟩ := C74_grow b1 bet
    have hsame := C89_blind (S := startStacks d rs) (.dealt (array_seated h) hs h0) (C89_deal h0 he') bets hon
    have hhand := step_hand hsame (by obtain ⟨⟨a, ha⟩, -⟩ := hon; rw [ha]; simp) bet
    have hcf : (step (arrayAfter e' bets) bet).1.cfg = d.cfg := by rw [step_cfg, b4, hcfg]
    have hne : (step (arrayAfter e' bets) bet).1.holeCards ≠ [] := by
      rw [g2, b3]
      intro h
      have := l3.1
      rw [h] at this
      simp at this
      omega
    have hsize := (C74_shape (ArrayReachable.step bet b1) (.inr hne) (by rw [hcf]; exact he)).2.2
    rw [he']
    refine ⟨laid_grow b2 g1 g2 g3, ?_, ?_⟩
    · rw [hsize, hcf, hhand.street, ← hB]
    · rw [g2, b3]; exact l3
  refine chance_count hle (laid_count (c := boardSize d.cfg 0) hd.wf.cards_nodup (fun o ho => ?_) ?_ (shape_lengths hH) hg.1 hm)
  · obtain ⟨f1, f2, f3⟩ := hfin o ho
    exact ⟨f1, f2, shape_lengths f3⟩
  · obtain ⟨f1, f2, -⟩ := hfin d.deck.fullDeck (List.mem_permutations.2 (List.Perm.refl _))
    rw [← f2]
    exact f1.first

/-- **C92** for the array engine: `win_probabilities` in terms of the orders of the deck, if fewer than 1000 boards are possible. -/
theorem C92_odds (h : ArrayReachable d) (hone : ∃ i < d.cfg.numPlayers, isIn d i) (h0 : 0 ≤ toCome d) (h1 : toCome d ≤ d.deck.cards.length)
    (hb : (boards d).length < 1000) {n : Int} {sample : Nat → List Card} {ps : List Rat} (hp : winProbabilities d n sample = .ok ps)
    (i : Nat) (hi : i < d.cfg.numPlayers) :
    ps.getD i 0 = chanceBest d i / ((List.range d.cfg.numPlayers).map (chanceBest d)).sum := by
  rw [C73_exact (by omega) h0 h1 hb] at hp
  exact dealt_chances (array_dealt' h) hone h1 hp i hi

set_option synthInstance.maxSize 1024 in
/-- the hypotheses of `C92_hand`, `C92_deal` and `C92_board` -/
example : ∃ d e obs, ArrayReachable d ∧ IsShuffle id ∧ reset d false false id = (e, .ok obs) ∧ d.deck.tricked = false ∧ Enough d.cfg ∧
    Running (arrayAfter e [.fin 2, .fin 1]) ∧ deckSize d.cfg = 8 ∧
    ∃ H B, HandsShape d.cfg H ∧ B.length = boardSize d.cfg (step (arrayAfter e [.fin 2, .fin 1]) (.fin 0)).1.street ∧
      B.length = 2 ∧ H.map List.length = [1, 1, 1] ∧ GameCards d.cfg (H.flatten ++ B) := by
  obtain ⟨d, e, -, o, -, h1, h2, -, h3, -, h4⟩ := deals_exist (board 3 [1, 2, 0] 10) [.bet (-1), .bet (-1)] isShuffle_id isShuffle_id
    [.fin 2, .fin 1] (.fin 0) (P := fun d0 d d' _ _ _ => d0.deck.tricked = false ∧ Enough d0.cfg ∧ Running d ∧ deckSize d0.cfg = 8 ∧
      d'.street = 1 ∧ d'.communityCards.length = 2 ∧ boardSize d0.cfg 1 = 2 ∧ d'.holeCards.map List.length = [1, 1, 1] ∧
      (d'.holeCards.length = d0.cfg.numPlayers ∧ ∀ h ∈ d'.holeCards, h.length = d0.cfg.numHoleCards.toNat)) (by decide +kernel)
  have hre : ArrayReachable e := by
    have := ArrayReachable.reset false false h2 h1
    rwa [h3] at this
  have hg := game_cards (array_dealt' (ArrayReachable.step (.fin 0) (.step (.fin 1) (.step (.fin 2) hre))))
  obtain ⟨a1, a2, a3, a4, a5, a7, a8, a9, a10⟩ := h4
  have a6 : e.cfg = d.cfg := (C41_clean (array_seated h1) (reset_ok_atSeat (array_seated h1) h3)).1
  rw [step_cfg, step_cfg, step_cfg, a6] at hg
  refine ⟨d, e, o, h1, h2, h3, a1, a2, a3, a4, _, _, a10, ?_, a7, a9, hg⟩
  rw [a5, a8, a7]

/-- the hypotheses of `C92_odds` -/
example : ∃ S d, ArrayInHand S d ∧ ArrayReachable d ∧ (∃ i < d.cfg.numPlayers, isIn d i) ∧ 0 ≤ toCome d ∧ toCome d ≤ d.deck.cards.length ∧
    (boards d).length < 1000 ∧ winProbabilities d 5 (fun _ => []) = .ok [3 / 11, 3 / 11, 5 / 11] := hand_exists twoToCome [] (by decide +kernel)

end Clubs.Numpy
