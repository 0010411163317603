import Verif.Spec.Fair
import Verif.Lemmas.Fair
import Verif.Props.Better
import Verif.Props.Config
import Verif.Props.Odds
import Mathlib.Data.Nat.Factorial.Cast
import Mathlib.Tactic.FieldSimp

/-!
# Every deal is equally likely: C92
-/

namespace Clubs

open Spec

variable {d e E E' : Dealer} {o : List Card} {rb rs : Bool} {sh : Shuffle} {obs : Observation} {bets : List PyNum} {bet : PyNum}

theorem isShuffle_toOrder (o : List Card) : IsShuffle (toOrder o) := by
  intro l
  unfold toOrder
  split
  · next h => exact (List.isPerm_iff.1 h).symm
  · exact List.Perm.refl _

theorem shuffle_toOrder {D : Deck} (ht : D.tricked = false) (ho : o ∈ D.fullDeck.permutations) : (D.shuffle (toOrder o)).cards = o := by
  have hp : D.fullDeck.isPerm o = true := List.isPerm_iff.2 (List.mem_permutations.1 ho).symm
  unfold Deck.shuffle toOrder
  simp [ht, hp]

/-- the cards of the order `o` lie at the table: the first `c` community cards, the hands, the other community cards, the deck -/
structure Laid (c : Nat) (o : List Card) (E : Dealer) : Prop where
  cards : o = E.communityCards.take c ++ (E.holeCards.flatten ++ (E.communityCards.drop c ++ E.deck.cards))
  first : c ≤ E.communityCards.length

theorem laid_grow {c : Nat} (h : Laid c o E) (h1 : E.communityCards <+: E'.communityCards) (h2 : E'.holeCards = E.holeCards)
    (h3 : E'.communityCards ++ E'.deck.cards = E.communityCards ++ E.deck.cards) : Laid c o E' := by
  obtain ⟨x, hx⟩ := h1
  have hf := h.first
  have e1 : E'.communityCards.take c = E.communityCards.take c := by rw [← hx, List.take_append_of_le_length hf]
  have e2 : E'.communityCards.drop c ++ E'.deck.cards = E.communityCards.drop c ++ E.deck.cards := by
    rw [← List.drop_append_of_le_length hf, ← h3, List.drop_append_of_le_length (by rw [← hx, List.length_append]; omega)]
  exact ⟨by rw [e1, h2, e2]; exact h.cards, by rw [← hx, List.length_append]; omega⟩

/-- If the cards lie like this for every order, then all hands and boards come equally often. -/
theorem laid_count {L : List Card} {f : List Card → Dealer} {c n m : Nat} {H : List (List Card)} {B : List Card} (hL : L.Nodup)
    (hf : ∀ o ∈ L.permutations, Laid c o (f o) ∧ (f o).communityCards.length = B.length ∧
      (f o).holeCards.map List.length = List.replicate n m) (hc : c ≤ B.length)
    (hH : H.map List.length = List.replicate n m) (hN : (H.flatten ++ B).Nodup) (hm : ∀ x ∈ H.flatten ++ B, x ∈ L) :
    L.permutations.countP (fun o => (f o).holeCards = H ∧ (f o).communityCards = B) = (L.length - (n * m + B.length)).factorial := by
  have hlen : H.flatten.length = n * m := by rw [List.length_flatten, hH, List.sum_replicate_nat]
  have hp : (B.take c ++ (H.flatten ++ B.drop c)).Perm (H.flatten ++ B) := by
    rw [← List.append_assoc]
    refine (List.perm_append_comm.append_right _).trans ?_
    rw [List.append_assoc, List.take_append_drop]
  have hpl := hp.length_eq
  have hNl : (H.flatten ++ B).length ≤ L.length := (List.subperm_of_subset hN hm).length_le
  have key := count_segment (s := 0) hL (hp.nodup_iff.2 hN) (fun x hx => hm x (hp.mem_iff.1 hx)) (by rw [hpl]; omega)
  rw [hpl, List.length_append, hlen] at key
  rw [← key]
  refine List.countP_congr fun o ho => ?_
  obtain ⟨h1, h2, h3⟩ := hf o ho
  have hfl : (f o).holeCards.flatten.length = n * m := by rw [List.length_flatten, h3, List.sum_replicate_nat]
  simp only [decide_eq_true_eq, List.drop_zero]
  have hoc : o = ((f o).communityCards.take c ++ ((f o).holeCards.flatten ++ (f o).communityCards.drop c)) ++ (f o).deck.cards := by
    conv_lhs => rw [h1.cards]
    simp only [List.append_assoc]
  have hol : ((f o).communityCards.take c ++ ((f o).holeCards.flatten ++ (f o).communityCards.drop c)).length = n * m + B.length := by
    have := h1.first
    simp only [List.length_append, List.length_take, List.length_drop, hfl]
    omega
  rw [show o.take (n * m + B.length) = (f o).communityCards.take c ++ ((f o).holeCards.flatten ++ (f o).communityCards.drop c) by
    conv_lhs => rw [hoc]
    exact List.take_left' hol]
  constructor
  · rintro ⟨e1, e2⟩
    rw [e1, e2]
  · intro e1
    obtain ⟨e2, e3⟩ := List.append_inj e1 (by simp only [List.length_take, h2])
    obtain ⟨e4, e5⟩ := List.append_inj e3 (by rw [hfl, hlen])
    refine ⟨List.eq_iff_flatten_eq.2 ⟨e4, by rw [h3, hH]⟩, ?_⟩
    rw [← List.take_append_drop c (f o).communityCards, e2, e5, List.take_append_drop]

theorem chance_count {L : List Card} {p : List Card → Bool} {k : Nat} (hk : k ≤ L.length)
    (h : L.permutations.countP p = (L.length - k).factorial) : chance L.permutations p = 1 / (L.length.descFactorial k : Rat) := by
  unfold chance
  rw [h, List.length_permutations, ← Nat.factorial_mul_descFactorial hk]
  have h1 : ((L.length - k).factorial : Rat) ≠ 0 := by exact_mod_cast Nat.factorial_ne_zero _
  have h2 : (L.length.descFactorial k : Rat) ≠ 0 := by
    have := Nat.descFactorial_eq_zero_iff_lt (n := L.length) (k := k)
    exact_mod_cast fun h => absurd (this.1 h) (by omega)
  push_cast
  field_simp

theorem chance_choose {L : List Card} {p : List Card → Bool} {k : Nat} (hk : k ≤ L.length)
    (h : L.permutations.countP p = k.factorial * (L.length - k).factorial) : chance L.permutations p = 1 / (L.length.choose k : Rat) := by
  unfold chance
  rw [h, List.length_permutations, ← Nat.choose_mul_factorial_mul_factorial hk]
  have h1 : ((L.length - k).factorial : Rat) ≠ 0 := by exact_mod_cast Nat.factorial_ne_zero _
  have h2 : (k.factorial : Rat) ≠ 0 := by exact_mod_cast Nat.factorial_ne_zero _
  have h3 : (L.length.choose k : Rat) ≠ 0 := by exact_mod_cast (Nat.choose_pos hk).ne'
  push_cast
  field_simp

/-! ## facts about the deck -/

theorem full_length (hd : Dealt d) : d.deck.fullDeck.length = deckSize d.cfg := by
  have h := hd.size
  have := hd.perm.length_eq
  unfold deckSize
  omega

theorem full_mem (hd : Dealt d) {x : Card} (hx : InGame d.cfg x) : x ∈ d.deck.fullDeck :=
  hd.perm.mem_iff.1 (((dealt_cards hd).2.2 x).2 hx)

theorem shape_lengths {c : Config} {H : List (List Card)} (h : HandsShape c H) :
    H.map List.length = List.replicate c.numPlayers c.numHoleCards.toNat := by
  rw [List.eq_replicate_iff]
  refine ⟨by rw [List.length_map, h.1], fun x hx => ?_⟩
  obtain ⟨y, hy, rfl⟩ := List.mem_map.1 hx
  exact h.2 y hy

theorem reset_any (h : Seated d) (h0 : d.reset rb rs sh = (e, .ok obs)) (sh' : Shuffle) :
    ∃ e' obs', d.reset rb rs sh' = (e', .ok obs') := by
  obtain ⟨h1, h2, -, -⟩ := reset_ok h0
  rcases reset_eq d rb rs sh' with ⟨g0, g1, -⟩ | ⟨-, ⟨g2, -⟩ | ⟨-, e⟩⟩
  · exfalso
    rcases h1 with h1 | h1
    · rw [h1] at g0; simp at g0
    · omega
  · omega
  · obtain ⟨hl, h3, -⟩ := posted_live (rb := rb) (shuf := sh') h h1 h2
    obtain ⟨obs', ho⟩ := live_observation hl (by rw [h3]; have := hl.oneStreet; omega)
    exact ⟨_, obs', by rw [e, ho]⟩

theorem laid_reset (h : Reachable d) (ht : d.deck.tricked = false) (he : Enough d.cfg) (ho : o ∈ orders d)
    (h1 : d.reset rb rs (toOrder o) = (e, .ok obs)) :
    Laid (boardSize d.cfg 0) o e ∧ e.communityCards.length = boardSize d.cfg 0 ∧ HandsShape d.cfg e.holeCards := by
  have hre : Reachable e := by
    have := Reachable.reset rb rs (isShuffle_toOrder o) h
    rwa [h1] at this
  obtain ⟨hl, hst, -⟩ := dealt_live (reachable_seated h) h1
  have hcfg : e.cfg = d.cfg := (C41_clean (reachable_seated h) h1).1
  obtain ⟨a, ha, -⟩ := hl.action
  have hr : e.action ≠ none ∨ e.holeCards ≠ [] := .inl (by rw [ha]; simp)
  have hsize := C40_size hre hr (by rw [hcfg]; exact he)
  rw [hst, hcfg] at hsize
  obtain ⟨o1, o2⟩ := C39_hole hre hr (by rw [hcfg]; exact he)
  rw [hcfg] at o1 o2
  refine ⟨⟨?_, hsize.ge⟩, hsize, o1, o2⟩
  have := (C51_order h1).1
  rw [shuffle_toOrder ht ho] at this
  rw [← this, ← hsize, List.take_length, List.drop_length, List.nil_append, List.append_assoc]

/-! ## C92 -/

/-- **C92**: every hand of cards is equally likely for every seat: if `n` cards are in the game and `m` of them are dealt to a seat, the
chance to get certain `m` cards is 1 to `n` choose `m`. -/
theorem C92_hand (h : Reachable d) (ht : d.deck.tricked = false) (he : Enough d.cfg) (h0 : d.reset rb rs sh = (e, .ok obs)) {i : Nat}
    (hi : i < d.cfg.numPlayers) {hand : List Card} (hl : hand.length = d.cfg.numHoleCards.toNat) (hg : GameCards d.cfg hand) :
    chance (orders d) (fun o => ((d.reset rb rs (toOrder o)).1.holeCards.getD i []).Perm hand) =
      1 / ((deckSize d.cfg).choose d.cfg.numHoleCards.toNat : Rat) := by
  have hd := reachable_dealt h
  have hsz := full_length hd
  have hen : d.cfg.numPlayers * d.cfg.numHoleCards.toNat + boardSize d.cfg 0 ≤ deckSize d.cfg := by
    have h1 : boardSize d.cfg 0 ≤ (d.cfg.numCommunityCards.map Int.toNat).sum := by
      unfold boardSize
      conv_rhs => rw [← List.take_append_drop (0 + 1) d.cfg.numCommunityCards, List.map_append, List.sum_append]
      omega
    unfold Enough at he
    unfold deckSize
    omega
  have hmul : i * d.cfg.numHoleCards.toNat + d.cfg.numHoleCards.toNat ≤ d.cfg.numPlayers * d.cfg.numHoleCards.toNat := by
    rw [← Nat.succ_mul]; exact Nat.mul_le_mul_right _ hi
  have hb0 : (d.cfg.numCommunityCards.getD 0 0).toNat = boardSize d.cfg 0 := by
    unfold boardSize
    cases d.cfg.numCommunityCards with
    | nil => rfl
    | cons x l => simp
  have key := count_segment_set (s := boardSize d.cfg 0 + i * d.cfg.numHoleCards.toNat) hd.wf.cards_nodup hg.1
    (fun x hx => full_mem hd (hg.2 x hx)) (by rw [hl, hsz]; omega)
  rw [← hsz, ← hl]
  refine chance_choose (by rw [hsz, hl]; omega) (key ▸ List.countP_congr fun o ho => ?_)
  obtain ⟨e', obs', he'⟩ := reset_any (reachable_seated h) h0 (toOrder o)
  have hh := (C51_order he').2.2.2 i hi
  rw [shuffle_toOrder ht ho, List.drop_drop, hb0] at hh
  rw [he', hh, hl]

/-- **C92**: every deal is equally likely: the hands of all players and the first community cards. -/
theorem C92_deal (h : Reachable d) (ht : d.deck.tricked = false) (he : Enough d.cfg) (h0 : d.reset rb rs sh = (e, .ok obs))
    {H : List (List Card)} {B : List Card} (hH : HandsShape d.cfg H) (hB : B.length = boardSize d.cfg 0) (hg : GameCards d.cfg (H.flatten ++ B)) :
    chance (orders d) (fun o => (d.reset rb rs (toOrder o)).1.holeCards = H ∧ (d.reset rb rs (toOrder o)).1.communityCards = B) =
      1 / ((deckSize d.cfg).descFactorial (d.cfg.numPlayers * d.cfg.numHoleCards.toNat + B.length) : Rat) := by
  have hd := reachable_dealt h
  rw [← full_length hd]
  have hm : ∀ x ∈ H.flatten ++ B, x ∈ d.deck.fullDeck := fun x hx => full_mem hd (hg.2 x hx)
  have hle := (List.subperm_of_subset hg.1 hm).length_le
  rw [List.length_append, List.length_flatten, shape_lengths hH, List.sum_replicate_nat] at hle
  refine chance_count hle (laid_count (c := boardSize d.cfg 0) hd.wf.cards_nodup (fun o ho => ?_) hB.ge (shape_lengths hH) hg.1 hm)
  obtain ⟨e', obs', he'⟩ := reset_any (reachable_seated h) h0 (toOrder o)
  obtain ⟨l1, l2, l3⟩ := laid_reset h ht he ho he'
  rw [he']
  exact ⟨l1, by rw [l2, hB], shape_lengths l3⟩

theorem laid_bets {c : Nat} (h : Reachable d) (hl : Laid c o d) (bets : List PyNum) :
    Reachable (Spec.afterBets d bets) ∧ Laid c o (Spec.afterBets d bets) ∧ (Spec.afterBets d bets).holeCards = d.holeCards ∧
    (Spec.afterBets d bets).cfg = d.cfg := by
  induction bets generalizing d with
  | nil => exact ⟨h, hl, rfl, rfl⟩
  | cons b bets ih =>
    obtain ⟨g1, g2, g3⟩ := C40_grow h b
    obtain ⟨i1, i2, i3, i4⟩ := ih (.step b h) (laid_grow hl g1 g2 g3)
    exact ⟨i1, i2, i3.trans g2, i4.trans (step_cfg d b)⟩

/-- **C92**: every board is equally likely, whatever is bet: with the same bets, all hands and boards come equally often. `e` is the table
after some deal; the bets decide how many community cards there are. -/
theorem C92_board (h : Reachable d) (ht : d.deck.tricked = false) (he : Enough d.cfg) (hs : IsShuffle sh)
    (h0 : d.reset rb rs sh = (e, .ok obs)) (hon : Running (Spec.afterBets e bets)) {H : List (List Card)} {B : List Card}
    (hH : HandsShape d.cfg H) (hB : B.length = boardSize d.cfg ((Spec.afterBets e bets).step bet).1.street)
    (hg : GameCards d.cfg (H.flatten ++ B)) :
    chance (orders d) (fun o => ((Spec.afterBets (d.reset rb rs (toOrder o)).1 bets).step bet).1.holeCards = H ∧
        ((Spec.afterBets (d.reset rb rs (toOrder o)).1 bets).step bet).1.communityCards = B) =
      1 / ((deckSize d.cfg).descFactorial (d.cfg.numPlayers * d.cfg.numHoleCards.toNat + B.length) : Rat) := by
  have hd := reachable_dealt h
  have htwo := (reachable_seated h).two
  rw [← full_length hd]
  have hm : ∀ x ∈ H.flatten ++ B, x ∈ d.deck.fullDeck := fun x hx => full_mem hd (hg.2 x hx)
  have hle := (List.subperm_of_subset hg.1 hm).length_le
  rw [List.length_append, List.length_flatten, shape_lengths hH, List.sum_replicate_nat] at hle
  have hfin : ∀ o ∈ orders d, Laid (boardSize d.cfg 0) o ((Spec.afterBets (d.reset rb rs (toOrder o)).1 bets).step bet).1 ∧
      ((Spec.afterBets (d.reset rb rs (toOrder o)).1 bets).step bet).1.communityCards.length = B.length ∧
      HandsShape d.cfg ((Spec.afterBets (d.reset rb rs (toOrder o)).1 bets).step bet).1.holeCards := by
    intro o ho
    obtain ⟨e', obs', he'⟩ := reset_any (reachable_seated h) h0 (toOrder o)
    obtain ⟨l1, l2, l3⟩ := laid_reset h ht he ho he'
    have hre : Reachable e' := by
      have := Reachable.reset rb rs (isShuffle_toOrder o) h
      rwa [he'] at this
    have hcfg : e'.cfg = d.cfg := (C41_clean (reachable_seated h) he').1
    obtain ⟨b1, b2, b3, b4⟩ := laid_bets hre l1 bets
    obtain ⟨g1, g2, g3⟩ := C40_grow b1 bet
    have hsame := C89_blind (S := startStacks d rs) (.dealt (reachable_seated h) hs h0) (C89_deal h0 he') bets hon
    have hhand := step_hand hsame (by obtain ⟨⟨a, ha⟩, -⟩ := hon; rw [ha]; simp) bet
    have hcf : ((Spec.afterBets e' bets).step bet).1.cfg = d.cfg := by rw [step_cfg, b4, hcfg]
    have hne : ((Spec.afterBets e' bets).step bet).1.holeCards ≠ [] := by
      rw [g2, b3]
      intro h
      have := l3.1
      rw [h] at this
      simp at this
      omega
    have hsize := C40_size (Reachable.step bet b1) (.inr hne) (by rw [hcf]; exact he)
    rw [he']
    refine ⟨laid_grow b2 g1 g2 g3, ?_, ?_⟩
    · rw [hsize, hcf, hhand.street, ← hB]
    · rw [g2, b3]; exact l3
  refine chance_count hle (laid_count (c := boardSize d.cfg 0) hd.wf.cards_nodup (fun o ho => ?_) ?_ (shape_lengths hH) hg.1 hm)
  · obtain ⟨f1, f2, f3⟩ := hfin o ho
    exact ⟨f1, f2, shape_lengths f3⟩
  · obtain ⟨f1, f2, -⟩ := hfin d.deck.fullDeck (List.mem_permutations.2 (List.Perm.refl _))
    rw [← f2]
    exact f1.first

/-! ## winning chances -/

theorem bestOn_perm {b b' : List Card} (h : b.Perm b') (i : Nat) : bestOn d b i = bestOn d b' i := by
  have hr : ∀ j, rankOn d b j = rankOn d b' j := by
    intro j
    unfold rankOn
    rw [evaluate_perm _ (List.Perm.refl _) h]
  unfold bestOn
  simp only [hr]

theorem chanceBest_eq (h : Dealt d) (h1 : toCome d ≤ d.deck.cards.length) (i : Nat) :
    chanceBest d i = (timesBest d i : Rat) / (boards d).length := by
  have hn : d.deck.cards.Nodup := by
    have := h.perm.nodup_iff.2 h.wf.cards_nodup
    exact (List.nodup_append.1 this).2.1
  have hk : (toCome d).toNat ≤ d.deck.cards.length := by omega
  have key := count_sets hn hk (fun x => bestOn d (d.communityCards ++ x) i) fun a b hab => bestOn_perm (hab.append_left _) i
  unfold chanceBest chance timesBest boards
  rw [key, List.length_permutations, List.countP_map, List.length_map, List.length_sublistsLen, ← Nat.choose_mul_factorial_mul_factorial hk]
  have h1 : ((d.deck.cards.length - (toCome d).toNat).factorial : Rat) ≠ 0 := by exact_mod_cast Nat.factorial_ne_zero _
  have h2 : ((toCome d).toNat.factorial : Rat) ≠ 0 := by exact_mod_cast Nat.factorial_ne_zero _
  have h3 : (d.deck.cards.length.choose (toCome d).toNat : Rat) ≠ 0 := by exact_mod_cast (Nat.choose_pos hk).ne'
  push_cast
  field_simp
  rfl

theorem dealt_chances (hd : Dealt d) (hone : ∃ i < d.cfg.numPlayers, isIn d i) (h1 : toCome d ≤ d.deck.cards.length) {ps : List Rat}
    (hp : d.winProbabilities = .ok ps) (i : Nat) (hi : i < d.cfg.numPlayers) :
    ps.getD i 0 = chanceBest d i / ((List.range d.cfg.numPlayers).map (chanceBest d)).sum := by
  obtain ⟨-, h0, -, -⟩ := winProbabilities_eq hone hp
  have hk : (toCome d).toNat ≤ d.deck.cards.length := by omega
  have hb : ((boards d).length : Rat) ≠ 0 := by
    unfold boards
    rw [List.length_map, List.length_sublistsLen]
    exact_mod_cast (Nat.choose_pos hk).ne'
  rw [(C46_values_partial hone hp).2 i hi, chanceBest_eq hd h1]
  have : ((List.range d.cfg.numPlayers).map (chanceBest d)).sum =
      ((((List.range d.cfg.numPlayers).map (timesBest d)).sum : Nat) : Rat) / (boards d).length := by
    rw [List.map_congr_left fun j _ => chanceBest_eq hd h1 j]
    generalize ((boards d).length : Rat) = q
    induction List.range d.cfg.numPlayers with
    | nil => simp
    | cons a l ih => rw [List.map_cons, List.sum_cons, ih, List.map_cons, List.sum_cons]; push_cast; rw [add_div]
  rw [this, div_div_div_cancel_right₀ hb]

theorem dealt_chances_no_ties (hd : Dealt d) (hone : ∃ i < d.cfg.numPlayers, isIn d i) (h1 : toCome d ≤ d.deck.cards.length) {ps : List Rat}
    (hp : d.winProbabilities = .ok ps) (ht : ∀ b ∈ boards d, numBest d b = 1) (i : Nat) (hi : i < d.cfg.numPlayers) :
    ps.getD i 0 = chanceBest d i := by
  rw [C46_no_ties hone hp ht i hi, chanceBest_eq hd h1]
  unfold equity timesBest
  congr 1
  have : ∀ b ∈ boards d, (if bestOn d b i = true then 1 / (numBest d b : Rat) else 0) = if bestOn d b i = true then 1 else 0 := by
    intro b hb
    rw [ht b hb]; simp
  rw [List.map_congr_left this]
  induction boards d with
  | nil => simp
  | cons b l ih =>
    rw [List.map_cons, List.sum_cons, ih, List.countP_cons]
    split <;> simp [add_comm]

/-- **C92**: `win_probabilities` in terms of the orders of the deck: the chance to have the best hand when the rest of the board is dealt from the
deck, divided by the sum of these chances over all players. -/
theorem C92_odds (h : Reachable d) (hone : ∃ i < d.cfg.numPlayers, isIn d i) (h1 : toCome d ≤ d.deck.cards.length) {ps : List Rat}
    (hp : d.winProbabilities = .ok ps) (i : Nat) (hi : i < d.cfg.numPlayers) :
    ps.getD i 0 = chanceBest d i / ((List.range d.cfg.numPlayers).map (chanceBest d)).sum :=
  dealt_chances (reachable_dealt h) hone h1 hp i hi

/-- **C92**: if no board ends in a tie, `win_probabilities` are these chances themselves. -/
theorem C92_odds_no_ties (h : Reachable d) (hone : ∃ i < d.cfg.numPlayers, isIn d i) (h1 : toCome d ≤ d.deck.cards.length) {ps : List Rat}
    (hp : d.winProbabilities = .ok ps) (ht : ∀ b ∈ boards d, numBest d b = 1) (i : Nat) (hi : i < d.cfg.numPlayers) :
    ps.getD i 0 = chanceBest d i := dealt_chances_no_ties (reachable_dealt h) hone h1 hp ht i hi

/-! ## examples -/

theorem game_cards (hd : Dealt d) : GameCards d.cfg (d.holeCards.flatten ++ d.communityCards) := by
  have hn := hd.perm.nodup_iff.2 hd.wf.cards_nodup
  exact ⟨(List.nodup_append.1 hn).1, fun x hx => ((dealt_cards hd).2.2 x).1 (List.mem_append_left _ hx)⟩

set_option synthInstance.maxSize 1024 in
/-- the hypotheses of `C92_hand`, `C92_deal` and `C92_board`: three players, eight cards, one hole card each and a board of one and of two cards;
the cards dealt are possible cards -/
example : ∃ d e obs, Reachable d ∧ IsShuffle id ∧ d.reset false false id = (e, .ok obs) ∧ d.deck.tricked = false ∧ Enough d.cfg ∧
    Running (Spec.afterBets e [.fin 2, .fin 1]) ∧ deckSize d.cfg = 8 ∧
    ∃ H B, HandsShape d.cfg H ∧ B.length = boardSize d.cfg ((Spec.afterBets e [.fin 2, .fin 1]).step (.fin 0)).1.street ∧
      B.length = 2 ∧ H.map List.length = [1, 1, 1] ∧ GameCards d.cfg (H.flatten ++ B) := by
  obtain ⟨d, e, -, o, -, h1, h2, -, h3, -, h4⟩ := deals_exist (board 3 [1, 2, 0] 10) [.bet (-1), .bet (-1)] isShuffle_id isShuffle_id
    [.fin 2, .fin 1] (.fin 0) (P := fun d0 d d' _ _ _ => d0.deck.tricked = false ∧ Enough d0.cfg ∧ Running d ∧ deckSize d0.cfg = 8 ∧
      d'.street = 1 ∧ d'.communityCards.length = 2 ∧ boardSize d0.cfg 1 = 2 ∧ d'.holeCards.map List.length = [1, 1, 1] ∧
      (d'.holeCards.length = d0.cfg.numPlayers ∧ ∀ h ∈ d'.holeCards, h.length = d0.cfg.numHoleCards.toNat)) (by decide +kernel)
  have hre : Reachable e := by
    have := Reachable.reset false false h2 h1
    rwa [h3] at this
  have hg := game_cards (reachable_dealt (Reachable.step (.fin 0) (.step (.fin 1) (.step (.fin 2) hre))))
  obtain ⟨a1, a2, a3, a4, a5, a7, a8, a9, a10⟩ := h4
  have a6 : e.cfg = d.cfg := (C41_clean (reachable_seated h1) h3).1
  rw [step_cfg, step_cfg, step_cfg, a6] at hg
  refine ⟨d, e, o, h1, h2, h3, a1, a2, a3, a4, _, _, a10, ?_, a7, a9, hg⟩
  rw [a5, a8, a7]

/-- the hypotheses of `C92_odds` with two cards to come; ten boards, three players -/
example : ∃ S d, InHand S d ∧ Reachable d ∧ (∃ i < d.cfg.numPlayers, isIn d i) ∧ toCome d ≤ d.deck.cards.length ∧
    d.winProbabilities = .ok [3 / 11, 3 / 11, 5 / 11] := hand_exists twoToCome [] (by decide +kernel)

/-- the hypotheses of `C92_odds_no_ties` -/
example : ∃ S d, InHand S d ∧ Reachable d ∧ (∃ i < d.cfg.numPlayers, isIn d i) ∧ toCome d ≤ d.deck.cards.length ∧
    (∀ b ∈ boards d, numBest d b = 1) ∧ (boards d).length = 4 ∧ d.winProbabilities = .ok [1, 0, 0] :=
  hand_exists { board 3 [1, 2, 0] 10 with numCardsForHand := 2 } [.bet 2, .bet (-1)] (by decide +kernel)

end Clubs
