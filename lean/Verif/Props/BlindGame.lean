import Verif.Lemmas.BlindGame
import Verif.Props.Exchange
import Verif.Props.NumpyFair
import Verif.Props.NumpyStuck
import Verif.Props.Money

/-!
# C111: nobody wins on average by betting without looking at the cards
-/

namespace Clubs.Spec

/-- what seat `i` is paid, nothing if there is an exception -/
def paid (r : Except Err StepOut) (i : Nat) : Int :=
  match r with
  | .ok out => out.2.1.getD i 0
  | .error _ => 0

/-- the mean over the possibilities `os` -/
def mean (os : List (List Card)) (x : List Card → Int) : Rat := ((os.map x).sum : Rat) / (os.length : Rat)

/-- the value that the evaluator gives the hand of seat `i` -/
def value (d : Dealer) (i : Nat) : Int :=
  ((d.cfg.evaluator.evaluate (d.holeCards.getD i []) d.communityCards).toOption).getD 0

end Clubs.Spec

namespace Clubs

open Spec

variable {S : List Int} {d e E E' : Dealer} {o : List Card} {rb rs : Bool} {sh : Shuffle} {obs : Observation} {bets : List PyNum}
  {bet : PyNum} {c n m len i j : Nat}

/-- which cards of the order lie where: the community cards of the first street, the hands, the other community cards -/
structure Seen (c n m len : Nat) (o : List Card) (E : Dealer) : Prop where
  holes : ∀ i < n, E.holeCards.getD i [] = (o.drop (c + i * m)).take m
  board : ∀ p, E.communityCards[p]? = if p < len then (if p < c then o[p]? else o[p + n * m]?) else none

theorem seen_of_laid (h : Laid c o E) (hl : E.communityCards.length = len) (hf : E.holeCards.flatten.length = n * m)
    (hh : ∀ i < n, E.holeCards.getD i [] = (o.drop (c + i * m)).take m) : Seen c n m len o E := by
  refine ⟨hh, fun p => ?_⟩
  have hc := h.first
  have e1 : (E.communityCards.take c).length = c := by rw [List.length_take]; omega
  by_cases hp : p < len
  · rw [if_pos hp]
    by_cases hpc : p < c
    · rw [if_pos hpc, h.cards, List.getElem?_append_left (by omega), List.getElem?_take, if_pos hpc]
    · rw [if_neg hpc, h.cards, List.getElem?_append_right (by omega), e1, List.getElem?_append_right (by omega), hf,
        List.getElem?_append_left (by rw [List.length_drop]; omega), List.getElem?_drop]
      congr 1
      omega
  · rw [if_neg hp, List.getElem?_eq_none (by omega)]

theorem seat_end (hij : i < j) : c + i * m + m ≤ c + j * m := by
  have : (i + 1) * m ≤ j * m := Nat.mul_le_mul_right _ hij
  rw [Nat.succ_mul] at this
  omega

/-- with the cards of two seats exchanged in the order of the deck, the seats have exchanged their cards -/
theorem seen_exchanged (hn : E.cfg.numPlayers = n) (hij : i < j) (hj : j < n) (ho : c + n * m ≤ o.length) (h : Seen c n m len o E)
    (h' : Seen c n m len (swapCards (c + i * m) (c + j * m) m o) E') : Exchanged (Equiv.swap i j) E E' := by
  have hab := seat_end (c := c) (m := m) hij
  have hbn := seat_end (c := c) (m := m) hj
  have get := swapCards_get (o := o) hab (by omega)
  constructor
  · apply List.ext_getElem?
    intro p
    rw [h.board, h'.board, get, get]
    have hci : c ≤ c + i * m := Nat.le_add_right _ _
    generalize c + i * m = a at *
    generalize c + j * m = b at *
    by_cases hp : p < len
    · rw [if_pos hp, if_pos hp]
      by_cases hpc : p < c
      · rw [if_pos hpc, if_pos hpc]
        unfold swapPlace
        rw [if_neg (by omega), if_neg (by omega)]
      · rw [if_neg hpc, if_neg hpc]
        unfold swapPlace
        rw [if_neg (by omega), if_neg (by omega)]
    · rw [if_neg hp, if_neg hp]
  · intro k hk _
    rw [hn] at hk
    have hs : Equiv.swap i j k < n := by rw [Equiv.swap_apply_def]; split_ifs <;> omega
    rw [h.holes k hk, h'.holes _ hs]
    apply List.ext_getElem?
    intro x
    rw [List.getElem?_take, List.getElem?_take]
    by_cases hx : x < m
    · rw [if_pos hx, if_pos hx, List.getElem?_drop, List.getElem?_drop, get]
      congr 1
      rw [Equiv.swap_apply_def]
      by_cases k1 : k = i
      · subst k1
        rw [if_pos rfl]
        unfold swapPlace
        rw [if_neg (by omega), if_pos (by omega)]
        omega
      · rw [if_neg k1]
        by_cases k2 : k = j
        · subst k2
          rw [if_pos rfl]
          unfold swapPlace
          rw [if_pos (by omega)]
          omega
        · rw [if_neg k2]
          have h1 : c + k * m + m ≤ c + i * m ∨ c + i * m + m ≤ c + k * m := by
            rcases Nat.lt_or_gt_of_ne k1 with g | g
            · exact .inl (seat_end g)
            · exact .inr (seat_end g)
          have h2 : c + k * m + m ≤ c + j * m ∨ c + j * m + m ≤ c + k * m := by
            rcases Nat.lt_or_gt_of_ne k2 with g | g
            · exact .inl (seat_end g)
            · exact .inr (seat_end g)
          unfold swapPlace
          rw [if_neg (by omega), if_neg (by omega)]
    · rw [if_neg hx, if_neg hx]

theorem ranks_value (h : ∃ s, Ranks d s) : Ranks d (value d) := by
  obtain ⟨s, hs⟩ := h
  intro i hi hin
  unfold value
  rw [hs i hi hin]
  rfl

theorem board_first (d : Dealer) : (d.cfg.numCommunityCards.getD 0 0).toNat = boardSize d.cfg 0 := by
  unfold boardSize
  cases d.cfg.numCommunityCards with
  | nil => rfl
  | cons x l => simp

theorem enough_first (he : Enough d.cfg) :
    boardSize d.cfg 0 + d.cfg.numPlayers * d.cfg.numHoleCards.toNat ≤ deckSize d.cfg := by
  have h1 : boardSize d.cfg 0 ≤ (d.cfg.numCommunityCards.map Int.toNat).sum := by
    unfold boardSize
    conv_rhs => rw [← List.take_append_drop (0 + 1) d.cfg.numCommunityCards, List.map_append, List.sum_append]
    omega
  unfold Enough at he
  unfold deckSize
  omega

/-- the hand with the cards in this order -/
structure Played' (d : Dealer) (rb rs : Bool) (bets : List PyNum) (bet : PyNum) (e E : Dealer) (o : List Card) : Prop where
  inHand : InHand (startStacks d rs) E
  reach : Reachable E
  same : SameButCards (Spec.afterBets e bets) E
  cfg : E.cfg = d.cfg
  seen : Seen (boardSize d.cfg 0) d.cfg.numPlayers d.cfg.numHoleCards.toNat
    (boardSize d.cfg ((Spec.afterBets e bets).step bet).1.street) o (E.step bet).1
  some : (E.step bet).1.holeCards ≠ []

theorem played_order (h : Reachable d) (ht : d.deck.tricked = false) (he : Enough d.cfg) (hs : IsShuffle sh)
    (h0 : d.reset rb rs sh = (e, .ok obs)) (hon : Running (Spec.afterBets e bets)) (ho : o ∈ orders d) :
    Played' d rb rs bets bet e (Spec.afterBets (d.reset rb rs (toOrder o)).1 bets) o := by
  have htwo := (reachable_seated h).two
  obtain ⟨e', obs', he'⟩ := reset_any (reachable_seated h) h0 (toOrder o)
  obtain ⟨l1, l2, l3⟩ := laid_reset h ht he ho he'
  have hre : Reachable e' := by
    have := Reachable.reset rb rs (isShuffle_toOrder o) h
    rwa [he'] at this
  have hcfg : e'.cfg = d.cfg := (C41_clean (reachable_seated h) he').1
  obtain ⟨b1, b2, b3, b4⟩ := laid_bets hre l1 bets
  obtain ⟨g1, g2, g3⟩ := C40_grow b1 bet
  have hsame := C89_blind (S := startStacks d rs) (.dealt (reachable_seated h) hs h0) (C89_deal h0 he') bets hon
  have hhand := step_hand hsame (by obtain ⟨⟨a, ha⟩, -⟩ := hon; rw [ha]; simp) bet
  have hcf : ((Spec.afterBets e' bets).step bet).1.cfg = d.cfg := by rw [step_cfg, b4, hcfg]
  have hne : ((Spec.afterBets e' bets).step bet).1.holeCards ≠ [] := by
    rw [g2, b3]
    intro h
    have := l3.1
    rw [h] at this
    simp at this
    omega
  have hsize := C40_size (Reachable.step bet b1) (.inr hne) (by rw [hcf]; exact he)
  rw [hcf, hhand.street] at hsize
  rw [he']
  refine ⟨afterBets_in (.dealt (reachable_seated h) (isShuffle_toOrder o) he') bets, b1, hsame, b4.trans hcfg,
    seen_of_laid (laid_grow b2 g1 g2 g3) hsize ?_ fun i hi => ?_, hne⟩
  · rw [g2, b3, List.length_flatten, shape_lengths l3, List.sum_replicate_nat]
  · have hh := (C51_order he').2.2.2 i hi
    rw [shuffle_toOrder ht ho, List.drop_drop, board_first] at hh
    rw [g2, b3, hh]

/-- the table after the hand with the cards in this order -/
abbrev endOf (d : Dealer) (rb rs : Bool) (bets : List PyNum) (bet : PyNum) (o : List Card) : Dealer × Except Err StepOut :=
  (Spec.afterBets (d.reset rb rs (toOrder o)).1 bets).step bet

theorem running_same (h : SameButCards d e) (hr : Running d) : Running e := by
  obtain ⟨C, D, H, rfl⟩ := sameButCards_iff.1 h; exact hr

theorem same_trans {x y z : Dealer} (h1 : SameButCards x y) (h2 : SameButCards x z) : SameButCards y z := by
  obtain ⟨C, D, H, rfl⟩ := sameButCards_iff.1 h1
  obtain ⟨C', D', H', rfl⟩ := sameButCards_iff.1 h2
  exact sameButCards_iff.2 ⟨C', D', H', rfl⟩

/-- everybody is in -/
theorem two_in (hlen : E.active.length = 2) (hsh : AtShowdown E) : ∀ i < 2, inB E i = true := by
  intro i hi
  have h3 : E.active.count true = E.active.length := by
    have h4 := hsh.2
    have h5 := List.count_le_length (a := true) (l := E.active)
    unfold numIn at h4
    omega
  unfold inB
  have h6 := List.count_eq_length.1 h3
  exact (h6 _ ((mem_getD false).2 ⟨i, by omega, rfl⟩)).symm

/-- what two players get out of a hand -/
def duel (c s : Nat → Int) : Int := if s 0 < s 1 then min (c 0) (c 1) else if s 1 < s 0 then - min (c 0) (c 1) else 0

theorem duel_of_fair {p : List Int} {s : Nat → Int} (hin : ∀ i < 2, inB E i = true) (hc : ∀ i < 2, 0 ≤ contribution E i)
    (h : ∀ j < 2, (received E p j : Rat) = fairShare 2 (inB E) (contribution E) s j) :
    p.getD 0 0 = duel (contribution E) s ∧ p.getD 1 0 = - duel (contribution E) s := by
  obtain ⟨h0, h1⟩ := fair_two (s := s) hin hc
  have a := h 0 (by omega)
  have b := h 1 (by omega)
  rw [h0] at a
  rw [h1] at b
  unfold received at a b
  change _ = _ + ((duel (contribution E) s : Int) : Rat) at a
  change _ = _ - ((duel (contribution E) s : Int) : Rat) at b
  have a : p.getD 0 0 + contribution E 0 = contribution E 0 + duel (contribution E) s := by exact_mod_cast a
  have b : p.getD 1 0 + contribution E 1 = contribution E 1 - duel (contribution E) s := by exact_mod_cast b
  omega

theorem duel_swap (c s : Nat → Int) : duel c (fun k => s ((Equiv.swap 0 1).symm k)) = - duel c s := by
  unfold duel
  simp only [Equiv.symm_swap, Equiv.swap_apply_left, Equiv.swap_apply_right]
  split_ifs <;> omega

/-- what two players get -/
theorem pays_two {x : Dealer} {res : Except Err StepOut} {s : Nat → Int} (h : InHand S x) (hn : NonNegative S x.cfg) (hcov : Covers S x.cfg)
    (hea : EqualAntes x.cfg) (h2 : x.cfg.numPlayers = 2) (hpos : ∀ y ∈ S, 0 < y) (hrun : Running x) (hs : x.step bet = (E, res))
    (hsh : AtShowdown E) (hr : Ranks E s) : paid res 0 = duel (contribution E) s ∧ paid res 1 = - duel (contribution E) s := by
  have hcfg : E.cfg = x.cfg := by have := step_cfg x bet; rwa [hs] at this
  obtain ⟨y, hd, -, -, hnn, -, -, e1, e2, e3, -⟩ := step_showdown h hn hrun hs hsh
  obtain ⟨obs, pays, done, rfl, h3⟩ := C25_two_players h hn hcov hea h2 hpos hrun hs hsh hr
  have hlen : E.active.length = 2 := by rw [e2, hd.active, ← e1, hcfg, h2]
  refine duel_of_fair (two_in hlen hsh) (fun i hi => ?_) h3
  have h4 := hnn i (by rw [← e1, hcfg, h2]; exact hi)
  unfold contribution at h4 ⊢
  rwa [e3]

/-- the places of two hands in the deck -/
theorem hand_places (hd : Dealt d) (he : Enough d.cfg) (hij : i < j) (hj : j < d.cfg.numPlayers) :
    boardSize d.cfg 0 + i * d.cfg.numHoleCards.toNat + d.cfg.numHoleCards.toNat ≤ boardSize d.cfg 0 + j * d.cfg.numHoleCards.toNat ∧
    boardSize d.cfg 0 + j * d.cfg.numHoleCards.toNat + d.cfg.numHoleCards.toNat ≤ d.deck.fullDeck.length := by
  have h1 := seat_end (c := boardSize d.cfg 0) (m := d.cfg.numHoleCards.toNat) hij
  have h2 := seat_end (c := boardSize d.cfg 0) (m := d.cfg.numHoleCards.toNat) hj
  have h3 := enough_first he
  rw [full_length hd]
  exact ⟨h1, by omega⟩

/-- the order with the hands of two seats exchanged -/
abbrev swapHands (d : Dealer) (i j : Nat) (o : List Card) : List Card :=
  swapCards (boardSize d.cfg 0 + i * d.cfg.numHoleCards.toNat) (boardSize d.cfg 0 + j * d.cfg.numHoleCards.toNat) d.cfg.numHoleCards.toNat o

theorem swapHands_mem (hd : Dealt d) (he : Enough d.cfg) (hij : i < j) (hj : j < d.cfg.numPlayers) (ho : o ∈ orders d) :
    swapHands d i j o ∈ orders d := by
  unfold orders at ho ⊢
  rw [List.mem_permutations] at ho ⊢
  exact (swapCards_perm (hand_places hd he hij hj).1).trans ho

theorem order_length (hd : Dealt d) (he : Enough d.cfg) (ho : o ∈ orders d) :
    boardSize d.cfg 0 + d.cfg.numPlayers * d.cfg.numHoleCards.toNat ≤ o.length := by
  unfold orders at ho
  rw [List.mem_permutations] at ho
  rw [ho.length_eq, full_length hd]
  exact enough_first he

theorem ranks_swap (h2 : E.cfg.numPlayers = 2) (hin : ∀ k < 2, inB E k = true) (hcfg : E'.cfg = E.cfg)
    (hx : Exchanged (Equiv.swap 0 1) E E') {s : Nat → Int} (hr : Ranks E s) : Ranks E' fun k => s ((Equiv.swap 0 1).symm k) := by
  intro k hk _
  rw [hcfg, h2] at hk
  obtain ⟨x, rfl⟩ := (Equiv.swap 0 1).surjective k
  have hx2 : x < 2 := by
    rw [Equiv.swap_apply_def] at hk
    split_ifs at hk <;> omega
  rw [hcfg, hx.board, hx.cards x (by rw [h2]; exact hx2) (hin x hx2)]
  simpa using hr x (by rw [h2]; exact hx2) (hin x hx2)

theorem sum_neg_map {β : Type} (l : List β) (φ : β → Int) : (l.map fun x => - φ x).sum = - (l.map φ).sum := by
  induction l with
  | nil => rfl
  | cons x l ih => simp only [List.map_cons, List.sum_cons, ih]; omega

/-- **C111**: two players with chips, paying the same antes, bet without looking at the cards, and the bets lead to a showdown. Then neither
wins anything on average over all orders of the deck, whoever has put in more. -/
theorem C111_two_players (h : Reachable d) (ht : d.deck.tricked = false) (he : Enough d.cfg) (hf : HandsFit d.cfg) (hg : GoodEvaluator d.cfg)
    (hs : IsShuffle sh) (h0 : d.reset rb rs sh = (e, .ok obs)) (hn : NonNegative (startStacks d rs) d.cfg)
    (hcov : Covers (startStacks d rs) d.cfg) (hea : EqualAntes d.cfg) (h2 : d.cfg.numPlayers = 2) (hpos : ∀ y ∈ startStacks d rs, 0 < y)
    (hon : Running (Spec.afterBets e bets)) (hsh : AtShowdown ((Spec.afterBets e bets).step bet).1) (hi : i < 2) :
    mean (orders d) (fun o => paid (endOf d rb rs bets bet o).2 i) = 0 := by
  have hd := reachable_dealt h
  have key : ∀ o ∈ orders d, paid (endOf d rb rs bets bet (swapHands d 0 1 o)).2 i = - paid (endOf d rb rs bets bet o).2 i := by
    intro o ho
    have ho' := swapHands_mem hd he (i := 0) (j := 1) (by omega) (by omega) ho
    have P := played_order (bet := bet) h ht he hs h0 hon ho
    have P' := played_order (bet := bet) h ht he hs h0 hon ho'
    have hx := seen_exchanged (i := 0) (j := 1) (by rw [step_cfg, P.cfg]) (by omega) (by omega) (order_length hd he ho) P.seen P'.seen
    have hne : (Spec.afterBets e bets).action ≠ none := by obtain ⟨⟨a, ha⟩, -⟩ := hon; rw [ha]; simp
    have H := step_hand P.same hne bet
    have H' := step_hand P'.same hne bet
    unfold endOf
    generalize Spec.afterBets (d.reset rb rs (toOrder o)).1 bets = x at *
    generalize Spec.afterBets (d.reset rb rs (toOrder (swapHands d 0 1 o))).1 bets = x' at *
    have hsE := H.showdown hsh
    have hxs : x.step bet = ((x.step bet).1, (x.step bet).2) := rfl
    have hxs' : x'.step bet = ((x'.step bet).1, (x'.step bet).2) := rfl
    have hsE' := H'.showdown hsh
    have hr := ranks_value (C54_ranks (Reachable.step bet P.reach) P.some (by have := hsE.1; omega) (by rw [step_cfg, P.cfg]; exact he)
      (by rw [step_cfg, P.cfg]; exact hf) (by rw [step_cfg, P.cfg]; exact hg))
    have hc : (x'.step bet).1.cfg = (x.step bet).1.cfg := by rw [step_cfg, step_cfg, P.cfg, P'.cfg]
    obtain ⟨y, hy, -, -, -, -, -, e1, e2, -⟩ := step_showdown P.inHand (by rw [P.cfg]; exact hn) (running_same P.same hon) hxs hsE
    have hlen : (x.step bet).1.active.length = 2 := by rw [e2, hy.active, ← e1, step_cfg, P.cfg, h2]
    have hr' := ranks_swap (by rw [step_cfg, P.cfg, h2]) (two_in hlen hsE) hc hx hr
    obtain ⟨p0, p1⟩ := pays_two P.inHand (by rw [P.cfg]; exact hn) (by rw [P.cfg]; exact hcov) (by rw [P.cfg]; exact hea)
      (by rw [P.cfg]; exact h2) hpos (running_same P.same hon) hxs hsE hr
    obtain ⟨q0, q1⟩ := pays_two P'.inHand (by rw [P'.cfg]; exact hn) (by rw [P'.cfg]; exact hcov) (by rw [P'.cfg]; exact hea)
      (by rw [P'.cfg]; exact h2) hpos (running_same P'.same hon) hxs' hsE' hr'
    rw [duel_swap, H'.contribution, ← H.contribution] at q0 q1
    rcases (by omega : i = 0 ∨ i = 1) with rfl | rfl
    · rw [q0, p0]
    · rw [q1, p1]
  have hp := hand_places hd he (i := 0) (j := 1) (by omega) (by omega)
  have hsum := sum_swapCards hd.wf.cards_nodup hp.1 hp.2 fun o => paid (endOf d rb rs bets bet o).2 i
  have hneg : (d.deck.fullDeck.permutations.map fun o => paid (endOf d rb rs bets bet (swapHands d 0 1 o)).2 i) =
      d.deck.fullDeck.permutations.map fun o => - paid (endOf d rb rs bets bet o).2 i := List.map_congr_left key
  change (d.deck.fullDeck.permutations.map fun o => paid (endOf d rb rs bets bet (swapHands d 0 1 o)).2 i).sum = _ at hsum
  rw [hneg, sum_neg_map] at hsum
  have hz : ((orders d).map fun o => paid (endOf d rb rs bets bet o).2 i).sum = 0 := by unfold orders at *; omega
  unfold mean
  have : (((orders d).map fun o => paid (endOf d rb rs bets bet o).2 i).sum : Rat) = 0 := by rw [hz]; rfl
  rw [this, zero_div]

/-- the sums of `C111_distinct_partial` -/
theorem distinct_sums (h : Reachable d) (ht : d.deck.tricked = false) (he : Enough d.cfg) (hf : HandsFit d.cfg)
    (hg : GoodEvaluator d.cfg) (hs : IsShuffle sh) (h0 : d.reset rb rs sh = (e, .ok obs)) (hn : NonNegative (startStacks d rs) d.cfg)
    (hcov : Covers (startStacks d rs) d.cfg) (hca : CloseAntes d.cfg) (hon : Running (Spec.afterBets e bets))
    (hsh : AtShowdown ((Spec.afterBets e bets).step bet).1)
    (hnt : ∀ o ∈ orders d, NoTies (endOf d rb rs bets bet o).1 (value (endOf d rb rs bets bet o).1)) (hij : i < j)
    (hj : j < d.cfg.numPlayers) (hini : isIn ((Spec.afterBets e bets).step bet).1 i) (hinj : isIn ((Spec.afterBets e bets).step bet).1 j)
    (heq : contribution ((Spec.afterBets e bets).step bet).1 i = contribution ((Spec.afterBets e bets).step bet).1 j) :
    ((orders d).map fun o => paid (endOf d rb rs bets bet o).2 j).sum = ((orders d).map fun o => paid (endOf d rb rs bets bet o).2 i).sum := by
  have hd := reachable_dealt h
  have key : ∀ o ∈ orders d, |paid (endOf d rb rs bets bet (swapHands d i j o)).2 j - paid (endOf d rb rs bets bet o).2 i| ≤ 0 := by
    intro o ho
    have hnto := hnt o ho
    have ho' := swapHands_mem hd he hij hj ho
    have P := played_order (bet := bet) h ht he hs h0 hon ho
    have P' := played_order (bet := bet) h ht he hs h0 hon ho'
    have hx := seen_exchanged (by rw [step_cfg, P.cfg]) hij hj (order_length hd he ho) P.seen P'.seen
    have hne : (Spec.afterBets e bets).action ≠ none := by obtain ⟨⟨a, ha⟩, -⟩ := hon; rw [ha]; simp
    have H := step_hand P.same hne bet
    unfold endOf at *
    generalize Spec.afterBets (d.reset rb rs (toOrder o)).1 bets = x at *
    generalize Spec.afterBets (d.reset rb rs (toOrder (swapHands d i j o))).1 bets = x' at *
    have hsE := H.showdown hsh
    have hxs : x.step bet = ((x.step bet).1, (x.step bet).2) := rfl
    have hxs' : x'.step bet = ((x'.step bet).1, (x'.step bet).2) := rfl
    have hr := ranks_value (C54_ranks (Reachable.step bet P.reach) P.some (by have := hsE.1; omega) (by rw [step_cfg, P.cfg]; exact he)
      (by rw [step_cfg, P.cfg]; exact hf) (by rw [step_cfg, P.cfg]; exact hg))
    have hin : ∀ k, isIn ((Spec.afterBets e bets).step bet).1 k → isIn (x.step bet).1 k := by
      intro k hk
      unfold isIn at hk ⊢
      rwa [H.active]
    have ha := equalSeats_swap (d := (x.step bet).1) (by rw [step_cfg, P.cfg]; omega) (by rw [step_cfg, P.cfg]; exact hj) (hin i hini)
      (hin j hinj) (by rw [H.contribution]; exact heq)
    obtain ⟨_, pays, _, _, pays', _, h1, h2, h3⟩ := C110_distinct P.inHand P'.inHand (same_trans P.same P'.same) (by rw [P.cfg]; exact hn)
      (by rw [P.cfg]; exact hcov) (by rw [P.cfg]; exact hca) (running_same P.same hon)
      hxs hxs' hsE hr hnto ha hx
    have h4 := h3 i (by rw [P.cfg]; omega)
    rw [Equiv.swap_apply_left] at h4
    rw [h1, h2]
    change |pays'.getD j 0 - pays.getD i 0| ≤ 0
    rw [h4, sub_self, abs_zero]
  have hp := hand_places hd he hij hj
  have hsum := sum_exchange hd.wf.cards_nodup hp.1 hp.2 (fun o => paid (endOf d rb rs bets bet o).2 i)
    (fun o => paid (endOf d rb rs bets bet o).2 j) (fun _ => 0) key
  rw [abs_le] at hsum
  rw [List.map_const', List.sum_replicate_int, mul_zero] at hsum
  unfold orders
  omega

/-- **C111**: with more players, for the showdowns between different hands, at tables whose antes differ by at most one chip: players who are
in with as many chips win the same on average. -/
theorem C111_distinct_partial (h : Reachable d) (ht : d.deck.tricked = false) (he : Enough d.cfg) (hf : HandsFit d.cfg)
    (hg : GoodEvaluator d.cfg) (hs : IsShuffle sh) (h0 : d.reset rb rs sh = (e, .ok obs)) (hn : NonNegative (startStacks d rs) d.cfg)
    (hcov : Covers (startStacks d rs) d.cfg) (hca : CloseAntes d.cfg) (hon : Running (Spec.afterBets e bets))
    (hsh : AtShowdown ((Spec.afterBets e bets).step bet).1)
    (hnt : ∀ o ∈ orders d, NoTies (endOf d rb rs bets bet o).1 (value (endOf d rb rs bets bet o).1)) (hij : i < j)
    (hj : j < d.cfg.numPlayers) (hini : isIn ((Spec.afterBets e bets).step bet).1 i) (hinj : isIn ((Spec.afterBets e bets).step bet).1 j)
    (heq : contribution ((Spec.afterBets e bets).step bet).1 i = contribution ((Spec.afterBets e bets).step bet).1 j) :
    mean (orders d) (fun o => paid (endOf d rb rs bets bet o).2 i) = mean (orders d) (fun o => paid (endOf d rb rs bets bet o).2 j) := by
  unfold mean
  have := distinct_sums h ht he hf hg hs h0 hn hcov hca hon hsh hnt hij hj hini hinj heq
  have hz' : (((orders d).map fun o => paid (endOf d rb rs bets bet o).2 j).sum : Rat) =
      (((orders d).map fun o => paid (endOf d rb rs bets bet o).2 i).sum : Rat) := by exact_mod_cast congrArg (Int.cast (R := Rat)) this
  rw [hz']

/-- **C111**: any number of players, for showdowns between different hands: if everybody is in with as many chips, nobody wins anything on
average. -/
theorem C111_everybody_partial (h : Reachable d) (ht : d.deck.tricked = false) (he : Enough d.cfg) (hf : HandsFit d.cfg)
    (hg : GoodEvaluator d.cfg) (hs : IsShuffle sh) (h0 : d.reset rb rs sh = (e, .ok obs)) (hn : NonNegative (startStacks d rs) d.cfg)
    (hcov : Covers (startStacks d rs) d.cfg) (hca : CloseAntes d.cfg) (hon : Running (Spec.afterBets e bets))
    (hsh : AtShowdown ((Spec.afterBets e bets).step bet).1)
    (hnt : ∀ o ∈ orders d, NoTies (endOf d rb rs bets bet o).1 (value (endOf d rb rs bets bet o).1))
    (hin : ∀ k < d.cfg.numPlayers, isIn ((Spec.afterBets e bets).step bet).1 k)
    (heq : ∀ k < d.cfg.numPlayers, ∀ l < d.cfg.numPlayers,
      contribution ((Spec.afterBets e bets).step bet).1 k = contribution ((Spec.afterBets e bets).step bet).1 l) (hi : i < d.cfg.numPlayers) :
    mean (orders d) (fun o => paid (endOf d rb rs bets bet o).2 i) = 0 := by
  have key : |((orders d).map fun o => paid (endOf d rb rs bets bet o).2 i).sum| ≤ 0 := by
    refine close_zero (n := d.cfg.numPlayers) (T := fun k => ((orders d).map fun o => paid (endOf d rb rs bets bet o).2 k).sum) ?_ hi
      fun k hk => ?_
    · apply sums_zero (orders d) d.cfg.numPlayers fun o k => paid (endOf d rb rs bets bet o).2 k
      intro o ho
      have hnto := hnt o ho
      have P := played_order (bet := bet) h ht he hs h0 hon ho
      have hne : (Spec.afterBets e bets).action ≠ none := by obtain ⟨⟨a, ha⟩, -⟩ := hon; rw [ha]; simp
      have H := step_hand P.same hne bet
      unfold endOf at *
      generalize Spec.afterBets (d.reset rb rs (toOrder o)).1 bets = x at *
      have hsE := H.showdown hsh
      have hxs : x.step bet = ((x.step bet).1, (x.step bet).2) := rfl
      have hr := ranks_value (C54_ranks (Reachable.step bet P.reach) P.some (by have := hsE.1; omega) (by rw [step_cfg, P.cfg]; exact he)
        (by rw [step_cfg, P.cfg]; exact hf) (by rw [step_cfg, P.cfg]; exact hg))
      have hrun := running_same P.same hon
      have hact : x.action ≠ none := by obtain ⟨⟨a, ha⟩, -⟩ := hrun; rw [ha]; simp
      obtain ⟨_, pays, _, h1, -⟩ := C25_distinct_partial P.inHand (by rw [P.cfg]; exact hn) (by rw [P.cfg]; exact hcov)
        (by rw [P.cfg]; exact hca) hrun hxs hsE hr hnto
      obtain ⟨y, -, -, -, -, -, -, -, -, -, -, -, -, -, h2⟩ := step_showdown P.inHand (by rw [P.cfg]; exact hn) hrun hxs hsE
      have h3 : (x.step bet).1.action = none := by
        rcases h2 with ⟨er, -, h2, -⟩ | ⟨_, _, -, -, -, h2⟩
        · rw [h1] at h2; simp at h2
        · exact h2
      obtain ⟨h4, -⟩ := C20_stacks P.inHand hact h1 h3
      have h5 := C20_zero_sum_partial P.inHand (by rw [P.cfg]; exact hn) hact h1 h3 (fun hend => by
        have := hend.2.2
        have := hsE.1
        omega)
      rw [h1, ← h5, sum_eq_range pays, h4, P.cfg]
      rfl
    · rcases Nat.lt_trichotomy i k with g | g | g
      · have := distinct_sums h ht he hf hg hs h0 hn hcov hca hon hsh hnt g hk (hin i hi) (hin k hk) (heq i hi k hk)
        simp only [this, sub_self, abs_zero, le_refl]
      · subst g
        rw [sub_self, abs_zero]
      · have := distinct_sums h ht he hf hg hs h0 hn hcov hca hon hsh hnt g hi (hin k hk) (hin i hi) (heq k hk i hi)
        simp only [this, sub_self, abs_zero, le_refl]
  have hz : ((orders d).map fun o => paid (endOf d rb rs bets bet o).2 i).sum = 0 := by rw [abs_le] at key; omega
  unfold mean
  have : (((orders d).map fun o => paid (endOf d rb rs bets bet o).2 i).sum : Rat) = 0 := by rw [hz]; rfl
  rw [this, zero_div]

/-! ## witnesses -/

/-- the first hand of a new table with the default order of the hands -/
theorem first_exists (a : DealerArgs) (ha : a.order = none) (bets : List PyNum) (bet : PyNum) {P : Dealer → Dealer → Dealer → Prop}
    [∀ d x y, Decidable (P d x y)]
    (h : (match Dealer.new a id with
      | .ok d => (match d.reset false false id with
        | (e, .ok _) => decide (P d (Spec.afterBets e bets) ((Spec.afterBets e bets).step bet).1)
        | _ => false)
      | .error _ => false) = true) :
    ∃ d e obs, Reachable d ∧ IsShuffle id ∧ d.reset false false id = (e, .ok obs) ∧ GoodEvaluator d.cfg ∧
      P d (Spec.afterBets e bets) ((Spec.afterBets e bets).step bet).1 := by
  split at h
  · next d hd =>
    split at h
    · next e obs he => exact ⟨d, e, obs, .new isShuffle_id hd, isShuffle_id, he, Numpy.new_goodEvaluator hd ha, by simpa using h⟩
    · simp at h
  · simp at h

set_option synthInstance.maxSize 1024 in
/-- the hypotheses of `C111_two_players`: four cards, a raise to 4 and a call. -/
example : ∃ d e obs, Reachable d ∧ IsShuffle id ∧ d.reset false false id = (e, .ok obs) ∧ GoodEvaluator d.cfg ∧ d.deck.tricked = false ∧ Enough d.cfg ∧
    HandsFit d.cfg ∧ NonNegative (startStacks d false) d.cfg ∧ Covers (startStacks d false) d.cfg ∧ EqualAntes d.cfg ∧
    d.cfg.numPlayers = 2 ∧ (∀ y ∈ startStacks d false, 0 < y) ∧ Running (Spec.afterBets e [.fin 3, .fin 2, .fin 0]) ∧
    AtShowdown ((Spec.afterBets e [.fin 3, .fin 2, .fin 0]).step (.fin 0)).1 ∧
    ((Spec.afterBets e [.fin 3, .fin 2, .fin 0]).step (.fin 0)).1.potCommits = [4, 4] :=
  first_exists (mixed 2 2 2 [0, 0] [1, 2] 10) rfl [.fin 3, .fin 2, .fin 0] (.fin 0) (P := fun d0 d d' => d0.deck.tricked = false ∧ Enough d0.cfg ∧
    HandsFit d0.cfg ∧ NonNegative (startStacks d0 false) d0.cfg ∧ Covers (startStacks d0 false) d0.cfg ∧
    EqualAntes d0.cfg ∧ d0.cfg.numPlayers = 2 ∧ (∀ y ∈ startStacks d0 false, 0 < y) ∧ Running d ∧ AtShowdown d' ∧ d'.potCommits = [4, 4])
    (by decide +kernel)

set_option synthInstance.maxSize 1024 in
/-- the hypotheses of `C111_distinct_partial` and `C111_everybody_partial`: three players with one of three different cards each, all in with 2 chips -/
example : ∃ d e obs, Reachable d ∧ IsShuffle id ∧ d.reset false false id = (e, .ok obs) ∧ GoodEvaluator d.cfg ∧
    (d.deck.tricked = false ∧ Enough d.cfg ∧ HandsFit d.cfg ∧ NonNegative (startStacks d false) d.cfg ∧ Covers (startStacks d false) d.cfg ∧
    CloseAntes d.cfg ∧ Running (Spec.afterBets e [.fin 2, .fin 1, .fin 0, .fin 0, .fin 0]) ∧
    AtShowdown ((Spec.afterBets e [.fin 2, .fin 1, .fin 0, .fin 0, .fin 0]).step (.fin 0)).1 ∧
    ((Spec.afterBets e [.fin 2, .fin 1, .fin 0, .fin 0, .fin 0]).step (.fin 0)).1.active = [true, true, true] ∧
    ((Spec.afterBets e [.fin 2, .fin 1, .fin 0, .fin 0, .fin 0]).step (.fin 0)).1.potCommits = [2, 2, 2]) ∧
    ∀ o ∈ orders d, NoTies (endOf d false false [.fin 2, .fin 1, .fin 0, .fin 0, .fin 0] (.fin 0) o).1
      (value (endOf d false false [.fin 2, .fin 1, .fin 0, .fin 0, .fin 0] (.fin 0) o).1) := by
  obtain ⟨d, e, obs, h1, h2, h3, h4, h5, h6⟩ := first_exists (mixed 3 1 3 [0, 0, 0] [1, 2, 0] 10) rfl
    [.fin 2, .fin 1, .fin 0, .fin 0, .fin 0] (.fin 0) (P := fun d0 d d' =>
    (d0.deck.tricked = false ∧ Enough d0.cfg ∧ HandsFit d0.cfg ∧ NonNegative (startStacks d0 false) d0.cfg ∧
    Covers (startStacks d0 false) d0.cfg ∧ CloseAntes d0.cfg ∧ Running d ∧ AtShowdown d' ∧ d'.active = [true, true, true] ∧
    d'.potCommits = [2, 2, 2]) ∧
    (∀ o ∈ d0.deck.fullDeck.permutations', NoTies (endOf d0 false false [.fin 2, .fin 1, .fin 0, .fin 0, .fin 0] (.fin 0) o).1
      (value (endOf d0 false false [.fin 2, .fin 1, .fin 0, .fin 0, .fin 0] (.fin 0) o).1)))
    (by decide +kernel)
  exact ⟨d, e, obs, h1, h2, h3, h4, h5, fun o ho => h6 o (List.mem_permutations'.2 (List.mem_permutations.1 ho))⟩

theorem mean_const {os : List (List Card)} {φ : List Card → Int} {v : Int} (h0 : os ≠ []) (h : ∀ o ∈ os, φ o = v) : mean os φ = v := by
  have h1 : os.map φ = List.replicate os.length v := by
    rw [List.map_congr_left h, List.map_const']
  unfold mean
  rw [h1, List.sum_replicate_int]
  have : (os.length : Rat) ≠ 0 := by
    rw [Nat.cast_ne_zero]
    exact fun h => h0 (List.length_eq_zero_iff.1 h)
  push_cast
  rw [mul_comm, mul_div_assoc, div_self this, mul_one]

/-- the second hand of a table with the default order of the hands -/
theorem second_exists (a : DealerArgs) (ha : a.order = none) (before bets : List PyNum) (bet : PyNum) {P : Dealer → Dealer → Dealer → Prop}
    [∀ d x y, Decidable (P d x y)]
    (h : (match Dealer.new a id with
      | .ok d0 => (match (Spec.afterBets (d0.reset true false id).1 before).reset false false id with
        | (e, .ok _) => decide (P (Spec.afterBets (d0.reset true false id).1 before) (Spec.afterBets e bets) ((Spec.afterBets e bets).step bet).1)
        | _ => false)
      | .error _ => false) = true) :
    ∃ d e obs, Reachable d ∧ IsShuffle id ∧ d.reset false false id = (e, .ok obs) ∧ GoodEvaluator d.cfg ∧
      P d (Spec.afterBets e bets) ((Spec.afterBets e bets).step bet).1 := by
  have run : ∀ (bets : List PyNum) (x : Dealer), Reachable x → Reachable (Spec.afterBets x bets) ∧ (Spec.afterBets x bets).cfg = x.cfg := by
    intro bets
    induction bets with
    | nil => exact fun x hx => ⟨hx, rfl⟩
    | cons b bets ih => exact fun x hx => ⟨(ih _ (.step b hx)).1, (ih _ (.step b hx)).2.trans (step_cfg x b)⟩
  split at h
  · next d hd =>
    split at h
    · next e obs he =>
      obtain ⟨h1, h2⟩ := run before _ (.reset true false isShuffle_id (.new isShuffle_id hd))
      exact ⟨_, e, obs, h1, isShuffle_id, he, by rw [h2, reset_cfg]; exact Numpy.new_goodEvaluator hd ha, by simpa using h⟩
    · simp at h
  · simp at h

set_option synthInstance.maxSize 1024 in
/-- **C111 is false** for more players with ties: seats 1 and 2 are all in with 8 chips each and seat 0 puts in 14. All cards are of one rank,
so that everybody ties in every order and no chip is odd; yet seat 2 wins 3 chips on average, seat 1 nothing, and seat 0 loses 3. -/
theorem C111_false : ∃ d e obs, Reachable d ∧ IsShuffle id ∧ d.reset false false id = (e, .ok obs) ∧ GoodEvaluator d.cfg ∧
    (d.deck.tricked = false ∧ Enough d.cfg ∧ HandsFit d.cfg ∧ NonNegative (startStacks d false) d.cfg ∧ Covers (startStacks d false) d.cfg ∧
    EqualAntes d.cfg ∧ Running (Spec.afterBets e [.fin 8, .fin 8]) ∧ AtShowdown ((Spec.afterBets e [.fin 8, .fin 8]).step (.fin 12)).1 ∧
    ((Spec.afterBets e [.fin 8, .fin 8]).step (.fin 12)).1.active = [true, true, true] ∧
    ((Spec.afterBets e [.fin 8, .fin 8]).step (.fin 12)).1.potCommits = [14, 8, 8]) ∧
    mean (orders d) (fun o => paid (endOf d false false [.fin 8, .fin 8] (.fin 12) o).2 0) = -3 ∧
    mean (orders d) (fun o => paid (endOf d false false [.fin 8, .fin 8] (.fin 12) o).2 1) = 0 ∧
    mean (orders d) (fun o => paid (endOf d false false [.fin 8, .fin 8] (.fin 12) o).2 2) = 3 := by
  obtain ⟨d, e, obs, h1, h2, h3, h4, h5, h6⟩ := second_exists (mixed 3 3 1 [2, 2, 2] [0, 0, 0] 10) rfl [.fin 9, .fin (-1), .fin (-1)]
    [.fin 8, .fin 8] (.fin 12) (P := fun d0 d d' =>
    (d0.deck.tricked = false ∧ Enough d0.cfg ∧ HandsFit d0.cfg ∧ NonNegative (startStacks d0 false) d0.cfg ∧
    Covers (startStacks d0 false) d0.cfg ∧ EqualAntes d0.cfg ∧ Running d ∧ AtShowdown d' ∧ d'.active = [true, true, true] ∧
    d'.potCommits = [14, 8, 8]) ∧
    (∀ o ∈ d0.deck.fullDeck.permutations', paid (endOf d0 false false [.fin 8, .fin 8] (.fin 12) o).2 0 = -3 ∧
      paid (endOf d0 false false [.fin 8, .fin 8] (.fin 12) o).2 1 = 0 ∧ paid (endOf d0 false false [.fin 8, .fin 8] (.fin 12) o).2 2 = 3))
    (by decide +kernel)
  have hne : orders d ≠ [] := List.ne_nil_of_mem (List.mem_permutations.2 (List.Perm.refl _))
  have mem : ∀ o ∈ orders d, o ∈ d.deck.fullDeck.permutations' := fun o ho => List.mem_permutations'.2 (List.mem_permutations.1 ho)
  refine ⟨d, e, obs, h1, h2, h3, h4, h5, ?_, ?_, ?_⟩
  · rw [mean_const hne fun o ho => (h6 o (mem o ho)).1]; rfl
  · rw [mean_const hne fun o ho => (h6 o (mem o ho)).2.1]; rfl
  · rw [mean_const hne fun o ho => (h6 o (mem o ho)).2.2]; rfl

end Clubs
