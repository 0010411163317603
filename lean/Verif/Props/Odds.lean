import Verif.Lemmas.Odds
import Verif.Props.Config
import Mathlib.Algebra.BigOperators.Group.List.Basic
import Mathlib.Algebra.Order.Field.Rat
import Mathlib.Algebra.Order.BigOperators.Group.List
import Mathlib.Tactic.FieldSimp

/-!
# Winning chances and hands at a showdown: C46, C54
-/

namespace Clubs

open Spec

variable {d : Dealer}

/-! ## C46 -/

/-- **C46** (partial: the values are not expected shares of the pot, see `C46_false`): whenever `win_probabilities`
returns and somebody is in, there is a value for every player, and the value is the number of ways to complete the board
that this player wins or ties, divided by the sum of these numbers over all players. -/
theorem C46_values_partial (hone : ∃ i < d.cfg.numPlayers, isIn d i) {ps : List Rat} (h : d.winProbabilities = .ok ps) :
    ps.length = d.cfg.numPlayers ∧ ∀ i < d.cfg.numPlayers,
      ps.getD i 0 = (timesBest d i : Rat) / ((((List.range d.cfg.numPlayers).map (timesBest d)).sum : Nat) : Rat) := by
  have e := (winProbabilities_eq hone h).1
  refine ⟨by rw [e]; simp, fun i hi => ?_⟩
  rw [e, getD_map _ _ _ 0 _ (by simpa using hi), getD_eq _ _ _ (by simpa using hi), List.getElem_range]

/-- **C46**: the values are not negative, their sum is 1, and a player who is out gets 0. -/
theorem C46_distribution (hone : ∃ i < d.cfg.numPlayers, isIn d i) {ps : List Rat} (h : d.winProbabilities = .ok ps) :
    (∀ p ∈ ps, 0 ≤ p) ∧ ps.sum = 1 ∧ ∀ i < d.cfg.numPlayers, ¬ isIn d i → ps.getD i 0 = 0 := by
  obtain ⟨e, -, -, h0⟩ := winProbabilities_eq hone h
  refine ⟨?_, ?_, ?_⟩
  · intro p hp
    rw [e] at hp
    obtain ⟨i, -, rfl⟩ := List.mem_map.1 hp
    exact div_nonneg (Nat.cast_nonneg _) (Nat.cast_nonneg _)
  · have key : ∀ (l : List Nat) (f : Nat → Nat) (q : Rat), (l.map fun i => (f i : Rat) / q).sum = (((l.map f).sum : Nat) : Rat) / q := by
      intro l f q
      induction l with
      | nil => simp
      | cons a l ih => rw [List.map_cons, List.sum_cons, ih, List.map_cons, List.sum_cons, Nat.cast_add, add_div]
    rw [e, key, div_self]
    exact Nat.cast_ne_zero.2 h0
  · intro i hi hin
    rw [(C46_values_partial hone h).2 i hi]
    have : timesBest d i = 0 := by
      unfold timesBest
      rw [List.countP_eq_zero]
      intro b _
      unfold bestOn rankOn
      rw [if_neg hin]
      simp
    rw [this]; simp

/-- **C46**: if no board ends in a tie, the values are the expected shares of the pot. -/
theorem C46_no_ties (hone : ∃ i < d.cfg.numPlayers, isIn d i) {ps : List Rat} (h : d.winProbabilities = .ok ps)
    (ht : ∀ b ∈ boards d, numBest d b = 1) (i : Nat) (hi : i < d.cfg.numPlayers) : ps.getD i 0 = equity d i := by
  rw [(C46_values_partial hone h).2 i hi, wins_total]
  have hlen : ((boards d).map (numBest d)).sum = (boards d).length := by
    have : (boards d).map (numBest d) = (boards d).map fun _ => 1 := List.map_congr_left ht
    rw [this]; simp
  rw [hlen]
  unfold equity timesBest
  congr 1
  have : ∀ L : List (List Card), (∀ b ∈ L, numBest d b = 1) →
      ((L.countP fun b => bestOn d b i : Nat) : Rat) = (L.map fun b => if bestOn d b i then 1 / (numBest d b : Rat) else 0).sum := by
    intro L hL
    induction L with
    | nil => simp
    | cons b L ih =>
      rw [List.countP_cons, List.map_cons, List.sum_cons, ← ih (fun x hx => hL x (by simp [hx])), hL b (by simp)]
      by_cases hb : bestOn d b i = true
      · rw [if_pos hb, if_pos hb]; push_cast; ring
      · rw [if_neg hb, if_neg hb]; push_cast; ring
  exact this _ ht

/-- the hole cards of a seat, the board, and some of the cards left, in any order, are different cards of the deck -/
theorem seat_subperm' {i : Nat} (hd : Dealt d) (hi : i < d.holeCards.length) {extra : List Card}
    (he : extra.Subperm d.deck.cards) : (d.holeCards.getD i [] ++ (d.communityCards ++ extra)).Subperm d.deck.fullDeck := by
  obtain ⟨l, hl, hsub⟩ := he
  refine List.Subperm.trans (List.Perm.subperm ?_) (seat_subperm hd hi hsub)
  exact (List.Perm.append_left _ (List.Perm.append_left _ hl.symm))

/-- every completion of the board can be evaluated -/
theorem dealt_eval (hd : Dealt d) (hr : d.holeCards ≠ []) (he : Enough d.cfg) (hg : GoodEvaluator d.cfg)
    (hm : 0 ≤ d.cfg.mandatoryNumHoleCards ∧ d.cfg.mandatoryNumHoleCards ≤ d.cfg.numCardsForHand) {e : List Card}
    (hsub : e.Subperm d.deck.cards) : ∃ T, d.evalHands d.holeCards (d.communityCards ++ e) = .ok T := by
  obtain ⟨hlen, -⟩ := dealt_shape hd (.inr hr) he
  cases hT : d.evalHands d.holeCards (d.communityCards ++ e) with
  | ok T => exact ⟨T, rfl⟩
  | error x =>
    unfold Dealer.evalHands at hT
    obtain ⟨i, hi, hx⟩ := mapM_error _ _ _ hT
    rw [List.mem_range] at hi
    split at hx
    · rw [List.getElem?_eq_getElem (by omega)] at hx
      simp only [] at hx
      obtain ⟨v, hv, -⟩ := evaluate_ok hd hg hm.1 hm.2 (seat_subperm' hd (i := i) (by omega) hsub)
      rw [getD_eq _ _ _ (by omega), hx] at hv
      simp at hv
    · simp at hx

/-- the cards left suffice to complete the board -/
theorem dealt_toCome (hd : Dealt d) (hr : d.holeCards ≠ []) (he : Enough d.cfg) (hc : ∀ x ∈ d.cfg.numCommunityCards, 0 ≤ x) :
    0 ≤ toCome d ∧ (toCome d).toNat ≤ d.deck.cards.length := by
  obtain ⟨hlen, hhole, hboard⟩ := dealt_shape hd (.inr hr) he
  have hsum : d.cfg.numCommunityCards.sum = ((fullBoard d.cfg : Nat) : Int) := by
    unfold fullBoard
    have : ∀ l : List Int, (∀ x ∈ l, 0 ≤ x) → l.sum = (((l.map Int.toNat).sum : Nat) : Int) := by
      intro l hl
      induction l with
      | nil => simp
      | cons a l ih =>
        rw [List.sum_cons, List.map_cons, List.sum_cons, ih (fun x hx => hl x (by simp [hx]))]
        have := hl a (by simp)
        omega
    exact this _ hc
  have hle := boardSize_le d.cfg d.street
  have htc : 0 ≤ toCome d := by unfold toCome; rw [hsum, hboard]; unfold fullBoard; omega
  refine ⟨htc, ?_⟩
  have hs : ((allCards d).length : Int) = d.cfg.numSuits * d.cfg.numRanks := hd.size
  unfold allCards at hs
  rw [List.length_append, List.length_append, List.length_flatten] at hs
  have hf : (d.holeCards.map List.length).sum = d.cfg.numPlayers * d.cfg.numHoleCards.toNat := by
    have : d.holeCards.map List.length = List.replicate d.cfg.numPlayers d.cfg.numHoleCards.toNat := by
      apply ext_getD 0 (by simp [hlen])
      intro i hi
      have hi' : i < d.cfg.numPlayers := by simpa [hlen] using hi
      rw [getD_map _ _ _ [] _ (by omega), hhole i hi', getD_replicate _ _ _ _ hi']
    rw [this, List.sum_replicate_nat]
  rw [hf, hboard] at hs
  unfold Enough at he
  unfold toCome
  rw [hsum, hboard]
  unfold fullBoard
  omega

theorem dealt_odds (hd : Dealt d) (hr : d.holeCards ≠ []) (hone : ∃ i < d.cfg.numPlayers, isIn d i)
    (he : Enough d.cfg) (hc : ∀ x ∈ d.cfg.numCommunityCards, 0 ≤ x) (hg : GoodEvaluator d.cfg)
    (hm : 0 ≤ d.cfg.mandatoryNumHoleCards ∧ d.cfg.mandatoryNumHoleCards ≤ d.cfg.numCardsForHand) :
    ∃ ps, d.winProbabilities = .ok ps := by
  obtain ⟨htc, hcards⟩ := dealt_toCome hd hr he hc
  have heval : ∀ e ∈ combinations (toCome d).toNat d.deck.cards,
      ∃ T, d.evalHands d.holeCards (d.communityCards ++ e) = .ok T :=
    fun e hmem => dealt_eval hd hr he hg hm ((mem_combinations _ _ _).1 hmem).1.subperm
  obtain ⟨wins, hw⟩ := countWins_total _ (List.replicate d.cfg.numPlayers 0) heval
  have hpos : 1 ≤ (boards d).length := by
    rw [boards_length]
    exact Nat.choose_pos hcards
  obtain ⟨-, h2, h3⟩ := countWins_fold hone _ _ _ (by simp) hw
  unfold Dealer.winProbabilities combinationsInt
  rw [if_neg (show ¬ (d.cfg.numCommunityCards.sum - (d.communityCards.length : Int) < 0) by unfold toCome at htc; omega)]
  simp only []
  have hw' := hw
  unfold toCome at hw'
  rw [hw']
  simp only []
  rw [if_neg]
  · exact ⟨_, rfl⟩
  · rintro ⟨h0, -⟩
    obtain ⟨b, hb⟩ := List.exists_mem_of_length_pos hpos
    obtain ⟨e, hemem, rfl⟩ := List.mem_map.1 hb
    have hemem' := (combinations_perm_sublistsLen _ _).mem_iff.2 hemem
    obtain ⟨T, hT⟩ := heval e hemem'
    have hnb := numBest_pos hone hT
    unfold numBest at hnb
    obtain ⟨i, hi, hbest⟩ := List.countP_pos_iff.1 hnb
    rw [List.mem_range] at hi
    have h5 := h2 i hi
    rw [getD_replicate _ _ _ _ hi] at h5
    have h6 : 0 < (combinations (toCome d).toNat d.deck.cards).countP fun e => bestOn d (d.communityCards ++ e) i :=
      List.countP_pos_iff.2 ⟨e, hemem', hbest⟩
    have h7 : ∀ (l : List Nat), l.sum = 0 → l.getD i 0 = 0 := by
      intro l hl
      by_cases hi : i < l.length
      · rw [getD_eq _ _ _ hi]
        exact List.sum_eq_zero_iff.1 hl _ (List.getElem_mem hi)
      · exact getD_out _ _ _ (by omega)
    have := h7 _ h0
    omega

/-- **C46**: once a hand has been dealt, `win_probabilities` returns, provided the deck is large enough, no number of
community cards is negative and the evaluator fits the cards. -/
theorem C46_returns (h : Reachable d) (hr : d.holeCards ≠ []) (hone : ∃ i < d.cfg.numPlayers, isIn d i)
    (he : Enough d.cfg) (hc : ∀ x ∈ d.cfg.numCommunityCards, 0 ≤ x) (hg : GoodEvaluator d.cfg)
    (hm : 0 ≤ d.cfg.mandatoryNumHoleCards ∧ d.cfg.mandatoryNumHoleCards ≤ d.cfg.numCardsForHand) :
    ∃ ps, d.winProbabilities = .ok ps :=
  dealt_odds (reachable_dealt h) hr hone he hc hg hm

/-- **C46**: if cards are missing to complete the board, it raises: `ZeroDivisionError` if the deck has too few cards,
`ValueError` if there are too many community cards already. -/
theorem C46_raises (hn : d.cfg.numPlayers ≠ 0) :
    ((d.deck.cards.length : Int) < toCome d → d.winProbabilities = .error .zeroDivision) ∧
    (toCome d < 0 → d.winProbabilities = .error .valueError) := by
  constructor
  · intro h
    unfold Dealer.winProbabilities combinationsInt
    rw [if_neg (show ¬ (d.cfg.numCommunityCards.sum - (d.communityCards.length : Int) < 0) by unfold toCome at h; omega)]
    have hc : combinations (d.cfg.numCommunityCards.sum - (d.communityCards.length : Int)).toNat d.deck.cards = [] := by
      rw [List.eq_nil_iff_forall_not_mem]
      intro l hl
      obtain ⟨h1, h2⟩ := (mem_combinations _ _ _).1 hl
      have := h1.length_le
      unfold toCome at h
      omega
    rw [hc]
    simp only [List.foldlM_nil, pure, Except.pure]
    rw [if_pos ⟨by simp, hn⟩]
  · intro h
    unfold Dealer.winProbabilities combinationsInt
    rw [if_pos (show d.cfg.numCommunityCards.sum - (d.communityCards.length : Int) < 0 from h)]

/-- three players, one hole card each, two community cards on the second street; a hand has two cards -/
def twoToCome : DealerArgs :=
  { board 3 [1, 2, 0] 10 with numCardsForHand := 2, numCommunityCards := .list [0, 2] }

instance (d : Dealer) : Decidable (∃ i < d.cfg.numPlayers, isIn d i) :=
  inferInstanceAs (Decidable (∃ i, i < d.cfg.numPlayers ∧ isIn d i))

/-- **C46 is false** for the code as far as "probability" is meant to be the expected share of the pot: a tie is counted
once for every player in it, so players who often tie get too much. The third player wins four of the ten boards alone and
shares the other six with both others, which is 3/5 of the pot on average; the code says 5/11. -/
theorem C46_false : ∃ S d, InHand S d ∧ Reachable d ∧ d.winProbabilities = .ok [3 / 11, 3 / 11, 5 / 11] ∧
    equity d 0 = 1 / 5 ∧ equity d 1 = 1 / 5 ∧ equity d 2 = 3 / 5 :=
  hand_exists twoToCome [] (by decide +kernel)

/-- boards without ties, and a player who is out -/
example : ∃ S d, InHand S d ∧ Reachable d ∧ d.holeCards ≠ [] ∧ (∃ i < d.cfg.numPlayers, isIn d i) ∧ ¬ isIn d 1 ∧
    Enough d.cfg ∧ (∀ b ∈ boards d, numBest d b = 1) ∧ (boards d).length = 4 ∧ d.winProbabilities = .ok [1, 0, 0] :=
  hand_exists { board 3 [1, 2, 0] 10 with numCardsForHand := 2 } [.bet 2, .bet (-1)] (by decide +kernel)

/-! ## C54 -/

/-- enough cards: there is a selection -/
theorem selection_exists {n m : Int} {hole comm : List Card} (hn : 0 ≤ n)
    (h : if m = 0 then n ≤ hole.length + comm.length
      else (0 ≤ m ∧ m ≤ n) ∧ m ≤ hole.length ∧ n - m ≤ comm.length) : ∃ sel, Selection n m hole comm sel := by
  unfold Selection
  split at h
  · next hm =>
    simp only [if_pos hm]
    refine ⟨(hole ++ comm).take n.toNat, List.take_sublist _ _, ?_⟩
    rw [List.length_take, List.length_append]; omega
  · next hm =>
    simp only [if_neg hm]
    refine ⟨_, hole.take m.toNat, comm.take (n - m).toNat, List.take_sublist _ _, ?_, List.take_sublist _ _, ?_, rfl⟩
    · rw [List.length_take]; omega
    · rw [List.length_take]; omega

theorem dealt_showdown (hs : Seated d) (hd : Dealt d) (hr : d.holeCards ≠ []) (hst : d.cfg.numStreets ≤ d.street + 1) (he : Enough d.cfg)
    (hf : HandsFit d.cfg) (hg : GoodEvaluator d.cfg) (i : Nat) (hi : i < d.cfg.numPlayers) :
    ∃ v sel, d.cfg.evaluator.evaluate (d.holeCards.getD i []) d.communityCards = .ok v ∧
      Selection d.cfg.numCardsForHand d.cfg.mandatoryNumHoleCards (d.holeCards.getD i []) d.communityCards sel ∧
      d.cfg.evaluator.table.lookup sel = .ok v ∧
      ∀ sel', Selection d.cfg.numCardsForHand d.cfg.mandatoryNumHoleCards (d.holeCards.getD i []) d.communityCards sel' →
        ∃ w, d.cfg.evaluator.table.lookup sel' = .ok w ∧ v ≤ w := by
  obtain ⟨hlen, hhole, hboard⟩ := dealt_shape hd (.inr hr) he
  rw [boardSize_all (by rw [hs.community]; omega)] at hboard
  have hc : 1 ≤ d.cfg.numCardsForHand := by
    obtain ⟨low, order, hev, -⟩ := hg
    exact (Evaluator.new_table hev).2.2.2.1
  have hm : 0 ≤ d.cfg.mandatoryNumHoleCards ∧ d.cfg.mandatoryNumHoleCards ≤ d.cfg.numCardsForHand := by
    unfold HandsFit at hf
    split at hf
    · omega
    · exact hf.1
  obtain ⟨v, h1, h2, h3⟩ := evaluate_ok hd hg hm.1 hm.2
    (seat_subperm hd (i := i) (by omega) (List.nil_sublist d.deck.cards))
  rw [List.append_nil] at h1 h2 h3
  obtain ⟨sel, h4, h5⟩ := h3 (selection_exists (by omega) (by
    unfold HandsFit fullBoard at hf
    rw [hhole i hi, hboard]
    exact hf))
  exact ⟨v, sel, h1, h4, h5, h2⟩

/-- **C54**: once all streets have been played, every player who is in has a hand: the evaluator returns a value (it
raises no exception), it is the value of a selection of cards that the rules allow, and no allowed selection has a better
one. -/
theorem C54_showdown (h : Reachable d) (hr : d.holeCards ≠ []) (hst : d.cfg.numStreets ≤ d.street + 1) (he : Enough d.cfg)
    (hf : HandsFit d.cfg) (hg : GoodEvaluator d.cfg) (i : Nat) (hi : i < d.cfg.numPlayers) :
    ∃ v sel, d.cfg.evaluator.evaluate (d.holeCards.getD i []) d.communityCards = .ok v ∧
      Selection d.cfg.numCardsForHand d.cfg.mandatoryNumHoleCards (d.holeCards.getD i []) d.communityCards sel ∧
      d.cfg.evaluator.table.lookup sel = .ok v ∧
      ∀ sel', Selection d.cfg.numCardsForHand d.cfg.mandatoryNumHoleCards (d.holeCards.getD i []) d.communityCards sel' →
        ∃ w, d.cfg.evaluator.table.lookup sel' = .ok w ∧ v ≤ w :=
  dealt_showdown (reachable_seated h) (reachable_dealt h) hr hst he hf hg i hi

/-- **C54**: the same as the hypothesis `Ranks` of the showdown theorems: it always holds for a sensible table. -/
theorem C54_ranks (h : Reachable d) (hr : d.holeCards ≠ []) (hst : d.cfg.numStreets ≤ d.street + 1) (he : Enough d.cfg)
    (hf : HandsFit d.cfg) (hg : GoodEvaluator d.cfg) : ∃ s, Ranks d s := by
  refine ⟨fun i => ((d.cfg.evaluator.evaluate (d.holeCards.getD i []) d.communityCards).toOption).getD 0, ?_⟩
  intro i hi _
  obtain ⟨v, -, h1, -⟩ := C54_showdown h hr hst he hf hg i hi
  simp only [h1]; rfl

/-- The hypotheses of `C46_returns` and `C54_showdown` hold in the first hand of two-player Kuhn poker. -/
example : ∃ d, Reachable d ∧ d.holeCards ≠ [] ∧ d.cfg.numStreets ≤ d.street + 1 ∧ Enough d.cfg ∧ HandsFit d.cfg ∧
    GoodEvaluator d.cfg := by
  obtain ⟨d, hd⟩ := (C45_shipped KUHN_TWO_PLAYER (by decide)).constructs id
  obtain ⟨h1, h2, h3, -, -, -, h4⟩ := (C45_shipped KUHN_TWO_PLAYER (by decide)).plays id d hd
  obtain ⟨d', obs, h5⟩ := h4 false false id
  have hr : Reachable d' := by
    have := Reachable.reset false false isShuffle_id (Reachable.new isShuffle_id hd)
    rwa [h5] at this
  have hc : d'.cfg = d.cfg := by have := reset_cfg d false false id; rwa [h5] at this
  obtain ⟨hl, h0, -⟩ := dealt_live (new_seated hd) h5
  refine ⟨d', hr, ?_, ?_, by rw [hc]; exact h1, by rw [hc]; exact h2, by rw [hc]; exact h3⟩
  · intro h6
    have := hl.holeLen
    rw [h6] at this
    have := hl.seated.two
    simp at *; omega
  · have h7 := (C44_values _ _ _ hd).2.2.2.2.2.2.1
    rw [hc, h7]
    simp [KUHN_TWO_PLAYER]

end Clubs
