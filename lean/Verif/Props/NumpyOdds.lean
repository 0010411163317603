import Verif.Props.NumpySame
import Verif.Props.NumpyCards

/-!
# Winning chances in the array engine: C73
-/

namespace Clubs.Numpy

open Spec

variable {d : Dealer} {n : Int} {sample : Nat → List Card}

/-- the loop of the other engine, row by row -/
theorem countWins_rows (d : Dealer) (L : List (List Card)) (w : List Nat) :
    L.foldlM d.countWins w = (match L.mapM fun e => evalHands d d.holeCards (d.communityCards ++ e) with
      | .error e => .error e
      | .ok rows => .ok (rows.foldl (fun w row => List.zipWith (fun w s => if s = pyMin row then w + 1 else w) w row) w)) := by
  induction L generalizing w with
  | nil => simp [pure, Except.pure]
  | cons e L ih =>
    rw [List.foldlM_cons, List.mapM_cons]
    unfold evalHands Dealer.countWins at *
    cases hT : d.evalHands d.holeCards (d.communityCards ++ e) with
    | error x => simp [bind, Except.bind]
    | ok T =>
      simp only [bind, Except.bind]
      rw [ih]
      cases L.mapM fun e => d.evalHands d.holeCards (d.communityCards ++ e) with
      | error x => rfl
      | ok rows => rfl

/-- every row has a value for every player -/
theorem rows_length {L : List (List Card)} {rows : List (List Int)}
    (h : (L.mapM fun e => evalHands d d.holeCards (d.communityCards ++ e)) = .ok rows) :
    rows.length = L.length ∧ ∀ row ∈ rows, row.length = d.cfg.numPlayers := by
  rw [mapM_ok_iff] at h
  refine ⟨h.length_eq.symm, fun row hr => ?_⟩
  obtain ⟨i, hi, rfl⟩ := List.mem_iff_getElem.1 hr
  have := List.Forall₂.get h (i := i) (by rw [h.length_eq]; exact hi) hi
  exact (evalHands_get (board := _) this).1

/-- the columns of the counts -/
theorem fold_columns {m : Nat} (rows : List (List Int)) (w : List Nat) (hw : w.length = m) (hr : ∀ row ∈ rows, row.length = m) :
    rows.foldl (fun w row => List.zipWith (fun w s => if s = pyMin row then w + 1 else w) w row) w =
      (List.range m).map fun i => w.getD i 0 + rows.countP fun row => row.getD i 0 = pyMin row := by
  induction rows generalizing w with
  | nil =>
    apply ext_getD 0 (by simp [hw])
    intro i hi
    rw [List.foldl_nil, hw] at hi
    rw [getD_map _ _ _ 0 _ (by simpa using hi), getD_eq (List.range m) _ _ (by simpa using hi), List.getElem_range]
    simp
  | cons row rows ih =>
    have hl := hr row (by simp)
    rw [List.foldl_cons, ih _ (by simp [hw, hl]) fun r h => hr r (by simp [h])]
    apply List.map_congr_left
    intro i hi
    rw [List.mem_range] at hi
    rw [getD_zipWith _ _ _ _ 0 0 _ (by omega) (by omega), List.countP_cons]
    by_cases hb : row.getD i 0 = pyMin row
    · rw [if_pos hb, if_pos (by simpa using hb)]; omega
    · rw [if_neg hb, if_neg (by simpa using hb)]; omega

/-- somebody wins in every row -/
theorem columns_pos {m : Nat} (hm : 0 < m) {rows : List (List Int)} (h0 : rows ≠ []) (hr : ∀ row ∈ rows, row.length = m) :
    ((List.range m).map fun i => rows.countP fun row => row.getD i 0 = pyMin row).sum ≠ 0 := by
  intro h
  obtain ⟨row, hrow⟩ := List.exists_mem_of_ne_nil _ h0
  have hl := hr row hrow
  obtain ⟨j, hj, hjm⟩ := (mem_getD 0).1 (pyMin_mem (l := row) (by rintro rfl; simp at hl; omega))
  have := List.sum_eq_zero_iff.1 h (rows.countP fun row => row.getD j 0 = pyMin row)
    (List.mem_map.2 ⟨j, by rw [List.mem_range]; omega, rfl⟩)
  rw [List.countP_eq_zero] at this
  exact this row hrow (by simpa using hjm)

/-- **C73**: if fewer than 1000 boards are possible, `win_probabilities` is the same in both engines: it does not depend on the
number of samples, nor on chance. -/
theorem C73_exact (hn : 0 < d.cfg.numPlayers) (h0 : 0 ≤ toCome d) (h1 : toCome d ≤ d.deck.cards.length)
    (hc : (boards d).length < 1000) (n : Int) (sample : Nat → List Card) : winProbabilities d n sample = d.winProbabilities := by
  have hcombs : ncr d.deck.cards.length (toCome d) = ((boards d).length : Int) := by
    have := ncr_eq_choose d.deck.cards.length (toCome d).toNat (by omega)
    rw [show (((toCome d).toNat : Nat) : Int) = toCome d by omega] at this
    rw [this, boards_length]
  have hlen : (combinations (toCome d).toNat d.deck.cards).length = (boards d).length := by
    rw [(combinations_perm_sublistsLen _ _).length_eq]
    unfold boards
    rw [List.length_map]
  have hpos : 0 < (boards d).length := by
    rw [boards_length]
    exact Nat.choose_pos (by omega)
  unfold winProbabilities Dealer.winProbabilities
  rw [show d.cfg.numCommunityCards.sum - (d.communityCards.length : Int) = toCome d from rfl]
  simp only []
  rw [hcombs, if_pos (by omega)]
  unfold combinationsInt
  rw [if_neg (by omega)]
  simp only []
  rw [countWins_rows]
  unfold frequencies
  cases hr : (combinations (toCome d).toNat d.deck.cards).mapM fun e => evalHands d d.holeCards (d.communityCards ++ e) with
  | error e => rfl
  | ok rows =>
    obtain ⟨hl, hrow⟩ := rows_length hr
    have hne : rows ≠ [] := by rintro rfl; rw [hlen] at hl; simp at hl; omega
    simp only []
    rw [if_neg (show ¬ (rows = [] ∨ ((boards d).length : Int) ≠ rows.length) by
      rw [not_or]; exact ⟨hne, by rw [hl, hlen]; simp⟩)]
    have hcol := fold_columns rows (List.replicate d.cfg.numPlayers 0) (by simp) hrow
    have e2 : ((List.range d.cfg.numPlayers).map fun i => (List.replicate d.cfg.numPlayers 0).getD i 0 +
        rows.countP fun row => row.getD i 0 = pyMin row) =
        (List.range d.cfg.numPlayers).map fun i => rows.countP fun row => row.getD i 0 = pyMin row := by
      apply List.map_congr_left
      intro i hi
      rw [List.mem_range] at hi
      rw [getD_replicate _ _ _ _ hi, Nat.zero_add]
    rw [hcol, e2, if_neg (fun h => columns_pos hn hne hrow h.1)]

/-- what the frequencies are -/
theorem frequencies_eq (hone : ∃ i < d.cfg.numPlayers, isIn d i) {L : List (List Card)} {ps : List Rat}
    (h : frequencies d n L = .ok ps) :
    ps = (List.range d.cfg.numPlayers).map (fun i => ((L.countP fun e => bestOn d (d.communityCards ++ e) i : Nat) : Rat) /
      ((((List.range d.cfg.numPlayers).map fun i => L.countP fun e => bestOn d (d.communityCards ++ e) i).sum : Nat) : Rat)) ∧
    ((List.range d.cfg.numPlayers).map fun i => L.countP fun e => bestOn d (d.communityCards ++ e) i).sum ≠ 0 := by
  unfold frequencies at h
  cases hr : L.mapM fun e => evalHands d d.holeCards (d.communityCards ++ e) with
  | error e => rw [hr] at h; simp at h
  | ok rows =>
    rw [hr] at h
    simp only [] at h
    split at h
    · simp at h
    next hne =>
    rw [not_or] at hne
    have hcol : ((List.range d.cfg.numPlayers).map fun i => rows.countP fun row => row.getD i 0 = pyMin row) =
        (List.range d.cfg.numPlayers).map fun i => L.countP fun e => bestOn d (d.communityCards ++ e) i := by
      apply List.map_congr_left
      intro i hi
      rw [List.mem_range] at hi
      have hf := (mapM_ok_iff _ _ _).1 hr
      clear hr h hne
      induction hf with
      | nil => rfl
      | @cons e row L rows h1 h2 ih =>
        rw [List.countP_cons, List.countP_cons, ih]
        have := best_iff hone h1 i hi
        congr 1
        by_cases hb : bestOn d (d.communityCards ++ e) i = true
        · rw [if_pos hb, if_pos (by simpa using this.2 hb)]
        · rw [if_neg hb, if_neg (by simpa using fun x => hb (this.1 x))]
    simp only [Except.ok.injEq] at h
    obtain ⟨p, hp, -⟩ := hone
    have hz := columns_pos (m := d.cfg.numPlayers) (by omega) hne.1 (rows_length hr).2
    rw [hcol] at h hz
    refine ⟨?_, hz⟩
    rw [← h, List.map_map]
    rfl

/-- the number of boards is what decides -/
theorem sampled (h0 : 0 ≤ toCome d) (h1 : toCome d ≤ d.deck.cards.length) (hc : 1000 ≤ (boards d).length) :
    winProbabilities d n sample = frequencies d n ((List.range n.toNat).map sample) := by
  have hcombs : ncr d.deck.cards.length (toCome d) = ((boards d).length : Int) := by
    have := ncr_eq_choose d.deck.cards.length (toCome d).toNat (by omega)
    rw [show (((toCome d).toNat : Nat) : Int) = toCome d by omega] at this
    rw [this, boards_length]
  unfold winProbabilities
  rw [show d.cfg.numCommunityCards.sum - (d.communityCards.length : Int) = toCome d from rfl]
  simp only []
  rw [hcombs, if_neg (by omega)]

/-- **C73**: from 1000 boards on there is a value for every player: the
number of samples that this player wins or ties, divided by the sum of these numbers over all players. -/
theorem C73_sampled (hone : ∃ i < d.cfg.numPlayers, isIn d i) (h0 : 0 ≤ toCome d) (h1 : toCome d ≤ d.deck.cards.length)
    (hc : 1000 ≤ (boards d).length) {ps : List Rat} (h : winProbabilities d n sample = .ok ps) :
    ps.length = d.cfg.numPlayers ∧ ∀ i < d.cfg.numPlayers, ps.getD i 0 = (sampledWins d n.toNat sample i : Rat) /
      ((((List.range d.cfg.numPlayers).map (sampledWins d n.toNat sample)).sum : Nat) : Rat) := by
  rw [sampled h0 h1 hc] at h
  have e := (frequencies_eq hone h).1
  simp only [List.countP_map] at e
  refine ⟨by rw [e]; simp, fun i hi => ?_⟩
  rw [e, getD_map _ _ _ 0 _ (by simpa using hi), getD_eq (List.range d.cfg.numPlayers) _ _ (by simpa using hi),
    List.getElem_range]
  rfl

theorem map_div_sum (l : List Nat) (f : Nat → Nat) (q : Rat) :
    (l.map fun i => (f i : Rat) / q).sum = (((l.map f).sum : Nat) : Rat) / q := by
  induction l with
  | nil => simp
  | cons a l ih => rw [List.map_cons, List.sum_cons, ih, List.map_cons, List.sum_cons, Nat.cast_add, add_div]

theorem frequencies_dist (hone : ∃ i < d.cfg.numPlayers, isIn d i) {L : List (List Card)} {ps : List Rat}
    (h : frequencies d n L = .ok ps) :
    (∀ p ∈ ps, 0 ≤ p) ∧ ps.sum = 1 ∧ ∀ i < d.cfg.numPlayers, ¬ isIn d i → ps.getD i 0 = 0 := by
  obtain ⟨e, h0⟩ := frequencies_eq hone h
  refine ⟨?_, ?_, ?_⟩
  · intro p hp
    rw [e] at hp
    obtain ⟨i, -, rfl⟩ := List.mem_map.1 hp
    exact div_nonneg (Nat.cast_nonneg _) (Nat.cast_nonneg _)
  · rw [e, map_div_sum _ fun i => L.countP fun e => bestOn d (d.communityCards ++ e) i, div_self]
    exact Nat.cast_ne_zero.2 h0
  · intro i hi hin
    rw [e, getD_map _ _ _ 0 _ (by simpa using hi), getD_eq (List.range d.cfg.numPlayers) _ _ (by simpa using hi),
      List.getElem_range]
    have : (L.countP fun e => bestOn d (d.communityCards ++ e) i) = 0 := by
      rw [List.countP_eq_zero]
      intro b _
      unfold bestOn rankOn
      rw [if_neg hin]
      simp
    rw [this]; simp

/-- **C73**: however the values were found, they are not negative, their sum is 1, and a player who is out gets 0. -/
theorem C73_distribution (hone : ∃ i < d.cfg.numPlayers, isIn d i) {ps : List Rat} (h : winProbabilities d n sample = .ok ps) :
    (∀ p ∈ ps, 0 ≤ p) ∧ ps.sum = 1 ∧ ∀ i < d.cfg.numPlayers, ¬ isIn d i → ps.getD i 0 = 0 := by
  unfold winProbabilities at h
  simp only [] at h
  split at h
  · split at h
    · simp at h
    · exact frequencies_dist hone h
  · exact frequencies_dist hone h

/-- **C73**: if the deck has too few cards to complete the board, or there are too many community cards already, or no sample
is asked for, it raises `ValueError`. -/
theorem C73_raises (h : (d.deck.cards.length : Int) < toCome d ∨ toCome d < 0 ∨ (n ≤ 0 ∧ 1000 ≤ (boards d).length)) :
    winProbabilities d n sample = .error .valueError := by
  have hno : ∀ m : Int, frequencies d m [] = .error .valueError := by
    intro m
    unfold frequencies
    simp [pure, Except.pure]
  have hone : ∀ r : Int, r < 0 ∨ (d.deck.cards.length : Int) < r → ncr d.deck.cards.length r = 1 := by
    intro r hr
    unfold ncr
    simp only []
    rw [show (min r ((d.deck.cards.length : Int) - r)).toNat = 0 by omega]
    rfl
  by_cases hneg : toCome d < 0
  · unfold winProbabilities
    rw [show d.cfg.numCommunityCards.sum - (d.communityCards.length : Int) = toCome d from rfl]
    simp only []
    rw [hone _ (.inl hneg), if_pos (by omega)]
    unfold combinationsInt
    rw [if_pos hneg]
  · by_cases hbig : (d.deck.cards.length : Int) < toCome d
    · unfold winProbabilities
      rw [show d.cfg.numCommunityCards.sum - (d.communityCards.length : Int) = toCome d from rfl]
      simp only []
      rw [hone _ (.inr hbig), if_pos (by omega)]
      unfold combinationsInt
      rw [if_neg hneg]
      have hc : combinations (toCome d).toNat d.deck.cards = [] := by
        rw [List.eq_nil_iff_forall_not_mem]
        intro l hl
        obtain ⟨h1, h2⟩ := (mem_combinations _ _ _).1 hl
        have := h1.length_le
        omega
      rw [hc]
      exact hno 1
    · rcases h with h | h | ⟨h1, h2⟩
      · exact absurd h hbig
      · exact absurd h hneg
      · rw [sampled (by omega) (by omega) h2, show n.toNat = 0 by omega]
        exact hno n

/-- **C73**: once a hand has been dealt it returns, provided the deck is large enough, no number of community cards is negative,
the evaluator fits the cards, at least one sample is asked for, and the samples consist of as many different cards of the deck as
are missing on the board. -/
theorem C73_returns (h : ArrayReachable d) (hr : d.holeCards ≠ []) (hone : ∃ i < d.cfg.numPlayers, isIn d i)
    (he : Enough d.cfg) (hc : ∀ x ∈ d.cfg.numCommunityCards, 0 ≤ x) (hg : GoodEvaluator d.cfg)
    (hm : 0 ≤ d.cfg.mandatoryNumHoleCards ∧ d.cfg.mandatoryNumHoleCards ≤ d.cfg.numCardsForHand) (hn : 0 < n)
    (hs : ∀ k, IsSample d (sample k)) : ∃ ps, winProbabilities d n sample = .ok ps := by
  have hd := array_dealt' h
  obtain ⟨h0, h1⟩ := dealt_toCome hd hr he hc
  have hpos : 0 < d.cfg.numPlayers := by obtain ⟨p, hp, -⟩ := hone; omega
  by_cases hb : (boards d).length < 1000
  · rw [C73_exact hpos h0 (by omega) hb]
    exact dealt_odds hd hr hone he hc hg hm
  · rw [sampled h0 (by omega) (by omega)]
    unfold frequencies
    cases hr' : ((List.range n.toNat).map sample).mapM fun e => evalHands d d.holeCards (d.communityCards ++ e) with
    | error x =>
      obtain ⟨e, hmem, hx⟩ := mapM_error _ _ _ hr'
      obtain ⟨k, -, rfl⟩ := List.mem_map.1 hmem
      obtain ⟨T, hT⟩ := dealt_eval hd hr he hg hm (hs k).2
      unfold evalHands at hx
      rw [hT] at hx
      simp at hx
    | ok rows =>
      have hl := (rows_length hr').1
      rw [List.length_map, List.length_range] at hl
      simp only []
      rw [if_neg]
      · exact ⟨_, rfl⟩
      · rw [not_or]
        refine ⟨?_, by omega⟩
        rintro rfl
        simp at hl
        omega

/-- ten boards, counted exactly -/
example : ∃ S d, ArrayInHand S d ∧ ArrayReachable d ∧ (∃ i < d.cfg.numPlayers, isIn d i) ∧ d.holeCards ≠ [] ∧ toCome d = 2 ∧
    d.deck.cards.length = 5 ∧ (boards d).length = 10 ∧ Enough d.cfg ∧
    winProbabilities d 100 (fun _ => []) = .ok [3 / 11, 3 / 11, 5 / 11] :=
  hand_exists twoToCome [] (by decide +kernel)

/-- three players at a full deck, one hole card each, hands of two cards, two community cards to come -/
def fullDeck : DealerArgs :=
  { twoToCome with numSuits := 4, numRanks := 13 }

/-- 1176 boards: with the samples "the first two cards of the deck" and "the cards in fourth and fifth place" by turns, a player
who has folded gets nothing -/
example : ∃ S d, ArrayInHand S d ∧ ArrayReachable d ∧ (∃ i < d.cfg.numPlayers, isIn d i) ∧ d.holeCards ≠ [] ∧
    (toCome d = 2 ∧ d.deck.cards.length = 49) ∧ 1000 ≤ (boards d).length ∧ Enough d.cfg ∧
    (∀ k, IsSample d ((d.deck.cards.drop (k % 2 * 3)).take 2)) ∧
    winProbabilities d 3 (fun k => (d.deck.cards.drop (k % 2 * 3)).take 2) = .ok [1 / 2, 0, 1 / 2] := by
  obtain ⟨S, d, h1, h2, h3, h4, h5, h6, h7⟩ := hand_exists fullDeck [.bet 2, .bet (-1)]
    (P := fun _ d => (∃ i < d.cfg.numPlayers, isIn d i) ∧ d.holeCards ≠ [] ∧ (toCome d = 2 ∧ d.deck.cards.length = 49) ∧
      Enough d.cfg ∧ winProbabilities d 3 (fun k => (d.deck.cards.drop (k % 2 * 3)).take 2) = .ok [1 / 2, 0, 1 / 2]) (by decide +kernel)
  refine ⟨S, d, h1, h2, h3, h4, h5, ?_, h6, ?_, h7⟩
  · rw [boards_length, h5.1, h5.2]
    decide +kernel
  · intro k
    have := Nat.mod_lt k (show 0 < 2 by decide)
    refine ⟨?_, ((List.take_sublist _ _).trans (List.drop_sublist _ _)).subperm⟩
    rw [List.length_take, List.length_drop]
    omega

end Clubs.Numpy
