import Verif.Model.SpeedTest
import Verif.Lemmas.Odds
import Verif.Props.Values
import Verif.Props.Decks

/-!
# C81: what `Evaluator.speed_test` measures

The shuffle of the deck and the readings of the clock are arbitrary.
-/

namespace Clubs

open Spec

theorem evaluator_deck {s r c m : Int} {low : Bool} {order : Option (List String)} {e : Evaluator}
    (h : Evaluator.new s r c m low order = .ok e) : e.suits = s ∧ e.ranks = r := by
  unfold Evaluator.new at h
  split at h
  · simp at h
  · split at h
    · simp at h
    · simp only [] at h
      split at h
      · simp at h
      · simp only [Except.ok.injEq] at h
        subst h; exact ⟨rfl, rfl⟩

theorem speedLoop_ok (e : Evaluator) (clock : Nat → Rat) (n k : Nat) (deck : Deck) (time : Rat)
    (h : ∀ j < n, ∃ v, e.evaluate ((deck.cards.drop (7 * j)).take 2) ((deck.cards.drop (7 * j + 2)).take 5) = .ok v) :
    ∃ log, speedLoop e clock n k deck time =
        .ok (time + ((List.range n).map fun j => clock (2 * (k + j) + 1) - clock (2 * (k + j))).sum, log) ∧ log.length = n ∧
      ∀ j < n, ∃ t, log[j]? = some t ∧ t.hole = (deck.cards.drop (7 * j)).take 2 ∧
        t.comm = (deck.cards.drop (7 * j + 2)).take 5 ∧ e.evaluate t.hole t.comm = .ok t.value := by
  induction n generalizing k deck time with
  | zero => exact ⟨[], by simp [speedLoop], rfl, by omega⟩
  | succ n ih =>
    obtain ⟨v, hv⟩ := h 0 (by omega)
    simp only [Nat.mul_zero, List.drop_zero, Nat.zero_add] at hv
    obtain ⟨log, h1, h2, h3⟩ := ih (k + 1) { deck with cards := deck.cards.drop 7 } (time + (clock (2 * k + 1) - clock (2 * k)))
      (by
        intro j hj
        obtain ⟨w, hw⟩ := h (j + 1) (by omega)
        refine ⟨w, ?_⟩
        simp only [List.drop_drop]
        rw [show 7 + 7 * j = 7 * (j + 1) by omega, show 7 + (7 * j + 2) = 7 * (j + 1) + 2 by omega]
        exact hw)
    refine ⟨⟨deck.cards.take 2, (deck.cards.drop 2).take 5, v⟩ :: log, ?_, by simp [h2], ?_⟩
    · unfold speedLoop
      simp only [Deck.draw_eq, List.drop_drop]
      rw [show Int.toNat 2 = 2 from rfl, show Int.toNat 5 = 5 from rfl, hv]
      simp only []
      rw [show 2 + 5 = 7 from rfl, h1]
      simp only [List.range_succ_eq_map, List.map_cons, List.map_map, List.sum_cons, Nat.add_zero]
      congr 2
      rw [add_assoc]
      congr 3
      apply List.map_congr_left
      intro j _
      simp only [Function.comp]
      rw [show k + 1 + j = k + (j + 1) by omega]
    · intro j hj
      cases j with
      | zero => exact ⟨_, rfl, by simp, by simp, hv⟩
      | succ j =>
        obtain ⟨t, a1, a2, a3, a4⟩ := h3 j (by omega)
        simp only [List.drop_drop] at a2 a3
        rw [show 7 + 7 * j = 7 * (j + 1) by omega] at a2
        rw [show 7 + (7 * j + 2) = 7 * (j + 1) + 2 by omega] at a3
        exact ⟨t, by simpa using a1, a2, a3, a4⟩

/-- **C81, as far as it is true**: for every evaluator of a supported shape, every shuffle and every clock, `speed_test(n)` with `n ≥ 1` returns the
average time of `n` evaluations. They are given, two and five at a time, the cards of **one** shuffled deck: the deck is not shuffled again, so
what is missing is that every evaluation is of a hand. -/
theorem C81_runs_partial (s r c : Nat) (hs : 1 ≤ s ∧ s ≤ 4) (hr : 1 ≤ r ∧ r ≤ 13) (hc : 1 ≤ c ∧ c ≤ 5)
    (m : Nat) (hm : m ≤ c) (low : Bool) (order : Option (List String)) (ho : GoodOrder s r c low order)
    (e : Evaluator) (he : Evaluator.new s r c m low order = .ok e) (shuf : Shuffle) (hshuf : IsShuffle shuf)
    (clock : Nat → Rat) (n : Nat) (hn : 1 ≤ n) :
    ∃ d avg log, Deck.new s r shuf = .ok d ∧ e.speedTest n shuf clock = .ok (avg, log) ∧
      avg * n = ((List.range n).map fun k => clock (2 * k + 1) - clock (2 * k)).sum ∧ log.length = n ∧
      ∀ k < n, ∃ t, log[k]? = some t ∧ t.hole = (d.cards.drop (7 * k)).take 2 ∧ t.comm = (d.cards.drop (7 * k + 2)).take 5 ∧
        e.evaluate t.hole t.comm = .ok t.value := by
  obtain ⟨hes, her⟩ := evaluator_deck he
  have hD : Deck.new s r shuf = .ok
      { numSuits := s, numRanks := r, fullDeck := deckList s r, cards := shuf (deckList s r), tricked := false, topIdcs := [],
        bottomIdcs := [] } := by
    rw [Deck.new_eq, if_neg (by omega), if_neg (by omega)]; simp
  have hev : ∀ j < n, ∃ v, e.evaluate (((shuf (deckList s r)).drop (7 * j)).take 2) (((shuf (deckList s r)).drop (7 * j + 2)).take 5) = .ok v := by
    intro j _
    have hsub : (((shuf (deckList s r)).drop (7 * j)).take 2 ++ ((shuf (deckList s r)).drop (7 * j + 2)).take 5).Subperm (deckList s r) := by
      rw [show ((shuf (deckList s r)).drop (7 * j)).take 2 ++ ((shuf (deckList s r)).drop (7 * j + 2)).take 5
          = ((shuf (deckList s r)).drop (7 * j)).take 7 by
        rw [show (7 : Nat) = 2 + 5 from rfl, List.take_add, List.drop_drop]]
      exact (((List.take_sublist _ _).trans (List.drop_sublist _ _)).subperm).trans (hshuf _).subperm
    obtain ⟨ps, hp, hps⟩ := subperm_hand hs.2 hr.2 hsub
    obtain ⟨as, bs, rfl, ha, hb⟩ := List.map_eq_append_iff.1 hps.symm
    have hall := isHand_cards hp hs.2
    obtain ⟨v, hv, -⟩ := C13_real_cards s r c hs hr hc m hm low order ho e he as bs _ hp _ _
      (denotes_mk as (fun p hp => hall p (by simp [hp]))) (denotes_mk bs (fun p hp => hall p (by simp [hp])))
    rw [ha, hb] at hv
    exact ⟨v, hv⟩
  obtain ⟨log, h1, h2, h3⟩ := speedLoop_ok e clock n 0
    { numSuits := s, numRanks := r, fullDeck := deckList s r, cards := shuf (deckList s r), tricked := false, topIdcs := [],
      bottomIdcs := [] } 0 hev
  have hn0 : (n : Rat) ≠ 0 := by exact_mod_cast (by omega : n ≠ 0)
  refine ⟨_, (0 + ((List.range n).map fun j => clock (2 * (0 + j) + 1) - clock (2 * (0 + j))).sum) / ((n : Int) : Rat), log, hD, ?_, ?_, h2, h3⟩
  · unfold Evaluator.speedTest
    rw [hes, her, hD]
    simp only [Int.toNat_natCast]
    rw [h1]
    simp only []
    rw [if_neg (by omega)]
  · simp only [zero_add, Int.cast_natCast]
    exact div_mul_cancel₀ _ hn0

/-- two hole and five community cards of a table for Omaha -/
example : ∃ e, Evaluator.new 4 13 5 2 true none = .ok e ∧ GoodOrder 4 13 5 true none ∧ IsShuffle id := by
  obtain ⟨e, he⟩ := (C09_exact_partial 4 13 5 (by omega) (by omega) (by omega) 2 true).2 (by simp)
  exact ⟨e, he, .inl rfl, fun _ => .refl _⟩

/-- **C81**: which of the evaluations are of a hand. The `k`-th (from 0) can select a hand only if the deck had `c` cards left, that is,
`7k + c ≤ s·r`, and if no hole cards are mandatory it can then; if it cannot, its result is `max_rank`, the worst value, whatever the cards. -/
theorem C81_which (s r c : Nat) (hs : 1 ≤ s ∧ s ≤ 4) (hr : 1 ≤ r ∧ r ≤ 13) (hc : 1 ≤ c ∧ c ≤ 5)
    (m : Nat) (hm : m ≤ c) (low : Bool) (order : Option (List String)) (ho : GoodOrder s r c low order)
    (e : Evaluator) (he : Evaluator.new s r c m low order = .ok e) (shuf : Shuffle) (hshuf : IsShuffle shuf)
    (clock : Nat → Rat) (n : Nat) (hn : 1 ≤ n) :
    ∃ avg log, e.speedTest n shuf clock = .ok (avg, log) ∧ log.length = n ∧
      ∀ k t, log[k]? = some t →
        (7 * k + 7 ≤ s * r → t.hole.length = 2 ∧ t.comm.length = 5) ∧
        (s * r ≤ 7 * k → t.hole = [] ∧ t.comm = []) ∧
        ((∃ sel, Selection c m t.hole t.comm sel) → m ≤ 2 ∧ 7 * k + c ≤ s * r) ∧
        (m = 0 → 7 * k + c ≤ s * r → ∃ sel, Selection c m t.hole t.comm sel) ∧
        (¬ (∃ sel, Selection c m t.hole t.comm sel) → t.value = e.table.maxRank) := by
  obtain ⟨d, avg, log, h1, h2, -, h4, h5⟩ := C81_runs_partial s r c hs hr hc m hm low order ho e he shuf hshuf clock n hn
  have hlen : d.cards.length = s * r := by
    have := (C03_contents s r shuf hshuf d h1).1
    exact_mod_cast this
  obtain ⟨-, e1, e2, -⟩ := Evaluator.new_table he
  refine ⟨avg, log, h2, h4, ?_⟩
  intro k t ht
  have hk : k < n := by
    have := (List.getElem?_eq_some_iff.1 ht).1
    omega
  obtain ⟨t', a1, a2, a3, a4⟩ := h5 k hk
  rw [ht] at a1
  obtain rfl := Option.some.inj a1
  have l1 : t.hole.length = min 2 (s * r - 7 * k) := by rw [a2]; simp [hlen]
  have l2 : t.comm.length = min 5 (s * r - (7 * k + 2)) := by rw [a3]; simp [hlen]
  refine ⟨fun h => ⟨by omega, by omega⟩, fun h => ⟨?_, ?_⟩, ?_, ?_, ?_⟩
  · exact List.eq_nil_of_length_eq_zero (by omega)
  · exact List.eq_nil_of_length_eq_zero (by omega)
  · rintro ⟨sel, hsel⟩
    unfold Selection at hsel
    split at hsel
    · next hm0 =>
      have := hsel.1.length_le
      have := hsel.2
      rw [List.length_append] at *
      omega
    · obtain ⟨a, b, ha, hal, hb, hbl, rfl⟩ := hsel
      have := ha.length_le
      have := hb.length_le
      omega
  · rintro rfl hle
    refine ⟨(t.hole ++ t.comm).take c, ?_⟩
    unfold Selection
    rw [if_pos (by simp)]
    refine ⟨List.take_sublist _ _, ?_⟩
    rw [List.length_take, List.length_append]
    omega
  · intro hno
    have := ((C13_minimum e (by omega) (by omega) _ _ t.value).1 a4).2.2
    rw [e1, e2] at this
    rcases this with h | ⟨sel, hsel, -⟩
    · exact h
    · exact absurd ⟨sel, hsel⟩ hno

/-- **C81**: with a clock that does not run backwards the average is not negative, and `n` times the average is at most the time between the first
and the last reading. -/
theorem C81_average (e : Evaluator) (shuf : Shuffle) (clock : Nat → Rat) (hclock : ∀ k, clock k ≤ clock (k + 1)) (n : Nat)
    (avg : Rat) (log : List Trial) (h : e.speedTest n shuf clock = .ok (avg, log)) :
    0 ≤ avg ∧ avg * n ≤ clock (2 * n) - clock 0 := by
  have loop : ∀ n k (deck : Deck) time time' log, speedLoop e clock n k deck time = .ok (time', log) →
      time ≤ time' ∧ time' - time ≤ clock (2 * (k + n)) - clock (2 * k) := by
    intro n
    induction n with
    | zero =>
      intro k deck time time' log h
      simp only [speedLoop, Except.ok.injEq, Prod.mk.injEq] at h
      rw [← h.1]; simp
    | succ n ih =>
      intro k deck time time' log h
      unfold speedLoop at h
      simp only [] at h
      split at h
      · simp at h
      · split at h
        · simp at h
        · next t1 log1 h1 =>
          simp only [Except.ok.injEq, Prod.mk.injEq] at h
          obtain ⟨b1, b2⟩ := ih _ _ _ _ _ h1
          have c1 := hclock (2 * k)
          have c2 := hclock (2 * k + 1)
          rw [← h.1]
          rw [show 2 * (k + 1 + n) = 2 * (k + (n + 1)) by omega, show 2 * (k + 1) = 2 * k + 1 + 1 by omega] at b2
          constructor <;> linarith
  unfold Evaluator.speedTest at h
  split at h
  · simp at h
  · split at h
    · simp at h
    · next time log1 h1 =>
      split at h
      · simp at h
      · next hn =>
        simp only [Except.ok.injEq, Prod.mk.injEq] at h
        obtain ⟨b1, b2⟩ := loop _ _ _ _ _ _ h1
        have hn0 : (n : Rat) ≠ 0 := by exact_mod_cast hn
        have hpos : (0 : Rat) < n := by exact_mod_cast (by omega : 0 < n)
        simp only [Int.toNat_natCast, zero_add, sub_zero, Nat.mul_zero, Int.cast_natCast] at b1 b2 h
        rw [← h.1]
        refine ⟨div_nonneg b1 hpos.le, ?_⟩
        rw [div_mul_cancel₀ _ hn0]
        exact b2

/-- a clock that advances by one at every reading -/
example : ∀ k : Nat, ((k : Nat) : Rat) ≤ ((k + 1 : Nat) : Rat) := by
  intro k; exact_mod_cast Nat.le_succ k

/-- **C81**: `speed_test(0)` divides by zero. -/
theorem C81_zero (e : Evaluator) (hs : 1 ≤ e.suits ∧ e.suits ≤ 4) (hr : 1 ≤ e.ranks ∧ e.ranks ≤ 13) (shuf : Shuffle) (clock : Nat → Rat) :
    e.speedTest 0 shuf clock = .error .zeroDivision := by
  unfold Evaluator.speedTest
  rw [Deck.new_eq, if_neg (by omega), if_neg (by omega)]
  simp [speedLoop]

/-- **C81**: with a number of mandatory hole cards that is negative or larger than the hand, the first evaluation raises `ValueError`. -/
theorem C81_bad_mandatory (e : Evaluator) (hs : 1 ≤ e.suits ∧ e.suits ≤ 4) (hr : 1 ≤ e.ranks ∧ e.ranks ≤ 13)
    (h : e.mandatoryHoleCards < 0 ∨ (0 < e.mandatoryHoleCards ∧ e.cardsForHand < e.mandatoryHoleCards)) (shuf : Shuffle)
    (clock : Nat → Rat) (n : Nat) (hn : 1 ≤ n) : e.speedTest n shuf clock = .error .valueError := by
  unfold Evaluator.speedTest
  rw [Deck.new_eq, if_neg (by omega), if_neg (by omega)]
  obtain ⟨n, rfl⟩ : ∃ k, n = k + 1 := ⟨n - 1, by omega⟩
  simp only [Int.toNat_natCast, speedLoop, C13_bad_mandatory e _ _ h]

/-- six mandatory hole cards for a hand of five -/
example : ∃ e, Evaluator.new 4 13 5 6 true none = .ok e ∧ e.cardsForHand < e.mandatoryHoleCards := by
  obtain ⟨e, he⟩ := (C09_exact_partial 4 13 5 (by omega) (by omega) (by omega) 6 true).2 (by simp)
  obtain ⟨-, h1, h2, -⟩ := Evaluator.new_table he
  exact ⟨e, he, by omega⟩

/-- **C81 fails**: of the 100000 evaluations by which `speed_test.py` and the figures of `README.md` measure the speed for 52 cards, whatever the
shuffle and the clock, only the first seven are of seven cards; the eighth is of three cards, and the other 99992 are of no cards at all. From the eighth on the
result is 7462, found without a single look into the table. -/
theorem C81_false (shuf : Shuffle) (hshuf : IsShuffle shuf) (clock : Nat → Rat) :
    ∃ e avg log, Evaluator.new 4 13 5 0 true none = .ok e ∧ e.speedTest 100000 shuf clock = .ok (avg, log) ∧ log.length = 100000 ∧
      ∀ k t, log[k]? = some t →
        ((∃ sel, Selection 5 0 t.hole t.comm sel) ↔ k < 7) ∧
        (8 ≤ k → t.hole = [] ∧ t.comm = []) ∧
        (7 ≤ k → e.handCombs t.hole t.comm = .ok [] ∧ t.value = 7462) := by
  obtain ⟨tb, ht, k1, -⟩ := documented_table
  obtain ⟨e, he⟩ := (C09_exact_partial 4 13 5 (by omega) (by omega) (by omega) 0 true).2 (by simp)
  have e1 : e.table = tb := by
    have : Table.new 4 13 5 true none = .ok e.table := (Evaluator.new_table he).1
    rw [ht] at this; exact (Except.ok.inj this).symm
  obtain ⟨-, e2, e3, -⟩ := Evaluator.new_table he
  obtain ⟨avg, log, h1, h2, h3⟩ := C81_which 4 13 5 (by omega) (by omega) (by omega) 0 (by omega) true none (.inl rfl) e he shuf hshuf clock 100000
    (by omega)
  refine ⟨e, avg, log, he, h1, h2, ?_⟩
  intro k t ht
  obtain ⟨b1, b2, b3, b4, b5⟩ := h3 k t ht
  have hiff : (∃ sel, Selection 5 0 t.hole t.comm sel) ↔ k < 7 := by
    constructor
    · intro h; have := (b3 h).2; omega
    · intro h; exact b4 rfl (by omega)
  refine ⟨hiff, fun h => b2 (by omega), fun h => ⟨?_, ?_⟩⟩
  · have hno : ¬ ∃ sel, Selection 5 0 t.hole t.comm sel := by rw [hiff]; omega
    obtain ⟨combs, hcb⟩ := handCombs_ok (e := e) t.hole t.comm (by omega) (by omega)
    have hmem := mem_handCombs hcb
    rw [e2, e3] at hmem
    rw [hcb]
    cases combs with
    | nil => rfl
    | cons x xs => exact absurd ⟨x, (hmem x).1 (by simp)⟩ hno
  · rw [b5 (fun hsel => by have := hiff.1 hsel; omega), e1, k1]

/-- **C81**: `speed_test.py` prints two numbers, the second the inverse of the first, unless the clock is too coarse to see any evaluation: then it
divides by zero. -/
theorem C81_program (shuf : Shuffle) (hshuf : IsShuffle shuf) (clock : Nat → Rat) :
    (speedProgram shuf clock = .error .zeroDivision ↔
      ((List.range 100000).map fun k => clock (2 * k + 1) - clock (2 * k)).sum = 0) ∧
    (speedProgram shuf clock ≠ .error .zeroDivision → ∃ a b log, speedProgram shuf clock = .ok ((a, b), log) ∧ a * b = 1) := by
  obtain ⟨e, he⟩ := (C09_exact_partial 4 13 5 (by omega) (by omega) (by omega) 0 true).2 (by simp)
  obtain ⟨d, avg, log, -, h2, h3, -⟩ := C81_runs_partial 4 13 5 (by omega) (by omega) (by omega) 0 (by omega) true none (.inl rfl) e he shuf hshuf
    clock 100000 (by omega)
  have he' : Evaluator.new 4 13 5 0 true none = .ok e := he
  have h2' : e.speedTest 100000 shuf clock = .ok (avg, log) := h2
  unfold speedProgram
  rw [he']
  simp only []
  rw [h2']
  simp only []
  rw [← h3]
  by_cases h0 : avg = 0
  · simp [h0]
  · rw [if_neg h0]
    refine ⟨by simp [h0], fun _ => ⟨avg, 1 / avg, log, rfl, mul_one_div_cancel h0⟩⟩

end Clubs
