import Verif.Lemmas.Values
import Verif.Spec.Values
import Verif.Props.Evaluator
import Mathlib.Order.Interval.Finset.Basic
import Mathlib.Data.Int.Interval

/-!
# C80: what the value of a hand counts
-/

namespace Clubs

open Spec

variable {s r c : Nat} {low : Bool}

/-- `v` is the value of a hand -/
def IsValue (s r c : Nat) (e : Evaluator) (v : Int) : Prop :=
  ∃ ps h, IsHand s r c ps ∧ Denotes ps h ∧ e.table.lookup h = .ok v

/-- the class order of a table -/
def classNames (e : Evaluator) : List String := e.table.rankedHands.map (·.name)

/-- values, as a function -/
theorem value_fn (hs : 1 ≤ s ∧ s ≤ 4) (hr : 1 ≤ r ∧ r ≤ 13) (hc : 1 ≤ c ∧ c ≤ 5) (hne : ¬ (3 ≤ c ∧ r = c)) {m : Int}
    {order : Option (List String)} (ho : GoodOrder s r c low order) {e : Evaluator} (he : Evaluator.new s r c m low order = .ok e) :
    ∃ f : List (Nat × Nat) → Int, (∀ ps, IsHand s r c ps → e.table.lookup (ps.map fun p => mkCard p.1 p.2) = .ok (f ps)) ∧
      ∀ ps qs, IsHand s r c ps → IsHand s r c qs → (f ps < f qs ↔ BetterThan (classNames e) s r low ps qs) ∧
        (essence s r low ps = essence s r low qs ↔ f ps = f qs) := by
  have ex : ∀ ps, ∃ v, IsHand s r c ps → e.table.lookup (ps.map fun p => mkCard p.1 p.2) = .ok v := by
    intro ps
    by_cases hp : IsHand s r c ps
    · obtain ⟨v, h1, -⟩ := C10_in_range_partial s r c hs hr hc m low order ho e he ps hp _ (denotes_mk _ (isHand_cards hp hs.2))
      exact ⟨v, fun _ => h1⟩
    · exact ⟨0, fun h => absurd h hp⟩
  choose f hf using ex
  refine ⟨f, hf, ?_⟩
  intro ps qs hp hq
  obtain ⟨v, w, h1, h2, h3, h4⟩ := C11_order_partial s r c hs hr hc hne m low order ho e he ps qs hp hq _ _
    (denotes_mk _ (isHand_cards hp hs.2)) (denotes_mk _ (isHand_cards hq hs.2))
  rw [hf ps hp] at h1; cases h1
  rw [hf qs hq] at h2; cases h2
  refine ⟨h3, ?_⟩
  rw [h4]
  unfold essence
  rw [Prod.mk.injEq, Multiset.coe_eq_coe]

/-- **C80**, which numbers are values: all from 0 to `max_rank` but one, the number behind the values of the best class. (Left out: hands
with at least as many cards as there are ranks, except for one or two cards from as many ranks.) -/
theorem C80_values_partial (hs : 1 ≤ s ∧ s ≤ 4) (hr : r ≤ 13) (hc : 1 ≤ c ∧ c ≤ 5) (hcr : c ≤ r) (hne : ¬ (3 ≤ c ∧ r = c)) {m : Int}
    {order : Option (List String)} (ho : GoodOrder s r c low order) {e : Evaluator} (he : Evaluator.new s r c m low order = .ok e) :
    ∃ gap, 0 < gap ∧ gap ≤ e.table.maxRank ∧ (∀ v, IsValue s r c e v ↔ (0 ≤ v ∧ v ≤ e.table.maxRank) ∧ v ≠ gap) ∧
      ∀ ps h v, IsHand s r c ps → Denotes ps h → e.table.lookup h = .ok v → (v < gap ↔ BestClass (classNames e) s r c low ps) := by
  have hcs : c ≤ r * s := hcr.trans (Nat.le_mul_of_pos_right r (by omega))
  obtain ⟨classes, X, -⟩ := ctx_good hs ⟨by omega, hr⟩ hc ho (Evaluator.new_table he).1 hcs
  obtain ⟨k0, g, g1, g2, g3, g4⟩ := values_exact X hcr hne
  obtain ⟨f, hf, hord⟩ := value_fn hs ⟨by omega, hr⟩ hc hne ho he
  have g4' : ∀ ps, IsHand s r c ps → (f ps < g ↔ handKind s r low ps = k0) := fun ps hp => g4 ps _ hp (hf ps hp)
  refine ⟨g, g1, g2, ?_, ?_⟩
  · intro v
    rw [← g3]
    constructor
    · rintro ⟨ps, h, h1, h2, h3⟩
      rw [denotes_eq (isHand_cards h1 hs.2) h2] at h3
      exact ⟨ps, h1, h3⟩
    · rintro ⟨ps, h1, h2⟩
      exact ⟨ps, _, h1, denotes_mk _ (isHand_cards h1 hs.2), h2⟩
  · intro ps h v hp hd hv
    rw [denotes_eq (isHand_cards hp hs.2) hd, hf ps hp] at hv
    cases hv
    rw [g4' ps hp]
    constructor
    · intro hk qs hq hlt
      have h1 : f qs < f ps := (hord qs ps hq hp).1.2 (.inl hlt)
      have h2 := (g4' ps hp).2 hk
      have h3 := (g4' qs hq).1 (by omega)
      rw [hk, h3] at hlt
      exact lt_irrefl _ hlt
    · intro hb
      by_contra hk
      have h1 : ¬ f ps < g := fun h => hk ((g4' ps hp).1 h)
      obtain ⟨qs, hq, hv⟩ := (g3 0).2 ⟨⟨le_refl 0, by omega⟩, by omega⟩
      rw [hf qs hq] at hv
      have hq0 : f qs = 0 := Except.ok.inj hv
      rcases (hord qs ps hq hp).1.1 (by omega) with h2 | ⟨h2, -⟩
      · exact hb qs hq h2
      · have := (g4' qs hq).1 (by omega)
        exact hk (by rw [← h2, this])

theorem ncard_gap (g v : Int) (h0 : 0 < g) (hv : 0 ≤ v) (hne : v ≠ g) : {w : Int | 0 ≤ w ∧ w < v ∧ w ≠ g}.ncard = if v < g then v.toNat else v.toNat - 1 := by
  have e : {w : Int | 0 ≤ w ∧ w < v ∧ w ≠ g} = ((Finset.Ico 0 v).erase g : Finset Int) := by
    ext w; simp; omega
  rw [e, Set.ncard_coe_finset]
  split
  · rw [Finset.erase_eq_of_notMem (by simp; omega), Int.card_Ico]; simp
  · rw [Finset.card_erase_of_mem (by simp; omega), Int.card_Ico]; simp

/-- **C80**: the value of a hand is the number of essentially different hands that are better, and one more if the hand is not of the best
class. -/
theorem C80_counts_partial (hs : 1 ≤ s ∧ s ≤ 4) (hr : r ≤ 13) (hc : 1 ≤ c ∧ c ≤ 5) (hcr : c ≤ r) (hne : ¬ (3 ≤ c ∧ r = c)) {m : Int}
    {order : Option (List String)} (ho : GoodOrder s r c low order) {e : Evaluator} (he : Evaluator.new s r c m low order = .ok e)
    {ps : List (Nat × Nat)} (hp : IsHand s r c ps) {h : List Card} (hd : Denotes ps h) :
    (BestClass (classNames e) s r c low ps → e.table.lookup h = .ok (numBetter (classNames e) s r c low ps)) ∧
    (¬ BestClass (classNames e) s r c low ps → e.table.lookup h = .ok (numBetter (classNames e) s r c low ps + 1)) := by
  obtain ⟨g, g1, g2, g3, g4⟩ := C80_values_partial hs hr hc hcr hne ho he
  obtain ⟨f, hf, hord⟩ := value_fn hs ⟨by omega, hr⟩ hc hne ho he
  have isv : ∀ qs, IsHand s r c qs → IsValue s r c e (f qs) := fun qs hq => ⟨qs, _, hq, denotes_mk _ (isHand_cards hq hs.2), hf qs hq⟩
  have hv := (g3 _).1 (isv ps hp)
  have hb := g4 ps h (f ps) hp hd (by rw [denotes_eq (isHand_cards hp hs.2) hd]; exact hf ps hp)
  have e1 : numBetter (classNames e) s r c low ps = if f ps < g then (f ps).toNat else (f ps).toNat - 1 := by
    unfold numBetter
    rw [ncard_image_congr _ (essence s r low) f (fun a ha b hb => (hord a b ha.1 hb.1).2), ← ncard_gap g (f ps) g1 hv.1.1 hv.2]
    congr 1
    ext w
    constructor
    · rintro ⟨qs, ⟨hq, hlt⟩, rfl⟩
      have := (g3 _).1 (isv qs hq)
      exact ⟨this.1.1, (hord qs ps hq hp).1.2 hlt, this.2⟩
    · rintro ⟨h1, h2, h3⟩
      obtain ⟨qs, k, hq, hk, hl⟩ := (g3 w).2 ⟨⟨h1, by omega⟩, h3⟩
      rw [denotes_eq (isHand_cards hq hs.2) hk, hf qs hq] at hl
      cases hl
      exact ⟨qs, ⟨hq, (hord qs ps hq hp).1.1 h2⟩, rfl⟩
  rw [denotes_eq (isHand_cards hp hs.2) hd, hf ps hp, ← hb, e1]
  constructor
  · intro h1
    rw [if_pos h1]; congr 1; omega
  · intro h1
    rw [if_neg h1]; congr 1; omega

/-- **C80**: `max_rank` is the number of essentially different hands. -/
theorem C80_number_partial (hs : 1 ≤ s ∧ s ≤ 4) (hr : r ≤ 13) (hc : 1 ≤ c ∧ c ≤ 5) (hcr : c ≤ r) (hne : ¬ (3 ≤ c ∧ r = c)) {m : Int}
    {order : Option (List String)} (ho : GoodOrder s r c low order) {e : Evaluator} (he : Evaluator.new s r c m low order = .ok e) :
    e.table.maxRank = numDifferent s r c low := by
  obtain ⟨g, g1, g2, g3, -⟩ := C80_values_partial hs hr hc hcr hne ho he
  obtain ⟨f, hf, hord⟩ := value_fn hs ⟨by omega, hr⟩ hc hne ho he
  have isv : ∀ qs, IsHand s r c qs → IsValue s r c e (f qs) := fun qs hq => ⟨qs, _, hq, denotes_mk _ (isHand_cards hq hs.2), hf qs hq⟩
  have : numDifferent s r c low = (e.table.maxRank + 1).toNat - 1 := by
    unfold numDifferent
    rw [ncard_image_congr {ps | IsHand s r c ps} (essence s r low) f (fun a ha b hb => (hord a b ha hb).2),
      show (e.table.maxRank + 1).toNat - 1 = if e.table.maxRank + 1 < g then _ else (e.table.maxRank + 1).toNat - 1 from (if_neg (by omega)).symm,
      ← ncard_gap g (e.table.maxRank + 1) g1 (by omega) (by omega)]
    congr 1
    ext w
    constructor
    · rintro ⟨qs, hq, rfl⟩
      have := (g3 _).1 (isv qs hq)
      exact ⟨this.1.1, by omega, this.2⟩
    · rintro ⟨h1, h2, h3⟩
      obtain ⟨qs, k, hq, hk, hl⟩ := (g3 w).2 ⟨⟨h1, by omega⟩, h3⟩
      rw [denotes_eq (isHand_cards hq hs.2) hk, hf qs hq] at hl
      cases hl
      exact ⟨qs, hq, rfl⟩
  omega

/-! ## the numbers in the documentation -/

/-- the cards `ps` as objects -/
def cardsOf (ps : List (Nat × Nat)) : List Card := ps.map fun p => mkCard p.1 p.2

/-- three kings and two queens -/
def kingsFull : List (Nat × Nat) := [(11, 0), (11, 1), (11, 2), (10, 0), (10, 1)]

/-- three aces and two kings -/
def acesFull : List (Nat × Nat) := [(12, 0), (12, 1), (12, 2), (11, 0), (11, 1)]

/-- the worst straight flush -/
def steelWheel : List (Nat × Nat) := [(12, 0), (0, 0), (1, 0), (2, 0), (3, 0)]

/-- the best hand with four of a kind -/
def fourAces : List (Nat × Nat) := [(12, 0), (12, 1), (12, 2), (12, 3), (11, 0)]

set_option maxRecDepth 1000000 in
theorem documented_table : ∃ t, Table.new 4 13 5 true none = .ok t ∧ t.maxRank = 7462 ∧ t.lookup (cardsOf kingsFull) = .ok 180 ∧
    t.lookup (cardsOf acesFull) = .ok 167 ∧ t.unsuitedLookup.get (37 * 37 * 37 * 31 * 31) = .ok 180 ∧
    t.lookup (cardsOf steelWheel) = .ok 9 ∧ t.lookup (cardsOf fourAces) = .ok 11 ∧ t.rankedHands.map (·.name) = standardNames := by
  have key : (Table.new 4 13 5 true none).bind (fun t => .ok (decide (t.maxRank = 7462) &&
      (decide (t.lookup (cardsOf kingsFull) = .ok 180) && (decide (t.lookup (cardsOf acesFull) = .ok 167) &&
      (decide (t.unsuitedLookup.get (37 * 37 * 37 * 31 * 31) = .ok 180) && (decide (t.lookup (cardsOf steelWheel) = .ok 9) &&
      (decide (t.lookup (cardsOf fourAces) = .ok 11) && decide (t.rankedHands.map (·.name) = standardNames)))))))) = .ok true := by decide +kernel
  cases he : Table.new 4 13 5 true none with
  | error e => rw [he] at key; cases key
  | ok e =>
    rw [he] at key
    simp only [Except.bind, Except.ok.injEq, Bool.and_eq_true, decide_eq_true_eq] at key
    exact ⟨e, rfl, key⟩

/-- **C80**, the numbers given in `clubs/poker/README.md`: with 52 cards there are 7462 essentially different hands of five cards; every full house
of aces and kings has the value 167, every full house of kings and queens 180, stored under the product of the primes. -/
theorem C80_documented {m : Int} {e : Evaluator} (he : Evaluator.new 4 13 5 m true none = .ok e) :
    numDifferent 4 13 5 true = 7462 ∧ e.table.unsuitedLookup.get (37 * 37 * 37 * 31 * 31) = .ok 180 ∧
    ∀ ps h, IsHand 4 13 5 ps → Denotes ps h →
      ((ps.map (·.1)).Perm [12, 12, 12, 11, 11] → e.table.lookup h = .ok 167) ∧
      ((ps.map (·.1)).Perm [11, 11, 11, 10, 10] → e.table.lookup h = .ok 180) := by
  obtain ⟨t, ht, k1, k2, k3, k4, -⟩ := documented_table
  have ht' := (Evaluator.new_table he).1
  have e1 : e.table = t := by
    have : Table.new 4 13 5 true none = .ok e.table := ht'
    rw [ht] at this; exact (Except.ok.inj this).symm
  have hn := C80_number_partial (s := 4) (r := 13) (c := 5) (low := true) (by omega) (by omega) (by omega) (by omega) (by omega)
    (.inl rfl) he
  rw [e1, k1] at hn
  refine ⟨by omega, by rw [e1]; exact k4, ?_⟩
  have same : ∀ qs x, IsHand 4 13 5 qs → handKind 4 13 true qs = .fullHouse → (∀ l : List Nat, l.Perm (qs.map (·.1)) → rankKind 13 true l = .fullHouse) →
      t.lookup (cardsOf qs) = .ok x → ∀ ps h, IsHand 4 13 5 ps → Denotes ps h → (ps.map (·.1)).Perm (qs.map (·.1)) → e.table.lookup h = .ok x := by
    intro qs x hq hk hr hx ps h hp hd hperm
    obtain ⟨v, w, h1, h2, -, h3⟩ := C11_standard m true e he ps qs hp hq h _ hd (denotes_mk _ (isHand_cards hq (by omega)))
    have : v = w := by
      rw [h3, hk, handKind_eq, hr _ hperm]
      exact ⟨by cases decide (IsFlush 4 ps) <;> rfl, hperm⟩
    rw [h1, this, ← h2, e1]
    exact hx
  intro ps h hp hd
  constructor
  · refine same acesFull 167 ⟨by decide, by decide, by decide⟩ (by decide) (fun l hl => ?_) k3 ps h hp hd
    rw [rankKind_perm hl]; decide
  · refine same kingsFull 180 ⟨by decide, by decide, by decide⟩ (by decide) (fun l hl => ?_) k2 ps h hp hd
    rw [rankKind_perm hl]; decide

/-- **C80 is false** as stated: with 52 cards no hand of five cards has the value 10; the best hand with four of a kind, which is beaten by ten
essentially different hands, has the value 11. -/
theorem C80_false {m : Int} {e : Evaluator} (he : Evaluator.new 4 13 5 m true none = .ok e) :
    10 ≤ e.table.maxRank ∧ ¬ IsValue 4 13 5 e 10 ∧ IsHand 4 13 5 fourAces ∧
    numBetter (classNames e) 4 13 5 true fourAces = 10 ∧ e.table.lookup (cardsOf fourAces) = .ok 11 := by
  obtain ⟨t, ht, k1, -, -, -, k5, k6, k7⟩ := documented_table
  have ht' := (Evaluator.new_table he).1
  have e1 : e.table = t := by
    have : Table.new 4 13 5 true none = .ok e.table := ht'
    rw [ht] at this; exact (Except.ok.inj this).symm
  have hsw : IsHand 4 13 5 steelWheel := ⟨by decide, by decide, by decide⟩
  have hfa : IsHand 4 13 5 fourAces := ⟨by decide, by decide, by decide⟩
  have hnames : classNames e = standardNames := by unfold classNames; rw [e1]; exact k7
  obtain ⟨g, g1, g2, g3, g4⟩ := C80_values_partial (s := 4) (r := 13) (c := 5) (low := true) (by omega) (by omega) (by omega) (by omega)
    (by omega) (.inl rfl) he
  have n1 : handKind 4 13 true steelWheel = .straightFlush := by decide
  have n2 : handKind 4 13 true fourAces = .fourKind := by decide
  have hnb : ¬ BestClass (classNames e) 4 13 5 true fourAces := by
    intro h
    refine h steelWheel hsw ?_
    rw [hnames, n1, n2]; decide
  have a1 := (g4 steelWheel _ 9 hsw (denotes_mk _ (isHand_cards hsw (by omega))) (by rw [e1]; exact k5)).2 (by
    intro ps _ hlt
    rw [hnames, n1] at hlt
    exact absurd hlt (by rw [show standardNames.idxOf HandKind.straightFlush.name = 0 from by decide]; omega))
  have a2 : ¬ (11 : Int) < g := fun h => hnb ((g4 fourAces _ 11 hfa (denotes_mk _ (isHand_cards hfa (by omega))) (by rw [e1]; exact k6)).1 h)
  have a3 := (g3 11).1 ⟨fourAces, _, hfa, denotes_mk _ (isHand_cards hfa (by omega)), by rw [e1]; exact k6⟩
  refine ⟨by rw [e1, k1]; omega, fun h => ?_, hfa, ?_, by rw [e1]; exact k6⟩
  · have := (g3 10).1 h
    omega
  · have h := (C80_counts_partial (s := 4) (r := 13) (c := 5) (low := true) (by omega) (by omega) (by omega) (by omega) (by omega) (.inl rfl) he
      hfa (denotes_mk _ (isHand_cards hfa (by omega)))).2 hnb
    have h2 : e.table.lookup (fourAces.map fun p => mkCard p.1 p.2) = .ok 11 := by rw [e1]; exact k6
    rw [h2] at h
    have := Except.ok.inj h
    omega

/-- two aces and a king -/
def acesKing : List (Nat × Nat) := [(12, 0), (12, 1), (11, 0)]

/-- the lists of three cards of the deck with two suits and two ranks -/
theorem hands_four {ps : List (Nat × Nat)} (h : IsHand 2 2 3 ps) :
    ps ∈ (let l := [(12, 0), (12, 1), (11, 0), (11, 1)]; l.flatMap fun a => l.flatMap fun b => l.map fun c => [a, b, c]) := by
  obtain ⟨h1, -, h3⟩ := h
  obtain ⟨a, b, c, rfl⟩ := List.length_eq_three.1 h1
  have key : ∀ p ∈ [a, b, c], p ∈ [((12 : Nat), (0 : Nat)), (12, 1), (11, 0), (11, 1)] := by
    intro p hp
    obtain ⟨⟨g1, g2⟩, g3⟩ := h3 p hp
    obtain ⟨x, y⟩ := p
    have e1 : x = 12 ∨ x = 11 := by omega
    have e2 : y = 0 ∨ y = 1 := by omega
    rcases e1 with rfl | rfl <;> rcases e2 with rfl | rfl <;> simp
  simp only [List.mem_flatMap, List.mem_map]
  exact ⟨a, key a (by simp), b, key b (by simp), c, key c (by simp), rfl⟩

/-- **C80 is false** for hands of more cards than there are ranks: three cards of a deck with two suits and two ranks make two essentially
different hands, two aces with a king and two kings with an ace, but `max_rank` is 4, and the better hand has the value 2. (The code counts a flush
and a hand of three different ranks, which do not exist.) -/
theorem C80_false_ranks {m : Int} {e : Evaluator} (he : Evaluator.new 2 2 3 m false none = .ok e) :
    IsHand 2 2 3 acesKing ∧ e.table.lookup (cardsOf acesKing) = .ok 2 ∧ numBetter (classNames e) 2 2 3 false acesKing = 0 ∧
    e.table.maxRank = 4 ∧ numDifferent 2 2 3 false = 2 := by
  have key : (Table.new 2 2 3 false none).bind (fun t => .ok (decide (t.maxRank = 4) && (decide (t.lookup (cardsOf acesKing) = .ok 2) &&
      decide (∀ ps ∈ (let l : List (Nat × Nat) := [(12, 0), (12, 1), (11, 0), (11, 1)]
        l.flatMap fun a => l.flatMap fun b => l.map fun c => [a, b, c]), ps.Nodup →
        (match t.lookup (cardsOf ps) with | .ok v => decide (2 ≤ v) | .error _ => false) = true)))) = .ok true := by decide +kernel
  have ht : Table.new 2 2 3 false none = .ok e.table := (Evaluator.new_table he).1
  rw [ht] at key
  simp only [Except.bind, Except.ok.injEq, Bool.and_eq_true, decide_eq_true_eq] at key
  obtain ⟨k1, k2, k3⟩ := key
  refine ⟨⟨by decide, by decide, by decide⟩, k2, ?_, k1, ?_⟩
  · unfold numBetter
    rw [show {ps | IsHand 2 2 3 ps ∧ BetterThan (classNames e) 2 2 false ps acesKing} = ∅ from ?_]
    · simp
    · ext ps
      refine ⟨?_, fun h => h.elim⟩
      rintro ⟨hp, hb⟩
      have hq : IsHand 2 2 3 acesKing := ⟨by decide, by decide, by decide⟩
      obtain ⟨v, w, e1, e2, e3, -⟩ := C11_order_partial 2 2 3 (by omega) (by omega) (by omega) (by omega) m false none (.inl rfl) e he ps acesKing
        hp hq _ _ (denotes_mk _ (isHand_cards hp (by omega))) (denotes_mk _ (isHand_cards hq (by omega)))
      have e4 : e.table.lookup (acesKing.map fun p => mkCard p.1 p.2) = .ok 2 := k2
      rw [e4] at e2
      cases e2
      have hlt : v < 2 := e3.2 hb
      have := k3 ps (hands_four hp) hp.2.1
      unfold cardsOf at this
      rw [e1] at this
      simp only [decide_eq_true_eq] at this
      omega
  · unfold numDifferent
    rw [show essence 2 2 false '' {ps | IsHand 2 2 3 ps} =
      {(HandKind.pair, (↑[12, 12, 11] : Multiset Nat)), (HandKind.pair, (↑[12, 11, 11] : Multiset Nat))} from ?_]
    · exact Set.ncard_pair (by decide)
    · ext x
      simp only [Set.mem_image, Set.mem_insert_iff, Set.mem_singleton_iff]
      constructor
      · rintro ⟨ps, hp, rfl⟩
        have all : ∀ ps ∈ (let l : List (Nat × Nat) := [(12, 0), (12, 1), (11, 0), (11, 1)]
            l.flatMap fun a => l.flatMap fun b => l.map fun c => [a, b, c]), ps.Nodup →
            essence 2 2 false ps = (HandKind.pair, (↑[12, 12, 11] : Multiset Nat)) ∨
            essence 2 2 false ps = (HandKind.pair, (↑[12, 11, 11] : Multiset Nat)) := by decide +kernel
        exact all ps (hands_four hp) hp.2.1
      · rintro (rfl | rfl)
        · exact ⟨acesKing, ⟨by decide, by decide, by decide⟩, by decide +kernel⟩
        · exact ⟨[(12, 0), (11, 0), (11, 1)], ⟨by decide, by decide, by decide⟩, by decide +kernel⟩

/-- that evaluator exists -/
example : ∃ e, Evaluator.new 2 2 3 0 false none = .ok e := (C09_exact_partial 2 2 3 (by omega) (by omega) (by omega) 0 false).2 (by simp)

/-- the evaluator of the theorems about the documentation and of `C80_false` exists -/
example : ∃ e, Evaluator.new 4 13 5 0 true none = .ok e := (C09_exact_partial 4 13 5 (by omega) (by omega) (by omega) 0 true).2 (by simp)

/-- a custom order for a short deck meets the hypotheses -/
example : ∃ e, Evaluator.new 4 9 5 0 true (some ["sf", "fk", "fl", "fh", "tk", "st", "tp", "pa", "hc"]) = .ok e ∧
    GoodOrder 4 9 5 true (some ["sf", "fk", "fl", "fh", "tk", "st", "tp", "pa", "hc"]) ∧ IsHand 4 9 5 acesFull := by
  obtain ⟨e, he⟩ := C17_accepted_partial 9 (by omega) 0 true ["sf", "fk", "fl", "fh", "tk", "st", "tp", "pa", "hc"] (by decide)
  exact ⟨e, he, .inr ⟨_, rfl, by decide, by omega, by simp, by simp⟩, by decide, by decide, by decide⟩

end Clubs
