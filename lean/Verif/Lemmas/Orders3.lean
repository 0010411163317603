import Verif.Lemmas.Orders2

/-! Helper lemmas: which permutations of the classes a table can be built for when a hand has more cards than there are ranks. -/

namespace Clubs

open Spec

/-- A class whose patterns are counted wrongly, whether or not the straights are generated, makes the table impossible. -/
theorem no_table_unfit {s r c : Nat} {low : Bool} {order : Option (List String)} {t : Table} {classes : List HandClass}
    (hn : classes.Nodup) (ha : ∀ k, k ∈ classes) (B : Built s r c low order t classes) (k : HandClass)
    (hk : 1 ≤ cnt s r c low k) (hu : ∀ u : Bool, keys r c low u k ≠ some (cnt s r c low k).toNat) : False := by
  have hf := fits_of_built B hn ha
  -- a negative count can only be met at the end of a running total of zero
  have key : ∀ cs : List HandClass, cs.Nodup → (∀ k ∈ cs, 0 ≤ cnt s r c low k ∨ before (cnt s r c low) cs k + cnt s r c low k = 0) →
      0 ≤ (cs.map (cnt s r c low)).sum ∧ ∀ k ∈ cs, 0 ≤ before (cnt s r c low) cs k := by
    intro cs
    induction cs using List.reverseRecOn with
    | nil => simp
    | append_singleton cs d ih =>
      intro hnd H
      rw [List.nodup_append] at hnd
      have hd : d ∉ cs := fun h => hnd.2.2 d h d (by simp) rfl
      obtain ⟨i1, i2⟩ := ih hnd.1 (fun k hk => by
        have := H k (by simp [hk])
        rw [before_append_of_mem _ _ _ _ hk] at this
        exact this)
      have h2 := H d (by simp)
      rw [before_append_self _ _ _ hd] at h2
      refine ⟨?_, ?_⟩
      · rw [List.map_append, List.sum_append]
        simp only [List.map_cons, List.map_nil, List.sum_cons, List.sum_nil]
        omega
      · intro e he
        rcases List.mem_append.1 he with he | he
        · rw [before_append_of_mem _ _ _ _ he]; exact i2 e he
        · obtain rfl : e = d := by simpa using he
          rw [before_append_self _ _ _ hd]; exact i1
  have hall := (key classes hn (fun d hd => by
    rcases hf d with h | ⟨n, -, h⟩
    · exact .inr h
    · exact .inl (by omega))).2 k (ha k)
  rcases hf k with h | ⟨n, h1, h2⟩
  · unfold upTo bef at h
    unfold cnt at *
    omega
  · refine hu _ (h1.trans ?_)
    rw [← h2]; simp

/-- what a shape needs for the acceptance of an order to depend on the empty classes only; `u` says whether the
straights are generated -/
def plainFacts (s r c : Nat) (low u : Bool) : Prop :=
  (∀ k ∈ CLASS_LIST, 0 ≤ (classCount s r c low k).1 ∧ 0 ≤ cnt s r c low k) ∧
  (∃ k ∈ CLASS_LIST, (classCount s r c low k).1 ≠ 0 ∧ 1 ≤ cnt s r c low k) ∧
  ((∀ k ∈ CLASS_LIST, keys r c low true k = keys r c low false k) ∨
   (cnt s r c low .straight ≠ 0 ∧ u = true) ∨
   (cnt s r c low .straight = 0 ∧ cnt s r c low .straightFlush = 0 ∧ u = false ∧ keys r c low true .straight ≠ some 0)) ∧
  ∀ k ∈ CLASS_LIST, cnt s r c low k ≠ 0 → keys r c low u k = some (cnt s r c low k).toNat

instance (s r c : Nat) (low u : Bool) : Decidable (plainFacts s r c low u) := inferInstanceAs (Decidable (_ ∧ _))

/-- For such a shape the keys fit exactly if every class without hands for which keys would be generated comes
before every class with hands. -/
theorem fits_plain {s r c : Nat} {low u : Bool} {classes : List HandClass} (hP : plainFacts s r c low u) :
    (∀ k, upTo s r c low classes k = 0 ∨
      ∃ n, keys r c low (useStraights s r c low classes) k = some n ∧ (n : Int) = cnt s r c low k) ↔
    ∀ k, keys r c low u k ≠ some 0 → cnt s r c low k = 0 → bef s r c low classes k = 0 := by
  obtain ⟨p0, -, p1, p2⟩ := hP
  have h0 : ∀ k, 0 ≤ cnt s r c low k := fun k => (p0 k (mem_classList k)).2
  have hb0 : ∀ k, 0 ≤ bef s r c low classes k := fun k => before_nonneg _ h0 classes k
  have same : (∀ k ∈ CLASS_LIST, keys r c low true k = keys r c low false k) ∨ useStraights s r c low classes = u →
      ∀ k, keys r c low (useStraights s r c low classes) k = keys r c low u k := by
    rintro (h | h) k
    · have := h k (mem_classList k)
      cases useStraights s r c low classes <;> cases u <;> simp [this]
    · rw [h]
  have quiet : u = false → (∀ k, k = .straight ∨ k = .straightFlush → upTo s r c low classes k = 0) →
      useStraights s r c low classes = u := by
    intro hu h
    unfold useStraights
    rw [hu, decide_eq_false_iff_not, h _ (.inl rfl), h _ (.inr rfl)]
    simp
  constructor
  · intro H
    have hk : ∀ k, keys r c low (useStraights s r c low classes) k = keys r c low u k := by
      apply same
      rcases p1 with h | ⟨h, rfl⟩ | ⟨h1, h2, hu, h3⟩
      · exact .inl h
      · right
        unfold useStraights upTo
        rw [decide_eq_true_eq]
        have h2 := h0 .straight
        have h4 := hb0 .straight
        exact .inr (by omega)
      · right
        refine quiet hu ?_
        intro k hk
        refine (H k).resolve_right ?_
        rintro ⟨n, g1, g2⟩
        rw [keys_straight r c low _ true k hk] at g1
        have : cnt s r c low k = 0 := by rcases hk with rfl | rfl <;> assumption
        obtain rfl : n = 0 := by omega
        exact h3 g1
    intro k hf hz
    rcases H k with h | ⟨n, h1, h2⟩
    · unfold upTo at h; omega
    · rw [hk] at h1
      obtain rfl : n = 0 := by omega
      exact absurd h1 hf
  · intro H
    have hk : ∀ k, keys r c low (useStraights s r c low classes) k = keys r c low u k := by
      apply same
      rcases p1 with h | ⟨h, rfl⟩ | ⟨h1, h2, hu, h3⟩
      · exact .inl h
      · right
        unfold useStraights upTo
        rw [decide_eq_true_eq]
        have h2 := h0 .straight
        have h4 := hb0 .straight
        exact .inr (by omega)
      · right
        refine quiet hu ?_
        intro k hk
        have hz : cnt s r c low k = 0 := by rcases hk with rfl | rfl <;> assumption
        unfold upTo
        rw [hz, H k (by rw [keys_straight r c low _ true k hk]; exact h3) hz]
        rfl
    intro k
    by_cases hz : cnt s r c low k = 0
    · by_cases hf : keys r c low u k = some 0
      · exact .inr ⟨0, by rw [hk]; exact hf, by rw [hz]; rfl⟩
      · left
        unfold upTo
        rw [H k hf hz, hz]
        rfl
    · right
      refine ⟨_, by rw [hk]; exact p2 k (mem_classList k) hz, ?_⟩
      have := h0 k
      omega

/-- An order is accepted for such a shape exactly if the empty classes that matter come first. -/
theorem accepted_plain {s r c : Nat} {low u : Bool} {classes : List HandClass} {o : List String} (hc : 1 ≤ c ∧ c ≤ 5)
    (hP : plainFacts s r c low u) (hcomp : ∀ x ∈ ORDER_STRINGS, x ∈ o)
    (ho : orderedClasses (classCount s r c low) (some o) = .ok classes) (hn : classes.Nodup) (ha : ∀ k, k ∈ classes) (m : Int) :
    (∃ e, Evaluator.new s r c m low (some o) = .ok e) ↔
      ∀ a b, keys r c low u a ≠ some 0 → cnt s r c low a = 0 → cnt s r c low b ≠ 0 → classes.idxOf a < classes.idxOf b := by
  have h0 : ∀ k, 0 ≤ (classCount s r c low k).2 := fun k => (hP.1 k (mem_classList k)).2
  have hbef : (∀ k, keys r c low u k ≠ some 0 → cnt s r c low k = 0 → bef s r c low classes k = 0) ↔
      ∀ a b, keys r c low u a ≠ some 0 → cnt s r c low a = 0 → cnt s r c low b ≠ 0 → classes.idxOf a < classes.idxOf b := by
    constructor
    · intro H a b hf hza hzb
      have h3 := (before_eq_zero _ h0 classes a).1 (H a hf hza) b (ha b)
      by_contra hlt
      rcases Nat.lt_or_eq_of_le (Nat.le_of_not_lt hlt) with h4 | h4
      · exact hzb (h3 h4)
      · have : b = a := (List.idxOf_inj (ha b)).1 h4
        exact hzb (this ▸ hza)
    · intro H a hf hza
      refine (before_eq_zero _ h0 classes a).2 ?_
      intro b _ hlt
      by_contra hb
      have := H a b hf hza hb
      omega
  rw [← hbef, ← fits_plain hP]
  constructor
  · rintro ⟨e, he⟩
    obtain ⟨cl, B⟩ := Table.new_ok (Evaluator.new_table he).1
    have hcl : cl = classes := by
      have := B.ordered; rw [ho] at this; simpa using this.symm
    subst hcl
    exact fits_of_built B hn ha
  · intro H
    obtain ⟨k, -, h1, h2⟩ := hP.2.1
    refine new_of_fits hc h0 (fun k => (hP.1 k (mem_classList k)).1) ⟨k, h1, h2⟩ ?_ ho hn ha H m
    intro o' e; simp at e; subst e; exact hcomp

/-- whether the straights are generated when there are more cards than ranks -/
def overStraights (r c : Nat) (low : Bool) : Bool := decide (low = true ∧ c = r + 1 ∧ 3 ≤ c)

/-- with more cards than ranks a table can be built for these shapes … -/
def overRow (s r : Nat) : Prop := ∀ c < 6, ∀ low : Bool,
    ¬ (1 ≤ s ∧ 1 ≤ r ∧ (c = r + 1 ∨ c = r + 2 ∧ s = 1 ∧ low = true)) ∨ plainFacts s r c low (overStraights r c low)

instance (s r : Nat) : Decidable (overRow s r) := inferInstanceAs (Decidable (∀ c < 6, ∀ _low : Bool, _ ∨ _))

theorem over_table : ∀ s < 5, ∀ r < 5, overRow s r := by decide +kernel

/-- … and for no other -/
def overNone (s r : Nat) : Prop := ∀ c < 6, ∀ low : Bool,
    ¬ (1 ≤ s ∧ 1 ≤ r ∧ r + 2 ≤ c ∧ ¬ (c = r + 2 ∧ s = 1 ∧ low = true)) ∨
    ∃ k ∈ CLASS_LIST, 1 ≤ cnt s r c low k ∧ ∀ u : Bool, keys r c low u k ≠ some (cnt s r c low k).toNat

instance (s r : Nat) : Decidable (overNone s r) := inferInstanceAs (Decidable (∀ c < 6, ∀ _low : Bool, _ ∨ _))

theorem over_none : ∀ s < 5, ∀ r < 5, overNone s r := by decide +kernel

end Clubs
