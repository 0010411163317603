import Mathlib.Data.List.Induction
import Mathlib.Tactic.Ring
import Mathlib.Tactic.Linarith
import Verif.Model.Py

/-! # Helper lemmas on lists -/

namespace Clubs

section
variable {α β γ : Type}

theorem getD_eq (l : List α) (i : Nat) (x : α) (h : i < l.length) : l.getD i x = l[i] := by
  rw [List.getD_eq_getElem?_getD, List.getElem?_eq_getElem h]; rfl

theorem getD_out (l : List α) (i : Nat) (x : α) (h : l.length ≤ i) : l.getD i x = x := by
  rw [List.getD_eq_getElem?_getD, List.getElem?_eq_none h]; rfl

theorem getD_modify (l : List α) (i j : Nat) (f : α → α) (x : α) (h : j < l.length) :
    (l.modify i f).getD j x = if i = j then f (l.getD j x) else l.getD j x := by
  simp only [List.getD_eq_getElem?_getD, List.getElem?_modify, List.getElem?_eq_getElem h]
  split <;> rfl

theorem getD_set (l : List α) (i j : Nat) (a x : α) (h : j < l.length) :
    (l.set i a).getD j x = if i = j then a else l.getD j x := by
  simp only [List.getD_eq_getElem?_getD, List.getElem?_set]
  by_cases e : i = j
  · subst e; simp [h]
  · simp [e]

theorem getD_zipWith (f : α → β → γ) (a : List α) (b : List β) (i : Nat) (x : α) (y : β) (z : γ)
    (ha : i < a.length) (hb : i < b.length) : (List.zipWith f a b).getD i z = f (a.getD i x) (b.getD i y) := by
  simp only [List.getD_eq_getElem?_getD, List.getElem?_zipWith, List.getElem?_eq_getElem ha, List.getElem?_eq_getElem hb]
  rfl

theorem getD_map (f : α → β) (a : List α) (i : Nat) (x : α) (z : β)
    (ha : i < a.length) : (a.map f).getD i z = f (a.getD i x) := by
  simp [List.getD_eq_getElem?_getD, List.getElem?_eq_getElem ha]

theorem getD_replicate (n i : Nat) (a x : α) (h : i < n) : (List.replicate n a).getD i x = a := by
  simp [List.getD_eq_getElem?_getD, h]

/-- lists are equal if they have the same length and entries -/
theorem ext_getD (x : α) {a b : List α} (h : a.length = b.length)
    (h2 : ∀ i < a.length, a.getD i x = b.getD i x) : a = b := by
  apply List.ext_getElem h
  intro i h1 h3
  have := h2 i h1
  rwa [getD_eq _ _ _ h1, getD_eq _ _ _ h3] at this

theorem mem_getD (x : α) {l : List α} {a : α} : a ∈ l ↔ ∃ i < l.length, l.getD i x = a := by
  rw [List.mem_iff_getElem]
  constructor
  · rintro ⟨i, h, e⟩; exact ⟨i, h, by rw [getD_eq _ _ _ h, e]⟩
  · rintro ⟨i, h, e⟩; exact ⟨i, h, by rw [getD_eq _ _ _ h] at e; exact e⟩

theorem all_getD (x : α) {l : List α} {p : α → Bool} : l.all p = true ↔ ∀ i < l.length, p (l.getD i x) = true := by
  rw [List.all_eq_true]
  constructor
  · intro h i hi; exact h _ ((mem_getD x).2 ⟨i, hi, rfl⟩)
  · intro h a ha
    obtain ⟨i, hi, rfl⟩ := (mem_getD x).1 ha
    exact h i hi

theorem any_getD (x : α) {l : List α} {p : α → Bool} : l.any p = true ↔ ∃ i < l.length, p (l.getD i x) = true := by
  rw [List.any_eq_true]
  constructor
  · rintro ⟨a, ha, h⟩
    obtain ⟨i, hi, rfl⟩ := (mem_getD x).1 ha
    exact ⟨i, hi, h⟩
  · rintro ⟨i, hi, h⟩; exact ⟨_, (mem_getD x).2 ⟨i, hi, rfl⟩, h⟩

end

/-! ## sums -/

theorem sum_modify_add (l : List Int) (i : Nat) (b : Int) (h : i < l.length) :
    (l.modify i (· + b)).sum = l.sum + b := by
  induction l generalizing i with
  | nil => simp at h
  | cons x l ih =>
    cases i with
    | zero => simp [List.modify_cons]; ring
    | succ i => simp at h; simp [ih i h]; ring

theorem sum_modify_sub (l : List Int) (i : Nat) (b : Int) (h : i < l.length) :
    (l.modify i (· - b)).sum = l.sum - b := by
  have := sum_modify_add l i (-b) h
  simpa [← sub_eq_add_neg] using this

theorem sum_zipWith_add (a b : List Int) (h : a.length = b.length) :
    (List.zipWith (· + ·) a b).sum = a.sum + b.sum := by
  induction a generalizing b with
  | nil => cases b <;> simp_all
  | cons x a ih =>
    cases b with
    | nil => simp at h
    | cons y b => simp at h; simp [ih b h]; ring

theorem sum_zipWith_sub (a b : List Int) (h : a.length = b.length) :
    (List.zipWith (· - ·) a b).sum = a.sum - b.sum := by
  induction a generalizing b with
  | nil => cases b <;> simp_all
  | cons x a ih =>
    cases b with
    | nil => simp at h
    | cons y b => simp at h; simp [ih b h]; ring

theorem sum_replicate_zero (n : Nat) : (List.replicate n (0 : Int)).sum = 0 := by simp

theorem sum_eq_range (l : List Int) : l.sum = ((List.range l.length).map fun i => l.getD i 0).sum := by
  congr 1
  apply List.ext_getElem (by simp)
  intro i h1 h2
  simp [List.getElem?_eq_getElem h1]

/-! ## maximum -/

theorem foldl_max_ge (l : List Int) (x : Int) : x ≤ l.foldl max x ∧ ∀ y ∈ l, y ≤ l.foldl max x := by
  induction l generalizing x with
  | nil => simp
  | cons a l ih =>
    have := ih (max x a)
    constructor
    · simp only [List.foldl_cons]; omega
    · intro y hy
      rcases List.mem_cons.1 hy with rfl | hy
      · simp only [List.foldl_cons]; omega
      · simpa using this.2 y hy

theorem foldl_max_mem (l : List Int) (x : Int) : l.foldl max x = x ∨ l.foldl max x ∈ l := by
  induction l generalizing x with
  | nil => simp
  | cons a l ih =>
    simp only [List.foldl_cons, List.mem_cons]
    rcases ih (max x a) with h | h
    · rw [h]; omega
    · exact .inr (.inr h)

theorem pyMax_ge {l : List Int} {y : Int} (h : y ∈ l) : y ≤ pyMax l := by
  cases l with
  | nil => simp at h
  | cons a l =>
    rcases List.mem_cons.1 h with rfl | h
    · exact (foldl_max_ge l y).1
    · exact (foldl_max_ge l a).2 y h

theorem pyMax_mem {l : List Int} (h : l ≠ []) : pyMax l ∈ l := by
  cases l with
  | nil => simp at h
  | cons a l =>
    rcases foldl_max_mem l a with h | h
    · simp only [pyMax]; rw [h]; simp
    · simp only [pyMax]; exact List.mem_cons_of_mem _ h

theorem pyMax_getD {l : List Int} {i : Nat} (h : i < l.length) : l.getD i 0 ≤ pyMax l :=
  pyMax_ge ((mem_getD 0).2 ⟨i, h, rfl⟩)

theorem pyMax_exists {l : List Int} (h : l ≠ []) : ∃ i < l.length, l.getD i 0 = pyMax l :=
  (mem_getD 0).1 (pyMax_mem h)

/-! ## counting -/

theorem countTrue_set_false (l : List Bool) (i : Nat) (h : i < l.length) (hi : l.getD i false = true) :
    countTrue (l.set i false) + 1 = countTrue l := by
  induction l generalizing i with
  | nil => simp at h
  | cons x l ih =>
    cases i with
    | zero => simp [List.getD] at hi; subst hi; simp [countTrue]
    | succ i =>
      simp at h
      have := ih i h (by simpa [List.getD] using hi)
      cases x <;> simp [countTrue] at this ⊢ <;> omega

theorem countTrue_pos {l : List Bool} : 1 ≤ countTrue l ↔ ∃ i < l.length, l.getD i false = true := by
  unfold countTrue
  rw [show (1 ≤ l.count true) ↔ 0 < l.count true from Iff.rfl, List.count_pos_iff, mem_getD false]

theorem countTrue_le (l : List Bool) : countTrue l ≤ l.length := List.count_le_length

/-- two different seats are in -/
theorem countTrue_two {l : List Bool} (h : 2 ≤ countTrue l) (i : Nat) :
    ∃ j < l.length, j ≠ i ∧ l.getD j false = true := by
  by_cases hi : i < l.length ∧ l.getD i false = true
  · have := countTrue_set_false l i hi.1 hi.2
    obtain ⟨j, hj, hj2⟩ := countTrue_pos.1 (show 1 ≤ countTrue (l.set i false) by omega)
    rw [List.length_set] at hj
    rw [getD_set _ _ _ _ _ hj] at hj2
    by_cases e : i = j
    · simp [e] at hj2
    · simp [e] at hj2; exact ⟨j, hj, fun h => e h.symm, hj2⟩
  · obtain ⟨j, hj, hj2⟩ := countTrue_pos.1 (show 1 ≤ countTrue l by omega)
    refine ⟨j, hj, ?_, hj2⟩
    rintro rfl; exact hi ⟨hj, hj2⟩

theorem two_countTrue {l : List Bool} {i j : Nat} (hi : i < l.length) (hj : j < l.length) (hij : i ≠ j)
    (h1 : l.getD i false = true) (h2 : l.getD j false = true) : 2 ≤ countTrue l := by
  have := countTrue_set_false l i hi h1
  have : 1 ≤ countTrue (l.set i false) := by
    apply countTrue_pos.2
    refine ⟨j, by simpa using hj, ?_⟩
    rw [getD_set _ _ _ _ _ hj, if_neg hij, h2]
  omega

theorem countTrue_replicate (n : Nat) : countTrue (List.replicate n true) = n := by simp [countTrue]

end Clubs
