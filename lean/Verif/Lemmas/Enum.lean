import Verif.Model.Evaluator
import Mathlib.Data.List.Nodup
import Mathlib.Data.List.Perm.Basic
import Mathlib.Data.List.Sublists
import Mathlib.Data.List.Sort

/-! Helper lemmas: combinations and permutations are enumerated in descending order. -/

namespace Clubs

theorem mem_combinations {α : Type} (k : Nat) (xs l : List α) :
    l ∈ combinations k xs ↔ l.Sublist xs ∧ l.length = k := by
  induction xs generalizing k l with
  | nil =>
    cases k with
    | zero => simp [combinations]
    | succ k =>
      simp only [combinations, List.not_mem_nil, false_iff, not_and, List.sublist_nil]
      rintro rfl; simp
  | cons x xs ih =>
    cases k with
    | zero =>
      simp only [combinations, List.mem_singleton]
      constructor
      · rintro rfl; simp
      · rintro ⟨-, h⟩; exact List.eq_nil_of_length_eq_zero h
    | succ k =>
      simp only [combinations, List.mem_append, List.mem_map, ih]
      constructor
      · rintro (⟨t, ⟨h1, h2⟩, rfl⟩ | ⟨h1, h2⟩)
        · exact ⟨h1.cons_cons x, by simp [h2]⟩
        · exact ⟨h1.cons x, h2⟩
      · rintro ⟨h1, h2⟩
        cases h1 with
        | cons _ h => exact .inr ⟨h, h2⟩
        | cons_cons _ h => exact .inl ⟨_, ⟨h, by simpa using h2⟩, rfl⟩

theorem combinations_length_of_mem {α : Type} {k : Nat} {xs l : List α} (h : l ∈ combinations k xs) :
    l.length = k := ((mem_combinations k xs l).1 h).2

theorem combinations_desc (k : Nat) (xs : List Nat) (hx : xs.Pairwise (· > ·)) :
    (combinations k xs).Pairwise (fun a b => b < a) := by
  induction xs generalizing k with
  | nil => cases k <;> simp [combinations]
  | cons x xs ih =>
    cases k with
    | zero => simp [combinations]
    | succ k =>
      rw [List.pairwise_cons] at hx
      simp only [combinations]
      rw [List.pairwise_append]
      refine ⟨?_, ih _ hx.2, ?_⟩
      · rw [List.pairwise_map]
        exact (ih k hx.2).imp (by intro a b h; simpa using h)
      · intro a ha b hb
        obtain ⟨t, -, rfl⟩ := List.mem_map.1 ha
        have h1 := (mem_combinations _ _ _).1 hb
        cases b with
        | nil => simp at h1
        | cons y b =>
          have : y ∈ xs := h1.1.subset (by simp)
          exact List.cons_lt_cons_iff.2 (.inl (hx.1 y this))

theorem picks_fst {α : Type} (xs : List α) : (picks xs).map (·.1) = xs := by
  induction xs with
  | nil => rfl
  | cons x xs ih =>
    simp only [picks, List.map_cons, List.map_map]
    congr 1

theorem mem_picks {α : Type} (xs : List α) (p : α × List α) (h : p ∈ picks xs) :
    p.2.Sublist xs ∧ (p.1 :: p.2).Perm xs := by
  induction xs generalizing p with
  | nil => simp [picks] at h
  | cons x xs ih =>
    simp only [picks, List.mem_cons, List.mem_map] at h
    rcases h with rfl | ⟨q, hq, rfl⟩
    · exact ⟨List.sublist_cons_self _ _, List.Perm.refl _⟩
    · have := ih q hq
      exact ⟨this.1.cons_cons x, (List.Perm.swap x q.1 q.2).trans (this.2.cons x)⟩

theorem exists_mem_picks {α : Type} (xs : List α) (a : α) (h : a ∈ xs) : ∃ p ∈ picks xs, p.1 = a := by
  rw [← picks_fst xs] at h
  obtain ⟨p, hp, rfl⟩ := List.mem_map.1 h
  exact ⟨p, hp, rfl⟩

theorem permutations_length_of_mem {α : Type} {k : Nat} {xs l : List α} (h : l ∈ permutations k xs) :
    l.length = k := by
  induction k generalizing xs l with
  | zero => simp [permutations] at h; simp [h]
  | succ k ih =>
    simp only [permutations, List.mem_flatMap, List.mem_map] at h
    obtain ⟨p, -, t, ht, rfl⟩ := h
    simp [ih ht]

/-- `k` different positions: a sub-permutation -/
theorem mem_permutations_subperm {α : Type} {k : Nat} {xs l : List α} (h : l ∈ permutations k xs) :
    l.Subperm xs := by
  induction k generalizing xs l with
  | zero => simp [permutations] at h; subst h; exact List.nil_subperm
  | succ k ih =>
    simp only [permutations, List.mem_flatMap, List.mem_map] at h
    obtain ⟨p, hp, t, ht, rfl⟩ := h
    exact ((List.subperm_cons p.1).2 (ih ht)).trans (mem_picks xs p hp).2.subperm

theorem mem_permutations_of_subperm {α : Type} {xs l : List α} (h : l.Subperm xs) :
    l ∈ permutations l.length xs := by
  induction l generalizing xs with
  | nil => simp [permutations]
  | cons a l ih =>
    have ha : a ∈ xs := h.subset (by simp)
    obtain ⟨p, hp, rfl⟩ := exists_mem_picks xs a ha
    have := (mem_picks xs p hp).2
    have h2 : l.Subperm p.2 := (List.subperm_cons p.1).1 (h.trans this.symm.subperm)
    simp only [permutations, List.length_cons, List.mem_flatMap, List.mem_map]
    exact ⟨p, hp, l, ih h2, rfl⟩

theorem permutations_desc (k : Nat) (xs : List Nat) (hx : xs.Pairwise (· > ·)) :
    (permutations k xs).Pairwise (fun a b => b < a) := by
  induction k generalizing xs with
  | zero => simp [permutations]
  | succ k ih =>
    simp only [permutations]
    rw [List.pairwise_flatMap]
    constructor
    · intro p hp
      rw [List.pairwise_map]
      exact (ih p.2 (hx.sublist (mem_picks xs p hp).1)).imp (by intro a b h; simpa using h)
    · have h1 : (picks xs).Pairwise (fun p q => q.1 < p.1) := by
        have := hx
        rw [← picks_fst xs, List.pairwise_map] at this
        exact this
      refine h1.imp ?_
      intro p q hpq a ha b hb
      obtain ⟨t, -, rfl⟩ := List.mem_map.1 ha
      obtain ⟨u, -, rfl⟩ := List.mem_map.1 hb
      exact List.cons_lt_cons_iff.2 (.inl hpq)

/-! ## the ranks of the deck -/

theorem mem_backwardsRanks (r x : Nat) (hr : r ≤ 13) : x ∈ backwardsRanks r ↔ 13 - r ≤ x ∧ x < 13 := by
  simp only [backwardsRanks, List.mem_map, List.mem_range, Int.toNat_natCast]
  constructor
  · rintro ⟨i, hi, rfl⟩; omega
  · rintro ⟨h1, h2⟩; exact ⟨12 - x, by omega, by omega⟩

theorem backwardsRanks_desc (r : Nat) (hr : r ≤ 13) : (backwardsRanks r).Pairwise (· > ·) := by
  simp only [backwardsRanks, Int.toNat_natCast]
  rw [List.pairwise_map]
  have : (List.range r).Pairwise (· < ·) := List.pairwise_lt_range
  refine List.Pairwise.imp_of_mem ?_ this
  intro a b ha hb h
  have := List.mem_range.1 hb
  show 12 - b < 12 - a
  omega

/-- a strictly descending list of members is a sub-sequence -/
theorem sublist_of_desc {l xs : List Nat} (hl : l.Pairwise (· > ·)) (hx : xs.Pairwise (· > ·))
    (h : ∀ a ∈ l, a ∈ xs) : l.Sublist xs := by
  induction xs generalizing l with
  | nil =>
    cases l with
    | nil => exact .slnil
    | cons a l => exact absurd (h a (by simp)) (by simp)
  | cons x xs ih =>
    cases l with
    | nil => simp
    | cons a l =>
      rw [List.pairwise_cons] at hl hx
      by_cases e : a = x
      · subst e
        refine List.Sublist.cons_cons a (ih hl.2 hx.2 ?_)
        intro b hb
        have h1 := h b (by simp [hb])
        have h2 := hl.1 b hb
        simp only [List.mem_cons] at h1
        exact h1.resolve_left (by omega)
      · refine List.Sublist.cons x (ih (List.pairwise_cons.2 hl) hx.2 ?_)
        intro b hb
        have h1 := h b hb
        simp only [List.mem_cons] at h1
        refine h1.resolve_left ?_
        rintro rfl
        have ha := h a (by simp)
        simp only [List.mem_cons, e, false_or] at ha
        have := hx.1 a ha
        simp only [List.mem_cons] at hb
        rcases hb with hb | hb
        · exact e hb.symm
        · have := hl.1 b hb; omega

/-- every list without repetitions can be sorted descendingly -/
theorem exists_desc (l : List Nat) (h : l.Nodup) : ∃ l' : List Nat, l'.Perm l ∧ l'.Pairwise (· > ·) := by
  refine ⟨l.mergeSort (fun a b => decide (b ≤ a)), List.mergeSort_perm _ _, ?_⟩
  have h1 : (l.mergeSort (fun a b => decide (b ≤ a))).Pairwise (fun a b => decide (b ≤ a) = true) :=
    List.pairwise_mergeSort (by intro a b c; simp; omega) (by intro a b; simp; omega) l
  have h2 : (l.mergeSort (fun a b => decide (b ≤ a))).Nodup :=
    (List.mergeSort_perm _ _).nodup_iff.2 h
  refine (h1.and h2).imp ?_
  intro a b hab
  have := hab.1
  simp at this
  have := hab.2
  show b < a
  omega

end Clubs
