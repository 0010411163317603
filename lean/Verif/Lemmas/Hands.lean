import Verif.Spec.Hands
import Verif.Lemmas.Enum
import Mathlib.Tactic.Linarith

/-! Helper lemmas: classes and tie keys depend on the multiset of ranks only. -/

namespace Clubs

open Spec

theorem inGroups_perm {l l' : List Nat} (h : l.Perm l') (k : Nat) : inGroups l k = inGroups l' k := by
  unfold inGroups
  have : (fun x => l.count x == k) = fun x => l'.count x == k := by
    funext x; rw [h.count_eq]
  rw [this]
  exact (h.filter _).length_eq

theorem isRun_perm {l l' : List Nat} (h : l.Perm l') : IsRun l ↔ IsRun l' := by
  unfold IsRun
  simp only [h.length_eq, h.mem_iff]

theorem isWheel_perm {l l' : List Nat} (h : l.Perm l') (r : Nat) : IsWheel r l ↔ IsWheel r l' := by
  unfold IsWheel
  simp only [h.length_eq, h.mem_iff, h.nodup_iff]

theorem isStraight_perm {l l' : List Nat} (h : l.Perm l') (r : Nat) (low : Bool) :
    IsStraight r low l ↔ IsStraight r low l' := by
  unfold IsStraight
  simp only [h.length_eq, isRun_perm h, isWheel_perm h]

theorem straightTop_perm {l l' : List Nat} (h : l.Perm l') (r : Nat) :
    straightTop r l = straightTop r l' := by
  unfold straightTop
  simp only [isRun_perm h, h.length_eq]
  split
  · exact h.foldl_op_eq (op := max) (a := 0)
  · rfl

/-- the comparison used by `byGroups` -/
def groupLe (rs : List Nat) (a b : Nat) : Bool :=
  decide (rs.count b < rs.count a ∨ (rs.count a = rs.count b ∧ b ≤ a))

theorem byGroups_pairwise (rs : List Nat) : (byGroups rs).Pairwise (fun a b => groupLe rs a b = true) := by
  unfold byGroups
  exact List.pairwise_mergeSort (le := groupLe rs)
    (by intro a b c; simp only [groupLe, decide_eq_true_eq]; omega)
    (by intro a b; simp only [groupLe, Bool.or_eq_true, decide_eq_true_eq]; omega) rs

theorem byGroups_perm_self (rs : List Nat) : (byGroups rs).Perm rs := List.mergeSort_perm _ _

theorem eq_of_groupLe {rs l l' : List Nat} (h : l.Perm l')
    (h1 : l.Pairwise (fun a b => groupLe rs a b = true))
    (h2 : l'.Pairwise (fun a b => groupLe rs a b = true)) : l = l' := by
  refine List.Perm.eq_of_pairwise ?_ h1 h2 h
  intro a b _ _ hab hba
  simp only [groupLe, decide_eq_true_eq] at hab hba
  omega

theorem byGroups_perm {l l' : List Nat} (h : l.Perm l') : byGroups l = byGroups l' := by
  have e : groupLe l = groupLe l' := by
    funext a b; simp only [groupLe, h.count_eq]
  apply eq_of_groupLe (rs := l)
  · exact ((byGroups_perm_self l).trans h).trans (byGroups_perm_self l').symm
  · exact byGroups_pairwise l
  · rw [e]; exact byGroups_pairwise l'

theorem byGroups_of_sorted {l : List Nat} (h : l.Pairwise (fun a b => groupLe l a b = true)) :
    byGroups l = l :=
  eq_of_groupLe (rs := l) (byGroups_perm_self l) (byGroups_pairwise l) h

theorem tieKey_perm {l l' : List Nat} (h : l.Perm l') (r : Nat) (low : Bool) :
    tieKey r low l = tieKey r low l' := by
  unfold tieKey
  simp only [isStraight_perm h, straightTop_perm h, byGroups_perm h]

/-- the class as far as the ranks determine it -/
def rankKind (r : Nat) (low : Bool) (rs : List Nat) : HandKind :=
  if inGroups rs 4 ≠ 0 then .fourKind
  else if inGroups rs 3 ≠ 0 ∧ inGroups rs 2 ≠ 0 then .fullHouse
  else if inGroups rs 3 ≠ 0 then .threeKind
  else if inGroups rs 2 = 4 then .twoPair
  else if inGroups rs 2 ≠ 0 then .pair
  else if IsStraight r low rs then .straight
  else .highCard

theorem rankKind_perm {l l' : List Nat} (h : l.Perm l') (r : Nat) (low : Bool) :
    rankKind r low l = rankKind r low l' := by
  unfold rankKind
  simp only [inGroups_perm h, isStraight_perm h]

/-- flush or not -/
def suitedKind (fl : Bool) : HandKind → HandKind
  | .straight => if fl then .straightFlush else .straight
  | .highCard => if fl then .flush else .highCard
  | k => k

theorem handKind_eq (s r : Nat) (low : Bool) (ps : List (Nat × Nat)) :
    handKind s r low ps = suitedKind (decide (IsFlush s ps)) (rankKind r low (ps.map (·.1))) := by
  unfold handKind rankKind
  dsimp only
  by_cases hf : IsFlush s ps <;> simp only [hf, decide_true, decide_false] <;>
    (repeat' split) <;> simp_all [suitedKind]

/-! ## lists with groups -/

theorem perm_group (l : List Nat) (a : Nat) :
    l.Perm (List.replicate (l.count a) a ++ l.filter (· ≠ a)) := by
  rw [List.perm_iff_count]
  intro x
  rw [List.count_append, List.count_replicate]
  by_cases h : x = a
  · subst h
    have : (l.filter (· ≠ x)).count x = 0 := by
      rw [List.count_eq_zero]; simp
    rw [this]; simp
  · have h2 : (a == x) = false := beq_eq_false_iff_ne.2 (Ne.symm h)
    rw [h2, List.count_filter (by simpa using h)]
    simp

theorem count_le_length' (l : List Nat) (a b : Nat) (h : a ≠ b) : l.count a + l.count b ≤ l.length := by
  induction l with
  | nil => simp
  | cons x l ih =>
    simp only [List.count_cons, List.length_cons]
    by_cases h1 : x = a
    · subst h1
      have : ¬ x = b := h
      simp [this]; omega
    · by_cases h2 : x = b
      · subst h2; simp [h1]; omega
      · simp [h1, h2]; omega

theorem inGroups_zero_iff (l : List Nat) (k : Nat) : inGroups l k = 0 ↔ ∀ x ∈ l, l.count x ≠ k := by
  unfold inGroups
  rw [List.length_eq_zero_iff, List.filter_eq_nil_iff]
  simp

theorem inGroups_ne_zero (l : List Nat) (k : Nat) (h : inGroups l k ≠ 0) : ∃ x ∈ l, l.count x = k := by
  by_contra hc
  apply h
  rw [inGroups_zero_iff]
  intro x hx h2
  exact hc ⟨x, hx, h2⟩

theorem nodup_of_count (l : List Nat) (h : ∀ x ∈ l, l.count x = 1) : l.Nodup := by
  rw [List.nodup_iff_count_le_one]
  intro a
  by_cases ha : a ∈ l
  · rw [h a ha]
  · rw [List.count_eq_zero_of_not_mem ha]; omega

end Clubs
