import Mathlib.Data.List.Permutation
import Mathlib.Data.List.Sublists
import Mathlib.Data.Nat.Factorial.Basic
import Mathlib.Algebra.BigOperators.Group.List.Basic

/-!
# Counting the orders of a list
-/

namespace Clubs

variable {α : Type} [DecidableEq α] {L h : List α} {s : Nat}

/-- put `h` into `r` behind the first `s` elements -/
def insertAt (s : Nat) (h r : List α) : List α := r.take s ++ h ++ r.drop s

omit [DecidableEq α] in
theorem insertAt_perm (s : Nat) (h r : List α) : (insertAt s h r).Perm (h ++ r) := by
  unfold insertAt
  refine List.Perm.trans (List.perm_append_comm.append_right _) ?_
  rw [List.append_assoc, List.take_append_drop]

/-- In how many orders of a list of different elements do the elements `h` stand, in this order, behind the first `s` ones? -/
theorem count_segment (hL : L.Nodup) (hh : h.Nodup) (hm : ∀ x ∈ h, x ∈ L) (hs : s + h.length ≤ L.length) :
    L.permutations.countP (fun o => (o.drop s).take h.length = h) = (L.length - h.length).factorial := by
  have hsub : h.Subperm L := List.subperm_of_subset hh hm
  have hdiff : (h ++ L.diff h).Perm L := List.subperm_append_diff_self_of_count_le fun x _ => List.subperm_iff_count.1 hsub x
  have hlen : (L.diff h).length = L.length - h.length := by
    have := hdiff.length_eq
    rw [List.length_append] at this
    omega
  have hdn : (L.diff h).Nodup := (List.nodup_append.1 (hdiff.nodup_iff.2 hL)).2.1
  have key : (L.permutations.filter fun o => (o.drop s).take h.length = h).Perm ((L.diff h).permutations.map (insertAt s h)) := by
    refine (List.perm_ext_iff_of_nodup ((List.nodup_permutations L hL).filter _) ?_).2 fun o => ?_
    · refine (List.nodup_permutations _ hdn).map_on fun r hr r' hr' he => ?_
      have l1 := (List.mem_permutations.1 hr).length_eq
      have l2 := (List.mem_permutations.1 hr').length_eq
      unfold insertAt at he
      rw [List.append_assoc, List.append_assoc] at he
      obtain ⟨e1, e2⟩ := List.append_inj he (by simp only [List.length_take]; omega)
      have e3 := (List.append_inj e2 rfl).2
      rw [← List.take_append_drop s r, e1, e3, List.take_append_drop]
    · rw [List.mem_filter, List.mem_permutations, List.mem_map]
      simp only [decide_eq_true_eq, List.mem_permutations]
      constructor
      · rintro ⟨h1, h2⟩
        have hol := h1.length_eq
        have e : o = o.take s ++ (h ++ o.drop (s + h.length)) := by
          conv_lhs => rw [← List.take_append_drop s o, ← List.take_append_drop h.length (o.drop s), h2, List.drop_drop]
        refine ⟨o.take s ++ o.drop (s + h.length), ?_, ?_⟩
        · have hp : (h ++ (o.take s ++ o.drop (s + h.length))).Perm (h ++ L.diff h) := by
            refine List.Perm.trans ?_ (h1.trans hdiff.symm)
            conv_rhs => rw [e]
            rw [← List.append_assoc, ← List.append_assoc]
            exact List.perm_append_comm.append_right _
          exact (List.perm_append_left_iff h).1 hp
        · have hl : (o.take s).length = s := by rw [List.length_take]; omega
          unfold insertAt
          rw [List.take_left' hl, List.drop_left' hl, List.append_assoc]
          exact e.symm
      · rintro ⟨r, h1, rfl⟩
        refine ⟨(insertAt_perm s h r).trans ((h1.append_left h).trans hdiff), ?_⟩
        have hl : (r.take s).length = s := by rw [List.length_take, h1.length_eq]; omega
        unfold insertAt
        rw [List.append_assoc, List.drop_left' hl, List.take_left]
  rw [List.countP_eq_length_filter, key.length_eq, List.length_map, List.length_permutations, hlen]

omit [DecidableEq α] in
/-- counting by values -/
theorem count_values {β : Type} [DecidableEq β] (f : α → β) (l : List α) {P : List β} (hP : P.Nodup) :
    l.countP (fun x => f x ∈ P) = (P.map fun p => l.countP fun x => f x = p).sum := by
  induction l with
  | nil => simp
  | cons a l ih =>
    simp only [List.countP_cons, ih]
    rw [List.sum_map_add]
    congr 1
    have : (P.map fun p => if decide (f a = p) = true then 1 else 0).sum = P.count (f a) := by
      clear ih hP
      induction P with
      | nil => rfl
      | cons p P ih =>
        rw [List.map_cons, List.sum_cons, ih, List.count_cons, add_comm]
        congr 1
        by_cases h : f a = p
        · simp [h]
        · simp [h, Ne.symm h]
    rw [this]
    by_cases h : f a ∈ P
    · simp [h, List.count_eq_one_of_mem hP h]
    · simp [h, List.count_eq_zero_of_not_mem h]

omit [DecidableEq α] in
/-- the same for Boolean conditions -/
theorem count_values' {β : Type} [DecidableEq β] (f : α → β) (l : List α) {P : List β} (hP : P.Nodup) (q : α → Bool)
    (hq : ∀ x ∈ l, (q x = true ↔ f x ∈ P)) : l.countP q = (P.map fun p => l.countP fun x => f x = p).sum := by
  rw [← count_values f l hP]
  exact List.countP_congr fun x hx => by rw [hq x hx, decide_eq_true_eq]

/-- In how many orders do the elements `h`, in any order, stand behind the first `s` ones? -/
theorem count_segment_set (hL : L.Nodup) (hh : h.Nodup) (hm : ∀ x ∈ h, x ∈ L) (hs : s + h.length ≤ L.length) :
    L.permutations.countP (fun o => ((o.drop s).take h.length).Perm h) = h.length.factorial * (L.length - h.length).factorial := by
  rw [count_values' (fun o : List α => (o.drop s).take h.length) _ (List.nodup_permutations h hh) _
    fun o _ => by rw [decide_eq_true_eq, List.mem_permutations]]
  have : ∀ p ∈ h.permutations, L.permutations.countP (fun o => (o.drop s).take h.length = p) = (L.length - h.length).factorial := by
    intro p hp
    have hp := List.mem_permutations.1 hp
    rw [← hp.length_eq]
    exact count_segment hL (hp.nodup_iff.2 hh) (fun x hx => hm x (hp.mem_iff.1 hx)) (by rw [hp.length_eq]; exact hs)
  rw [List.map_congr_left this]
  simp [List.length_permutations]

/-- A property of the set of the first `k` elements holds in as many orders as it holds of sets of `k` elements, times a constant. -/
theorem count_sets (hL : L.Nodup) {k : Nat} (hk : k ≤ L.length) (Q : List α → Bool) (hQ : ∀ a b, a.Perm b → Q a = Q b) :
    L.permutations.countP (fun o => Q (o.take k)) = (L.sublistsLen k).countP Q * (k.factorial * (L.length - k).factorial) := by
  -- the canonical order of the first elements
  have h1 : ∀ o ∈ L.permutations, (L.filter (· ∈ o.take k)).Perm (o.take k) := by
    intro o ho
    have hp := List.mem_permutations.1 ho
    have hn : (o.take k).Nodup := (hp.nodup_iff.2 hL).sublist (List.take_sublist _ _)
    refine (List.perm_ext_iff_of_nodup (hL.filter _) hn).2 fun x => ?_
    simp only [List.mem_filter, decide_eq_true_eq, and_iff_right_iff_imp]
    exact fun hx => hp.mem_iff.1 (List.mem_of_mem_take hx)
  have h2 : ∀ o ∈ L.permutations, L.filter (· ∈ o.take k) ∈ L.sublistsLen k := by
    intro o ho
    rw [List.mem_sublistsLen]
    refine ⟨List.filter_sublist, ?_⟩
    rw [(h1 o ho).length_eq, List.length_take, (List.mem_permutations.1 ho).length_eq]
    omega
  have h3 : ∀ t ∈ L.sublistsLen k, ∀ o ∈ L.permutations, (L.filter (· ∈ o.take k) = t ↔ ((o.drop 0).take t.length).Perm t) := by
    intro t ht o ho
    obtain ⟨t1, t2⟩ := List.mem_sublistsLen.1 ht
    rw [List.drop_zero, t2]
    constructor
    · intro e
      rw [← e]
      exact (h1 o ho).symm
    · intro e
      have e2 : L.filter (· ∈ o.take k) = L.filter (· ∈ t) := by
        refine List.filter_congr fun x _ => ?_
        rw [decide_eq_decide]
        exact e.mem_iff
      rw [e2]
      exact (t1.filter (p := (· ∈ t)) |> fun h => by
        have e3 : t.filter (· ∈ t) = t := List.filter_eq_self.2 fun x hx => by simpa using hx
        rw [e3] at h
        refine (h.eq_of_length_le ?_).symm
        have hsub : (L.filter (· ∈ t)).Subperm t := List.subperm_of_subset (hL.filter _) fun x hx => by simpa using (List.mem_filter.1 hx).2
        exact hsub.length_le)
  rw [count_values' (fun o : List α => L.filter (· ∈ o.take k)) _ ((List.nodup_sublistsLen k hL).filter fun t => Q t) _ fun o ho => by
    rw [List.mem_filter, hQ _ _ (h1 o ho)]
    simp only [h2 o ho, true_and]]
  have e2 : ∀ t ∈ (L.sublistsLen k).filter fun t => Q t,
      L.permutations.countP (fun o => L.filter (· ∈ o.take k) = t) = k.factorial * (L.length - k).factorial := by
    intro t ht
    have ht := List.mem_of_mem_filter ht
    obtain ⟨t1, t2⟩ := List.mem_sublistsLen.1 ht
    rw [show L.permutations.countP (fun o => L.filter (· ∈ o.take k) = t) =
      L.permutations.countP (fun o => ((o.drop 0).take t.length).Perm t) from List.countP_congr fun o ho => by
        simp only [decide_eq_true_eq]; exact h3 t ht o ho,
      count_segment_set hL (hL.sublist t1) (fun x hx => t1.subset hx) (by omega), t2]
  rw [List.map_congr_left e2]
  simp [List.countP_eq_length_filter]

end Clubs
