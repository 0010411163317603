import Verif.Lemmas.Engine
import Mathlib.Data.List.Perm.Basic
import Mathlib.Data.List.Nodup
import Mathlib.Algebra.Order.BigOperators.Group.List

/-! # The showdown loop -/

namespace Clubs

/-! ## sorting -/

theorem insertByKey_perm (h : Hand) (l : List Hand) : (insertByKey h l).Perm (h :: l) := by
  induction l with
  | nil => exact List.Perm.refl _
  | cons g l ih =>
    rw [insertByKey]
    split
    · exact List.Perm.refl _
    · exact (ih.cons g).trans (List.Perm.swap h g l)

theorem sortByKey_perm (l : List Hand) : (sortByKey l).Perm l := by
  induction l with
  | nil => exact List.Perm.refl _
  | cons h l ih => exact (insertByKey_perm h _).trans (ih.cons h)

/-- order of the sort -/
def keyLe (a b : Hand) : Prop := a.strength < b.strength ∨ (a.strength = b.strength ∧ a.commit ≤ b.commit)

theorem insertByKey_sorted (h : Hand) (l : List Hand) (hl : l.Pairwise keyLe) : (insertByKey h l).Pairwise keyLe := by
  induction l with
  | nil => simp [insertByKey]
  | cons g l ih =>
    rw [insertByKey]
    rw [List.pairwise_cons] at hl
    split
    · next hlt =>
      refine List.Pairwise.cons ?_ (List.pairwise_cons.2 hl)
      intro x hx
      rcases List.mem_cons.1 hx with rfl | hx
      · exact hlt
      · have := hl.1 x hx
        unfold keyLe at *; omega
    · next hlt =>
      refine List.Pairwise.cons ?_ (ih hl.2)
      intro x hx
      rcases List.mem_cons.1 ((insertByKey_perm h l).mem_iff.1 hx) with rfl | hx
      · unfold keyLe at *; omega
      · exact hl.1 x hx

theorem sortByKey_sorted (l : List Hand) : (sortByKey l).Pairwise keyLe := by
  induction l with
  | nil => simp [sortByKey]
  | cons h l ih => exact insertByKey_sorted h _ ih

/-! ## the levels -/

/-- the largest commit of the first `i` hands -/
def lvl (H : List Hand) (i : Nat) : Int := ((H.take i).map (·.commit)).foldl max 0

theorem lvl_zero (H : List Hand) : lvl H 0 = 0 := by simp [lvl]

theorem lvl_succ (H : List Hand) (i : Nat) (h : i < H.length) : lvl H (i + 1) = max (lvl H i) H[i].commit := by
  unfold lvl
  rw [List.take_add_one, List.getElem?_eq_getElem h, List.map_append, List.foldl_append]
  rfl

theorem lvl_nonneg (H : List Hand) (i : Nat) : 0 ≤ lvl H i := (foldl_max_ge _ 0).1

theorem lvl_mono_succ (H : List Hand) (i : Nat) : lvl H i ≤ lvl H (i + 1) := by
  by_cases h : i < H.length
  · rw [lvl_succ H i h]; omega
  · unfold lvl
    rw [List.take_of_length_le (by omega), List.take_of_length_le (by omega)]

theorem lvl_mono (H : List Hand) {i j : Nat} (h : i ≤ j) : lvl H i ≤ lvl H j := by
  induction h with
  | refl => exact le_refl _
  | step _ ih => exact le_trans ih (lvl_mono_succ H _)

theorem le_lvl (H : List Hand) {i j : Nat} (hj : j < H.length) (h : j < i) : H[j].commit ≤ lvl H i := by
  have := lvl_mono H (show j + 1 ≤ i from h)
  rw [lvl_succ H j hj] at this
  omega

/-- a positive level is the commit of an earlier hand -/
theorem lvl_mem (H : List Hand) (i : Nat) : lvl H i = 0 ∨ ∃ j, ∃ h : j < H.length, j < i ∧ lvl H i = H[j].commit := by
  rcases foldl_max_mem ((H.take i).map (·.commit)) 0 with h | h
  · exact .inl h
  · right
    obtain ⟨x, hx, he⟩ := List.mem_map.1 h
    obtain ⟨j, hj, rfl⟩ := List.mem_iff_getElem.1 hx
    rw [List.length_take] at hj
    refine ⟨j, by omega, by omega, ?_⟩
    unfold lvl
    rw [← he]; simp

/-- the hands after `i` iterations -/
def drained (worst : Int) (H : List Hand) (i : Nat) : List Hand :=
  H.mapIdx fun j h =>
    { idx := h.idx
      strength := if j < i ∧ lvl H j < h.commit then worst else h.strength
      commit := max (h.commit - lvl H i) 0 }

theorem drained_length (worst : Int) (H : List Hand) (i : Nat) : (drained worst H i).length = H.length := by
  simp [drained]

theorem drained_get (worst : Int) (H : List Hand) (i j : Nat) (h : j < H.length) :
    (drained worst H i)[j]'(by rw [drained_length]; exact h) =
      { idx := H[j].idx, strength := if j < i ∧ lvl H j < H[j].commit then worst else H[j].strength,
        commit := max (H[j].commit - lvl H i) 0 } := by
  simp [drained]

/-- chips moved in iteration `i` -/
def wAt (H : List Hand) (i : Nat) : Int :=
  (H.map fun h => min h.commit (lvl H (i + 1)) - min h.commit (lvl H i)).sum

/-- who shares in iteration `i` -/
def eAt (worst : Int) (H : List Hand) (i : Nat) : List Nat :=
  match (drained worst H i)[i]? with
  | none => []
  | some h => ((drained worst H i).filter fun g => g.strength == h.strength).map (·.idx)

/-- one iteration, without the `break` -/
def outAt (worst : Int) (H : List Hand) (i : Nat) (acc : List Int × Int) : List Int × Int :=
  if wAt H i = 0 then acc
  else
    ((eAt worst H i).foldl (fun p k => p.modify k (· + wAt H i / ((eAt worst H i).length : Int))) acc.1,
      acc.2 + wAt H i % ((eAt worst H i).length : Int))

theorem sum_nonneg_zero {l : List Int} (h : ∀ x ∈ l, 0 ≤ x) (hs : l.sum = 0) : ∀ x ∈ l, x = 0 := by
  induction l with
  | nil => simp
  | cons a l ih =>
    have h1 : 0 ≤ l.sum := List.sum_nonneg (fun x hx => h x (by simp [hx]))
    have h2 := h a (by simp)
    rw [List.sum_cons] at hs
    intro x hx
    rcases List.mem_cons.1 hx with rfl | hx
    · omega
    · exact ih (fun x hx => h x (by simp [hx])) (by omega) x hx

variable {worst : Int} {H : List Hand}

theorem wAt_nonneg (i : Nat) : 0 ≤ wAt H i := by
  unfold wAt
  apply List.sum_nonneg
  intro x hx
  obtain ⟨h, -, rfl⟩ := List.mem_map.1 hx
  have := lvl_mono_succ H i
  omega

theorem wAt_zero {i : Nat} (hi : i < H.length) : wAt H i = 0 ↔ H[i].commit ≤ lvl H i := by
  constructor
  · intro h
    have := sum_nonneg_zero (l := H.map fun h : Hand => min h.commit (lvl H (i + 1)) - min h.commit (lvl H i)) (by
      intro x hx
      obtain ⟨h, -, rfl⟩ := List.mem_map.1 hx
      have := lvl_mono_succ H i
      omega) (show (H.map fun h : Hand => min h.commit (lvl H (i + 1)) - min h.commit (lvl H i)).sum = 0 from h) (min H[i].commit (lvl H (i + 1)) - min H[i].commit (lvl H i))
      (List.mem_map.2 ⟨H[i], List.getElem_mem hi, rfl⟩)
    rw [lvl_succ H i hi] at this
    omega
  · intro h
    unfold wAt
    rw [lvl_succ H i hi, show max (lvl H i) H[i].commit = lvl H i by omega]
    simp

theorem cut_sum (i : Nat) (hi : i < H.length) (hpos : ∀ h ∈ H, 0 ≤ h.commit) :
    ((drained worst H i).map fun g => min g.commit (max (H[i].commit - lvl H i) 0)).sum = wAt H i := by
  unfold wAt
  congr 1
  apply List.ext_getElem
  · simp [drained_length]
  · intro j h1 h2
    rw [List.length_map] at h2
    simp only [List.getElem_map, drained_get worst H i j h2]
    have := hpos H[j] (List.getElem_mem h2)
    have := hpos H[i] (List.getElem_mem hi)
    have := lvl_nonneg H i
    have := lvl_succ H i hi
    omega

theorem drained_zero (hpos : ∀ h ∈ H, 0 ≤ h.commit) : drained worst H 0 = H := by
  apply List.ext_getElem
  · simp [drained_length]
  · intro j h1 h2
    rw [drained_get worst H 0 j h2, lvl_zero]
    have := hpos H[j] (List.getElem_mem h2)
    simp [this]

theorem drained_succ_zero {i : Nat} (hi : i < H.length) (hw : wAt H i = 0) :
    drained worst H (i + 1) = drained worst H i := by
  have h := (wAt_zero hi).1 hw
  apply List.ext_getElem
  · simp [drained_length]
  · intro j h1 h2
    rw [drained_length] at h1
    rw [drained_get _ _ _ _ h1, drained_get _ _ _ _ h1]
    rw [lvl_succ H i hi, show max (lvl H i) H[i].commit = lvl H i by omega]
    congr 2
    rw [eq_iff_iff]
    constructor
    · rintro ⟨a, b⟩
      refine ⟨?_, b⟩
      rcases Nat.lt_or_ge j i with h | h
      · exact h
      · have : j = i := by omega
        subst this; omega
    · rintro ⟨a, b⟩; exact ⟨by omega, b⟩

theorem drained_succ {i : Nat} (hi : i < H.length) (hw : wAt H i ≠ 0) (hpos : ∀ h ∈ H, 0 ≤ h.commit) :
    drained worst H (i + 1) =
      ((drained worst H i).map fun g => { g with commit := g.commit - min g.commit (max (H[i].commit - lvl H i) 0) }).modify
        i (fun g => { g with strength := worst }) := by
  have h : lvl H i < H[i].commit := by
    by_contra hn; exact hw ((wAt_zero hi).2 (by omega))
  apply List.ext_getElem
  · simp [drained_length]
  · intro j h1 h2
    rw [drained_length] at h1
    rw [drained_get _ _ _ _ h1, List.getElem_modify]
    simp only [List.getElem_map, drained_get _ _ _ _ h1]
    have := hpos H[j] (List.getElem_mem h1)
    have hl := lvl_succ H i hi
    by_cases e : i = j
    · subst e
      simp only [if_true, h, and_true]
      have : i < i + 1 := by omega
      simp only [this, if_true]
      congr 1
      omega
    · rw [if_neg e]
      have : (j < i + 1 ∧ lvl H j < H[j].commit) ↔ (j < i ∧ lvl H j < H[j].commit) := by
        constructor
        · rintro ⟨a, b⟩; exact ⟨by omega, b⟩
        · rintro ⟨a, b⟩; exact ⟨by omega, b⟩
      simp only [this]
      congr 1
      omega

/-- sum of what is left after `i` iterations -/
theorem drained_sum (i : Nat) (hpos : ∀ h ∈ H, 0 ≤ h.commit) :
    ((drained worst H (i + 1)).map (·.commit)).sum = ((drained worst H i).map (·.commit)).sum - wAt H i := by
  have : ∀ (f g k : Hand → Int) (l : List Hand), (∀ x ∈ l, f x = g x - k x) →
      (l.map f).sum = (l.map g).sum - (l.map k).sum := by
    intro f g k l
    induction l with
    | nil => simp
    | cons a l ih =>
      intro h
      simp only [List.map_cons, List.sum_cons, ih (fun x hx => h x (by simp [hx])), h a (by simp)]
      ring
  have e : ∀ i, (drained worst H i).map (·.commit) = H.map fun h => max (h.commit - lvl H i) 0 := by
    intro i
    apply List.ext_getElem
    · simp [drained_length]
    · intro j h1 h2
      rw [List.length_map] at h2
      simp only [List.getElem_map, drained_get worst H i j h2]
  rw [e, e]
  apply this
  intro x hx
  have := hpos x hx
  have := lvl_mono_succ H i
  have := lvl_nonneg H i
  omega

theorem drained_sum_zero {i : Nat} (hs : ((drained worst H i).map (·.commit)).sum = 0) {k : Nat} (hk : i ≤ k)
    (hkl : k < H.length) : wAt H k = 0 := by
  rw [wAt_zero hkl]
  have h0 := sum_nonneg_zero (l := (drained worst H i).map (·.commit)) (by
    intro x hx
    obtain ⟨g, hg, rfl⟩ := List.mem_map.1 hx
    obtain ⟨j, hj, rfl⟩ := List.mem_iff_getElem.1 hg
    rw [drained_length] at hj
    rw [drained_get _ _ _ _ hj]
    simp) hs
  have := h0 (max (H[k].commit - lvl H i) 0) (by
    rw [List.mem_map]
    exact ⟨(drained worst H i)[k]'(by rw [drained_length]; exact hkl), List.getElem_mem _, by
      rw [drained_get _ _ _ _ hkl]⟩)
  have := lvl_mono H hk
  omega

/-- The loop in closed form. -/
theorem potLoop_eq (hpos : ∀ h ∈ H, 0 ≤ h.commit) (fuel i : Nat) (hf : i + fuel = H.length) (st : PotState)
    (h1 : st.hands = drained worst H i) (h2 : st.pot = ((drained worst H i).map (·.commit)).sum) :
    (potLoop worst fuel i st).payouts =
      ((List.range' i fuel).foldl (fun a k => outAt worst H k a) (st.payouts, st.remainder)).1 ∧
    (potLoop worst fuel i st).remainder =
      ((List.range' i fuel).foldl (fun a k => outAt worst H k a) (st.payouts, st.remainder)).2 := by
  induction fuel generalizing i st with
  | zero => simp [potLoop]
  | succ fuel ih =>
    have hi : i < H.length := by omega
    rw [potLoop]
    have hget : st.hands[i]? = some { idx := H[i].idx, strength := H[i].strength, commit := max (H[i].commit - lvl H i) 0 } := by
      rw [h1, List.getElem?_eq_getElem (by rw [drained_length]; exact hi), drained_get _ _ _ _ hi]
      have : ¬ (i < i ∧ lvl H i < H[i].commit) := by omega
      simp only [this, if_false]
    rw [hget]
    simp only []
    have hcut : (st.hands.map fun g => min g.commit (max (H[i].commit - lvl H i) 0)).sum = wAt H i := by
      rw [h1]; exact cut_sum i hi hpos
    rw [hcut, List.range'_succ, List.foldl_cons]
    by_cases hw : wAt H i = 0
    · rw [if_pos hw]
      have ho : outAt worst H i (st.payouts, st.remainder) = (st.payouts, st.remainder) := by
        unfold outAt; rw [if_pos hw]
      rw [ho]
      apply ih (i + 1) (by omega) st
      · rw [drained_succ_zero hi hw]; exact h1
      · rw [drained_succ_zero hi hw]; exact h2
    · rw [if_neg hw]
      have hE : eAt worst H i = ((st.hands.filter fun g => g.strength == H[i].strength).map (·.idx)) := by
        unfold eAt
        rw [← h1, hget]
      have hst : potStep worst st i { idx := H[i].idx, strength := H[i].strength, commit := max (H[i].commit - lvl H i) 0 } =
          { payouts := (outAt worst H i (st.payouts, st.remainder)).1
            remainder := (outAt worst H i (st.payouts, st.remainder)).2
            hands := drained worst H (i + 1)
            pot := st.pot - wAt H i } := by
        unfold potStep outAt
        simp only [hcut, if_neg hw, hE]
        congr 1
        rw [drained_succ hi hw hpos, h1]
      rw [hst]
      simp only []
      have hpot : st.pot - wAt H i = ((drained worst H (i + 1)).map (·.commit)).sum := by
        rw [drained_sum i hpos, h2]
      by_cases hz : st.pot - wAt H i = 0
      · rw [if_pos hz]
        simp only []
        have hrest : ∀ (l : List Nat), (∀ k ∈ l, i + 1 ≤ k ∧ k < H.length) → ∀ acc,
            l.foldl (fun a k => outAt worst H k a) acc = acc := by
          intro l
          induction l with
          | nil => simp
          | cons k l ihl =>
            intro hl acc
            rw [List.foldl_cons]
            have : outAt worst H k acc = acc := by
              unfold outAt
              rw [if_pos (drained_sum_zero (worst := worst) (i := i + 1) (by rw [← hpot]; exact hz) (hl k (by simp)).1 (hl k (by simp)).2)]
            rw [this]
            exact ihl (fun k hk => hl k (by simp [hk])) acc
        rw [hrest _ (by
          intro k hk
          rw [List.mem_range'_1] at hk
          omega)]
        exact ⟨rfl, rfl⟩
      · rw [if_neg hz]
        exact ih (i + 1) (by omega) _ rfl hpot

end Clubs
