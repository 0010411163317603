import Mathlib.Data.List.Permutation
import Mathlib.Data.List.Perm.Subperm
import Mathlib.Algebra.Order.BigOperators.Group.List
import Mathlib.Algebra.Order.Group.Unbundled.Abs
import Mathlib.Algebra.Order.Ring.Int
import Mathlib.Tactic.NormNum
import Mathlib.Tactic.Ring
import Verif.Lemmas.Exchange

/-!
# Exchanging two hands in all orders of a deck (for C111)
-/

namespace Clubs

open Spec

variable {α : Type} {a b m : Nat} {o : List α}

/-- where the card at a place comes from when the `m` cards from place `a` on are exchanged with those from place `b` on -/
def swapPlace (a b m p : Nat) : Nat :=
  if a ≤ p ∧ p < a + m then p - a + b else if b ≤ p ∧ p < b + m then p - b + a else p

/-- the `m` cards from place `a` on exchanged with those from place `b` on -/
def swapCards (a b m : Nat) (o : List α) : List α :=
  o.take a ++ ((o.drop b).take m ++ ((o.drop (a + m)).take (b - (a + m)) ++ ((o.drop a).take m ++ o.drop (b + m))))

theorem swapCards_get (h : a + m ≤ b) (h2 : b + m ≤ o.length) (p : Nat) : (swapCards a b m o)[p]? = o[swapPlace a b m p]? := by
  unfold swapCards swapPlace
  simp only [List.getElem?_append, List.length_take, List.length_drop, List.getElem?_take, List.getElem?_drop]
  have e1 : min a o.length = a := by omega
  have e2 : min m (o.length - b) = m := by omega
  have e3 : min (b - (a + m)) (o.length - (a + m)) = b - (a + m) := by omega
  have e4 : min m (o.length - a) = m := by omega
  rw [e1, e2, e3, e4]
  by_cases c1 : p < a
  · rw [if_pos c1, if_pos c1, if_neg (by omega), if_neg (by omega)]
  rw [if_neg c1]
  by_cases c2 : p < a + m
  · rw [if_pos (by omega), if_pos (by omega), if_pos (by omega)]
    congr 1; omega
  rw [if_neg (by omega)]
  by_cases c3 : p < b
  · rw [if_pos (by omega), if_pos (by omega), if_neg (by omega), if_neg (by omega)]
    congr 1; omega
  rw [if_neg (by omega)]
  by_cases c4 : p < b + m
  · rw [if_pos (by omega), if_pos (by omega), if_neg (by omega), if_pos (by omega)]
    congr 1; omega
  rw [if_neg (by omega), if_neg (by omega), if_neg (by omega)]
  congr 1; omega

theorem five_pieces (h : a + m ≤ b) :
    o = o.take a ++ ((o.drop a).take m ++ ((o.drop (a + m)).take (b - (a + m)) ++ ((o.drop b).take m ++ o.drop (b + m)))) := by
  have e1 : o.drop (b + m) = (o.drop b).drop m := by rw [List.drop_drop]
  have e2 : o.drop b = (o.drop (a + m)).drop (b - (a + m)) := by rw [List.drop_drop]; congr 1; omega
  have e3 : o.drop (a + m) = (o.drop a).drop m := by rw [List.drop_drop]
  rw [e1, List.take_append_drop, e2, List.take_append_drop, e3, List.take_append_drop, List.take_append_drop]

theorem swapCards_perm (h : a + m ≤ b) : (swapCards a b m o).Perm o := by
  classical
  conv_rhs => rw [five_pieces (o := o) h]
  unfold swapCards
  rw [List.perm_iff_count]
  intro x
  simp only [List.count_append]
  omega

theorem swapCards_twice (h : a + m ≤ b) (h2 : b + m ≤ o.length) : swapCards a b m (swapCards a b m o) = o := by
  apply List.ext_getElem?
  intro p
  rw [swapCards_get h (by rw [(swapCards_perm h).length_eq]; exact h2), swapCards_get h h2]
  congr 1
  unfold swapPlace
  split_ifs <;> omega

/-- a sum over all orders does not change when two hands are exchanged in every order -/
theorem sum_swapCards {L : List α} (hL : L.Nodup) (h : a + m ≤ b) (h2 : b + m ≤ L.length) (φ : List α → Int) :
    (L.permutations.map fun o => φ (swapCards a b m o)).sum = (L.permutations.map φ).sum := by
  have hmem : ∀ o ∈ L.permutations, swapCards a b m o ∈ L.permutations ∧ swapCards a b m (swapCards a b m o) = o := by
    intro o ho
    rw [List.mem_permutations] at ho ⊢
    have h3 : b + m ≤ o.length := by rw [ho.length_eq]; exact h2
    exact ⟨(swapCards_perm h).trans ho, swapCards_twice h h3⟩
  have hn : (L.permutations.map (swapCards a b m)).Nodup := by
    refine List.Nodup.map_on (fun x hx y hy hxy => ?_) (List.nodup_permutations L hL)
    rw [← (hmem x hx).2, ← (hmem y hy).2, hxy]
  have hs : L.permutations.map (swapCards a b m) ⊆ L.permutations := by
    intro y hy
    obtain ⟨x, hx, rfl⟩ := List.mem_map.1 hy
    exact (hmem x hx).1
  have hp : (L.permutations.map (swapCards a b m)).Perm L.permutations :=
    (List.subperm_of_subset hn hs).perm_of_length_le (by rw [List.length_map])
  rw [← (hp.map φ).sum_eq, List.map_map]
  rfl

theorem abs_sum_sub_le {β : Type} (l : List β) (φ ψ ω : β → Int) (h : ∀ x ∈ l, |ψ x - φ x| ≤ ω x) :
    |(l.map ψ).sum - (l.map φ).sum| ≤ (l.map ω).sum := by
  induction l with
  | nil => simp
  | cons x l ih =>
    simp only [List.map_cons, List.sum_cons]
    have h1 := h x (by simp)
    have h2 := ih fun y hy => h y (by simp [hy])
    generalize (l.map ψ).sum = A at *
    generalize (l.map φ).sum = B at *
    rw [abs_le] at *
    omega

/-- the same for values that move with the hands -/
theorem sum_exchange {L : List α} (hL : L.Nodup) (h : a + m ≤ b) (h2 : b + m ≤ L.length) (φ ψ ω : List α → Int)
    (hx : ∀ o ∈ L.permutations, |ψ (swapCards a b m o) - φ o| ≤ ω o) :
    |(L.permutations.map ψ).sum - (L.permutations.map φ).sum| ≤ (L.permutations.map ω).sum := by
  rw [← sum_swapCards hL h h2 ψ]
  exact abs_sum_sub_le _ _ _ _ hx

/-- sums over all orders of payouts that add up to nothing -/
theorem sums_zero {β : Type} (l : List β) (n : Nat) (f : β → Nat → Int) (h : ∀ x ∈ l, ((List.range n).map (f x)).sum = 0) :
    ((List.range n).map fun k => (l.map fun x => f x k).sum).sum = 0 := by
  have add : ∀ (r : List Nat) (g g' : Nat → Int), (r.map fun k => g k + g' k).sum = (r.map g).sum + (r.map g').sum := by
    intro r g g'
    induction r with
    | nil => rfl
    | cons k r ih => simp only [List.map_cons, List.sum_cons, ih]; omega
  induction l with
  | nil =>
    have : ∀ r : List Nat, (r.map fun _ => (0 : Int)).sum = 0 := by
      intro r
      induction r with
      | nil => rfl
      | cons k r ih => simp only [List.map_cons, List.sum_cons, ih]; rfl
    exact this _
  | cons x l ih =>
    simp only [List.map_cons, List.sum_cons]
    rw [add, h x (by simp), ih fun y hy => h y (by simp [hy])]
    rfl

/-- numbers that add up to nothing and are close to each other are close to nothing -/
theorem close_zero {n i : Nat} {T : Nat → Int} {O : Int} (h : ((List.range n).map T).sum = 0) (hi : i < n) (hO : ∀ k < n, |T k - T i| ≤ O) :
    |T i| ≤ O := by
  have pos : ∀ (r : List Nat) (g : Nat → Int), (∀ k ∈ r, 0 < g k) → r ≠ [] → 0 < (r.map g).sum := by
    intro r g
    induction r with
    | nil => exact fun _ h => absurd rfl h
    | cons k r ih =>
      intro h1 _
      rw [List.map_cons, List.sum_cons]
      have h2 := h1 k (by simp)
      rcases r with _ | ⟨k', r⟩
      · simpa using h2
      · have := ih (fun k hk => h1 k (by simp [hk])) (by simp)
        omega
  have neg : ∀ (r : List Nat), (r.map fun k => - T k).sum = - (r.map T).sum := by
    intro r
    induction r with
    | nil => rfl
    | cons k r ih => simp only [List.map_cons, List.sum_cons, ih]; omega
  have hne : List.range n ≠ [] := by
    intro h
    have := congrArg List.length h
    simp at this
    omega
  rw [abs_le]
  constructor
  · by_contra hc
    have := pos (List.range n) (fun k => - T k) (fun k hk => by
      have := hO k (List.mem_range.1 hk)
      rw [abs_le] at this
      omega) hne
    rw [neg] at this
    omega
  · by_contra hc
    have := pos (List.range n) T (fun k hk => by
      have := hO k (List.mem_range.1 hk)
      rw [abs_le] at this
      omega) hne
    omega

/-! ## two players -/

open Finset in
/-- what two players are due -/
theorem fair_two {act : Nat → Bool} {c s : Nat → Int} (ha : ∀ i < 2, act i = true) (hc : ∀ i < 2, 0 ≤ c i) :
    fairShare 2 act c s 0 = c 0 + (if s 0 < s 1 then min (c 0) (c 1) else if s 1 < s 0 then - min (c 0) (c 1) else 0 : Int) ∧
    fairShare 2 act c s 1 = c 1 - (if s 0 < s 1 then min (c 0) (c 1) else if s 1 < s 0 then - min (c 0) (c 1) else 0 : Int) := by
  have a0 := ha 0 (by omega)
  have a1 := ha 1 (by omega)
  have c0 := hc 0 (by omega)
  have c1 := hc 1 (by omega)
  have hN : numLayers 2 c = (c 0 + c 1).toNat := by
    unfold numLayers
    rw [sum_range_succ, sum_range_succ, sum_range_zero, zero_add]
  have count : ∀ x : Int, 0 ≤ x → x ≤ c 0 + c 1 →
      (∑ t ∈ range (c 0 + c 1).toNat, if (t : Int) < x then (1 : Rat) else 0) = x := by
    intro x hx hle
    rw [sum_ite, sum_const_zero, add_zero, sum_const, nsmul_eq_mul, mul_one]
    have : (range (c 0 + c 1).toNat).filter (fun t : Nat => (t : Int) < x) = range x.toNat := by
      ext t; simp only [mem_filter, mem_range]; omega
    rw [this, card_range]
    have : ((x.toNat : Nat) : Int) = x := Int.toNat_of_nonneg hx
    exact_mod_cast this
  have hl : ∀ t : Nat, layer 2 c t = (if (t : Int) < c 0 then 1 else 0) + (if (t : Int) < c 1 then 1 else 0) := by
    intro t
    unfold layer
    rw [range_add_one, range_add_one, range_zero, filter_insert, filter_insert, filter_empty]
    split_ifs <;> simp
  have mem0 : ∀ t, 0 ∈ winners 2 act c s t ↔ ((t : Int) < c 0 ∧ ((t : Int) < c 1 → s 0 ≤ s 1)) := by
    intro t
    unfold winners
    simp only [mem_filter, mem_range, a0, true_and]
    constructor
    · rintro ⟨-, h1, h2⟩; exact ⟨h1, fun h => h2 1 (by omega) a1 h⟩
    · rintro ⟨h1, h2⟩
      refine ⟨by omega, h1, fun j hj _ hlt => ?_⟩
      have : j = 0 ∨ j = 1 := by omega
      rcases this with rfl | rfl
      · exact le_refl _
      · exact h2 hlt
  have mem1 : ∀ t, 1 ∈ winners 2 act c s t ↔ ((t : Int) < c 1 ∧ ((t : Int) < c 0 → s 1 ≤ s 0)) := by
    intro t
    unfold winners
    simp only [mem_filter, mem_range, a1, true_and]
    constructor
    · rintro ⟨-, h1, h2⟩; exact ⟨h1, fun h => h2 0 (by omega) a0 h⟩
    · rintro ⟨h1, h2⟩
      refine ⟨by omega, h1, fun j hj _ hlt => ?_⟩
      have : j = 0 ∨ j = 1 := by omega
      rcases this with rfl | rfl
      · exact h2 hlt
      · exact le_refl _
  have hcard : ∀ t, (winners 2 act c s t).card =
      (if 0 ∈ winners 2 act c s t then 1 else 0) + (if 1 ∈ winners 2 act c s t then 1 else 0) := by
    intro t
    have : winners 2 act c s t = (range 2).filter fun i => i ∈ winners 2 act c s t := by
      ext i
      simp only [mem_filter, mem_range]
      exact ⟨fun h => ⟨by unfold winners at h; exact mem_range.1 (mem_filter.1 h).1, h⟩, fun h => h.2⟩
    conv_lhs => rw [this]
    rw [range_add_one, range_add_one, range_zero, filter_insert, filter_insert, filter_empty]
    split_ifs <;> simp
  have term : ∀ t : Nat, (if 0 ∈ winners 2 act c s t then (layer 2 c t : Rat) / ((winners 2 act c s t).card : Rat) else 0) =
      (if (t : Int) < c 0 then 1 else 0) +
        (if s 0 < s 1 then (if (t : Int) < min (c 0) (c 1) then 1 else 0)
          else if s 1 < s 0 then - (if (t : Int) < min (c 0) (c 1) then 1 else 0) else 0) := by
    intro t
    rw [hcard, hl]
    simp only [mem0, mem1, lt_min_iff]
    rcases lt_trichotomy (s 0) (s 1) with h | h | h
    · by_cases t0 : (t : Int) < c 0 <;> by_cases t1 : (t : Int) < c 1 <;> simp [t0, t1, h, h.le, not_le.2 h]; norm_num
    · by_cases t0 : (t : Int) < c 0 <;> by_cases t1 : (t : Int) < c 1 <;> simp [t0, t1, h]
    · by_cases t0 : (t : Int) < c 0 <;> by_cases t1 : (t : Int) < c 1 <;> simp [t0, t1, h, h.le, not_le.2 h, not_lt.2 h.le]
  have term1 : ∀ t : Nat, (if 1 ∈ winners 2 act c s t then (layer 2 c t : Rat) / ((winners 2 act c s t).card : Rat) else 0) =
      (if (t : Int) < c 1 then 1 else 0) +
        (if s 0 < s 1 then - (if (t : Int) < min (c 0) (c 1) then 1 else 0)
          else if s 1 < s 0 then (if (t : Int) < min (c 0) (c 1) then 1 else 0) else 0) := by
    intro t
    rw [hcard, hl]
    simp only [mem0, mem1, lt_min_iff]
    rcases lt_trichotomy (s 0) (s 1) with h | h | h
    · by_cases t0 : (t : Int) < c 0 <;> by_cases t1 : (t : Int) < c 1 <;> simp [t0, t1, h, h.le, not_le.2 h]
    · by_cases t0 : (t : Int) < c 0 <;> by_cases t1 : (t : Int) < c 1 <;> simp [t0, t1, h]
    · by_cases t0 : (t : Int) < c 0 <;> by_cases t1 : (t : Int) < c 1 <;> simp [t0, t1, h, h.le, not_le.2 h, not_lt.2 h.le]; norm_num
  have hm : min (c 0) (c 1) ≤ c 0 + c 1 := by omega
  have hm0 : 0 ≤ min (c 0) (c 1) := by omega
  unfold fairShare
  constructor
  · rw [hN, sum_congr rfl fun t _ => term t, sum_add_distrib, count _ c0 (by omega)]
    split_ifs
    · rw [count _ hm0 hm]
    · rw [sum_neg_distrib, count _ hm0 hm]; push_cast; ring
    · rw [sum_const_zero]; simp
  · rw [hN, sum_congr rfl fun t _ => term1 t, sum_add_distrib, count _ c1 (by omega)]
    split_ifs
    · rw [sum_neg_distrib, count _ hm0 hm]; ring
    · rw [count _ hm0 hm]; push_cast; ring
    · rw [sum_const_zero]; simp

end Clubs
