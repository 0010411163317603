import Mathlib.Logic.Equiv.Finset
import Mathlib.Algebra.BigOperators.Group.Finset.Basic
import Verif.Spec.Showdown

/-!
# Dividing a pot among players who have exchanged their hands (for C110)
-/

namespace Clubs

open Spec Finset

variable {n : Nat} {act : Nat → Bool} {c s s' : Nat → Int} {f : Equiv.Perm Nat}

/-- `f` leaves the table as it is: whoever moves to another seat finds it in the same state, with as many chips put in -/
structure Invariant (n : Nat) (act : Nat → Bool) (c : Nat → Int) (f : Equiv.Perm Nat) : Prop where
  seat : ∀ i, f i < n ↔ i < n
  act : ∀ i < n, act (f i) = act i
  chips : ∀ i < n, c (f i) = c i

theorem winners_mem (hf : Invariant n act c f) (hs : ∀ i < n, act i = true → s' (f i) = s i) (t i : Nat) :
    f i ∈ winners n act c s' t ↔ i ∈ winners n act c s t := by
  unfold winners
  simp only [mem_filter, mem_range, hf.seat]
  constructor
  · rintro ⟨h1, h2, h3, h4⟩
    refine ⟨h1, by rwa [hf.act i h1] at h2, by rwa [hf.chips i h1] at h3, fun j hj ha hc => ?_⟩
    rw [hf.act i h1] at h2
    have := h4 (f j) ((hf.seat j).2 hj) (by rw [hf.act j hj]; exact ha) (by rw [hf.chips j hj]; exact hc)
    rwa [hs i h1 h2, hs j hj ha] at this
  · rintro ⟨h1, h2, h3, h4⟩
    refine ⟨h1, by rwa [hf.act i h1], by rwa [hf.chips i h1], fun j hj ha hc => ?_⟩
    obtain ⟨k, rfl⟩ := f.surjective j
    have hk := (hf.seat k).1 hj
    rw [hf.act k hk] at ha
    rw [hf.chips k hk] at hc
    rw [hs i h1 h2, hs k hk ha]
    exact h4 k hk ha hc

theorem winners_map (hf : Invariant n act c f) (hs : ∀ i < n, act i = true → s' (f i) = s i) (t : Nat) :
    winners n act c s' t = (winners n act c s t).map f.toEmbedding := by
  ext x
  obtain ⟨i, rfl⟩ := f.surjective x
  rw [winners_mem hf hs]
  simp

theorem potOf_map (hf : Invariant n act c f) (hs : ∀ i < n, act i = true → s' (f i) = s i) (W : Finset Nat) :
    potOf n act c s' (W.map f.toEmbedding) = potOf n act c s W := by
  unfold potOf
  refine sum_congr rfl fun t _ => ?_
  rw [winners_map hf hs]
  by_cases h : winners n act c s t = W
  · rw [if_pos h, if_pos (by rw [h])]
  · rw [if_neg h, if_neg fun h' => h (map_injective _ h')]

theorem powerset_map (hf : Invariant n act c f) (W : Finset Nat) :
    W ∈ (range n).powerset ↔ f.finsetCongr W ∈ (range n).powerset := by
  simp only [mem_powerset, subset_iff, Equiv.finsetCongr_apply, mem_map_equiv, mem_range]
  constructor
  · intro h x hx
    have := h hx
    rwa [← hf.seat, Equiv.apply_symm_apply] at this
  · intro h x hx
    have := h (x := f x) (by rwa [Equiv.symm_apply_apply])
    rwa [hf.seat] at this

theorem due_map (hf : Invariant n act c f) (hs : ∀ i < n, act i = true → s' (f i) = s i) (j : Nat) :
    due n act c s' (f j) = due n act c s j := by
  unfold due
  symm
  refine sum_equiv f.finsetCongr (fun W => powerset_map hf W) fun W _ => ?_
  rw [Equiv.finsetCongr_apply, potOf_map hf hs, card_map]
  simp

theorem odd_map (hf : Invariant n act c f) (hs : ∀ i < n, act i = true → s' (f i) = s i) :
    Spec.odd n act c s' = Spec.odd n act c s := by
  unfold Spec.odd
  symm
  refine sum_equiv f.finsetCongr (fun W => powerset_map hf W) fun W _ => ?_
  rw [Equiv.finsetCongr_apply, potOf_map hf hs, card_map]

theorem fair_map (hf : Invariant n act c f) (hs : ∀ i < n, act i = true → s' (f i) = s i) (j : Nat) :
    fairShare n act c s' (f j) = fairShare n act c s j := by
  unfold fairShare
  refine sum_congr rfl fun t _ => ?_
  rw [winners_map hf hs, card_map]
  simp

end Clubs
