import Verif.Lemmas.Ncr
import Verif.Lemmas.Bits
import Verif.Lemmas.Keys
import Mathlib.Data.Finset.Powerset

/-! # C06, C07, C08: counting, bit patterns, table keys -/

namespace Clubs

open Spec

/-! ## C06 -/

/-- C06: `_ncr(n, r)` is the number of `r`-element subsets of any set of `n` things. -/
theorem C06_ncr {α : Type} (ranks : Finset α) (r : Nat) (h : r ≤ ranks.card) :
    ncr ranks.card r = (ranks.powersetCard r).card := by
  rw [ncr_eq_choose _ _ h, Finset.card_powersetCard]

/-- C06 in numbers -/
theorem C06_choose (n r : Nat) (h : r ≤ n) : ncr n r = (n.choose r : Int) := ncr_eq_choose n r h

example : ncr 13 5 = 1287 ∧ ncr 0 0 = 1 ∧ ncr 4 4 = 1 := by decide

/-- Outside `r ≤ n` the helper does not return 0 (there is no such subset). This is why some tables
cannot be built (C09). -/
theorem C06_outside : ncr 1 2 = 1 ∧ ncr 0 1 = 1 ∧ (∀ n r : Nat, n < r → ncr n r = 1) := by
  refine ⟨by decide, by decide, ?_⟩
  intro n r h
  have : (min (r : Int) (n - r)).toNat = 0 := by omega
  simp [ncr, this]

/-! ## C07 -/

/-- C07: started with the `k` lowest bits set, the first `C(r, k)` values of the generator are exactly
the patterns below `2 ^ r` with `k` bits set, in strictly increasing order (so each once). -/
theorem C07_generator (r k : Nat) (h : k ≤ r) :
    (∀ x, x ∈ genBits (r.choose k) (2 ^ k - 1) ↔ x < 2 ^ r ∧ bitCount r x = k) ∧
    (genBits (r.choose k) (2 ^ k - 1)).Pairwise (· < ·) := by
  rw [genBits_eq_masks r k h]
  exact ⟨mem_masks r k, masks_sorted r k⟩

example : genBits 6 3 = [3, 5, 6, 9, 10, 12] := by decide

/-! ## C08 -/

/-- C08: two hands have the same product of primes iff they have the same ranks with the same
multiplicities. -/
theorem C08_no_collision (ps qs : List (Nat × Nat)) (h k : List Card) (hp : AreCards ps)
    (hq : AreCards qs) (hh : Denotes ps h) (hk : Denotes qs k) :
    primeFromHand h = primeFromHand k ↔ (ps.map (·.1)).Perm (qs.map (·.1)) := by
  rw [denotes_eq hp hh, denotes_eq hq hk, primeFromHand_eq _ hp, primeFromHand_eq _ hq]
  refine ⟨prodKey_inj ?_ ?_, prodKey_perm⟩ <;>
  · intro x hx
    obtain ⟨p, hp', rfl⟩ := List.mem_map.1 hx
    first | exact (hp p hp').1 | exact (hq p hp').1

/-- C08: the key of a suited hand, computed from the rank bits of the cards (`evaluator.py:340-341`),
is the key computed from the cards. -/
theorem C08_suited_key (c : Card) (cs : List Card) (ps : List (Nat × Nat)) (hp : AreCards ps)
    (hh : Denotes ps (c :: cs)) (hn : (ps.map (·.1)).Nodup) :
    primeFromBits ((cs.foldl (fun a c => a ||| c.int) c.int) >>> 16) = primeFromHand (c :: cs) := by
  have e := denotes_eq hp hh
  cases ps with
  | nil => simp at e
  | cons p ps =>
    rw [e, primeFromHand_eq _ hp]
    simp only [List.map_cons, List.cons.injEq] at e
    rw [e.1, e.2]
    exact primeFromBits_hand p ps hp hn

/-- the hypotheses hold for the broadway flush -/
example : AreCards [(12, 0), (11, 0), (10, 0), (9, 0), (8, 0)] ∧
    ([(12, 0), (11, 0), (10, 0), (9, 0), (8, 0)].map (·.1) : List Nat).Nodup ∧
    Denotes [(12, 0), (11, 0), (10, 0), (9, 0), (8, 0)]
      ([(12, 0), (11, 0), (10, 0), (9, 0), (8, 0)].map fun p => mkCard p.1 p.2) := by
  have h : AreCards [(12, 0), (11, 0), (10, 0), (9, 0), (8, 0)] := by
    intro p hp; revert hp; revert p; decide
  exact ⟨h, by decide, denotes_mk _ h⟩

end Clubs
