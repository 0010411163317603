import Verif.Model.Evaluator
import Mathlib.Data.Nat.Choose.Basic
import Mathlib.Data.Finset.Powerset

/-! Helper lemmas: `_ncr` is the binomial coefficient. -/

namespace Clubs

theorem foldl_mul_desc (n r : Nat) (h : r ≤ n) :
    ((List.range r).map fun (i : Nat) => (n : Int) - (i : Int)).foldl (· * ·) 1
      = (n.descFactorial r : Int) := by
  induction r with
  | zero => simp
  | succ r ih =>
    rw [List.range_succ, List.map_append, List.foldl_append, ih (by omega)]
    simp only [List.map_cons, List.map_nil, List.foldl_cons, List.foldl_nil]
    rw [Nat.descFactorial_succ, Nat.mul_comm]
    push_cast [show r ≤ n by omega]
    rfl

theorem foldl_mul_fact (r : Nat) :
    ((List.range r).map fun (i : Nat) => (i : Int) + 1).foldl (· * ·) 1 = (r.factorial : Int) := by
  induction r with
  | zero => simp
  | succ r ih =>
    rw [List.range_succ, List.map_append, List.foldl_append, ih]
    simp only [List.map_cons, List.map_nil, List.foldl_cons, List.foldl_nil]
    rw [Nat.factorial_succ, Nat.mul_comm]
    push_cast
    rfl

theorem ncr_eq_choose (n r : Nat) (h : r ≤ n) : ncr n r = (n.choose r : Int) := by
  have key : ∀ k : Nat, k ≤ n → ((n.descFactorial k : Nat) : Int) / ((k.factorial : Nat) : Int)
      = (n.choose k : Int) := by
    intro k _
    rw [Nat.choose_eq_descFactorial_div_factorial]
    simp
  unfold ncr
  by_cases hr : (r : Int) ≤ (n : Int) - (r : Int)
  · simp only [min_eq_left hr, Int.toNat_natCast]
    rw [foldl_mul_desc n r h, foldl_mul_fact, key r h]
  · have e : (n : Int) - (r : Int) = ((n - r : Nat) : Int) := by omega
    rw [min_eq_right (by omega), e]
    simp only [Int.toNat_natCast]
    rw [foldl_mul_desc n (n - r) (by omega), foldl_mul_fact, key _ (by omega), Nat.choose_symm h]

end Clubs
