import Verif.Spec.Table

/-!
# Which raises a table should offer: vocabulary for C59

`full` is the largest raise of the hand so far and the number of full raises on this street (`raises`), `call` what is
missing to the highest bet.
-/

namespace Clubs.Spec

/-- a raise is allowed: the number of raises of the street is not used up, and there was no raise on this street yet or what
is to be called is at least the last full raise -/
def MayRaise (limit : NumRaises) (full : Int × Nat) (call : Int) : Prop :=
  (∀ m, limit = .fin m → (full.2 : Int) < m) ∧ (full.2 = 0 ∨ full.1 ≤ call)

/-- the smallest raise, all chips being available: the fixed amount above the call; without fixed amounts the last full raise
above the call, but not less than a big blind -/
def leastRaise (c : Config) (r : RaiseSize) (full : Int × Nat) (call : Int) : Int :=
  match r with
  | .int n => call + n
  | .pot | .inf => max c.bigBlind (call + full.1)

/-- the largest raise, all chips being available (`none`: no limit): the fixed amount above the call, or the pot after the
call on top of the call -/
def mostRaise (r : RaiseSize) (pot call : Int) : Option Int :=
  match r with
  | .int n => some (call + n)
  | .pot => some (call + (pot + call))
  | .inf => none

end Clubs.Spec
