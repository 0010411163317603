import Verif.Spec.Numpy

/-! Vocabulary of C103: what a player can be sure of, whatever the others do. -/

namespace Clubs.Spec

/-- `Keeps i P d0 d`: from the table `d0` on any bets were made, by anybody, but whenever seat `i` was to act its bet was one that `P` allows;
`d` is the table now. (Bets that raise exceptions included.) -/
inductive Keeps (i : Nat) (P : Dealer → PyNum → Prop) (d0 : Dealer) : Dealer → Prop
  | start : Keeps i P d0 d0
  | step {d : Dealer} (bet : PyNum) (h : Keeps i P d0 d) (hp : d.action = some i → P d bet) : Keeps i P d0 (d.step bet).1

/-- the same with the array engine -/
inductive ArrayKeeps (i : Nat) (P : Dealer → PyNum → Prop) (d0 : Dealer) : Dealer → Prop
  | start : ArrayKeeps i P d0 d0
  | step {d : Dealer} (bet : PyNum) (h : ArrayKeeps i P d0 d) (hp : d.action = some i → P d bet) : ArrayKeeps i P d0 (Numpy.step d bet).1

/-- zero or less -/
def BetsNothing (_ : Dealer) : PyNum → Prop
  | .fin q => q ≤ 0
  | .negInf => True
  | .posInf => False
  | .nan => False

/-- not negative, and at least the call of seat `i` -/
def MeetsCall (i : Nat) (d : Dealer) : PyNum → Prop
  | .fin q => 0 ≤ q ∧ ((min (toCall d i) (stack d i) : Int) : Rat) ≤ q
  | .posInf => True
  | .negInf => False
  | .nan => False

end Clubs.Spec
