import Verif.Spec.Numpy
import Verif.Spec.Turn

/-!
# Players without a decision, larger bets, and the account of a hand: vocabulary for C93, C94 and C95
-/

namespace Clubs.Spec

/-- The tables are the same, except perhaps for what is recorded in the history. -/
def SameButHistory (d e : Dealer) : Prop := { d with history := [] } = { e with history := [] }

/-- who acted and the chips they put in, without the flags -/
def movesOf (d : Dealer) : List (Nat × Int) := d.history.map fun m => (m.1, m.2.1)

/-- the chips seat `i` has put in according to a history -/
def putIn (moves : List (Nat × Int × Bool)) (i : Nat) : Int := ((moves.filter fun m => m.1 = i).map fun m => m.2.1).sum

/-- the chips all players together have put in according to a history -/
def allPutIn (moves : List (Nat × Int × Bool)) : Int := (moves.map fun m => m.2.1).sum

end Clubs.Spec
