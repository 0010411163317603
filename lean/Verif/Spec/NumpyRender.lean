import Verif.Spec.Ascii
import Verif.Spec.Numpy

/-!
# What the picture of a table of the array engine has to show
-/

namespace Clubs.Spec

/-- the hand is over: all streets have been played or at most one player is left -/
def HandOver (d : Dealer) : Prop := d.cfg.numStreets ≤ d.street ∨ numIn d ≤ 1

/-- the text for the cards of seat `i`: dashes for players who are not in, the cards of the player to act and, after the hand, of
everybody, question marks otherwise -/
def ArrayCardText (d : Dealer) (i : Nat) (t : Str) : Prop :=
  (¬ isIn d i ∧ t = join ",".toList (List.replicate d.cfg.numHoleCards.toNat "--".toList)) ∨
  (isIn d i ∧ (HandOver d ∨ d.action = some i) ∧ t = join ",".toList ((d.holeCards.getD i []).map Card.str)) ∨
  (isIn d i ∧ ¬ HandOver d ∧ d.action ≠ some i ∧ t = join ",".toList (List.replicate d.cfg.numHoleCards.toNat "??".toList))

/-- the text for the player at seat `i` -/
def ArraySeatText (d : Dealer) (i : Nat) (t : Str) : Prop :=
  ∃ cards amount, t = pad .right 2 (decimal (i + 1)) ++ ". ".toList ++ cards ++ " ".toList ++ amount ∧ ArrayCardText d i cards ∧
    Amount amount (stack d i)

end Clubs.Spec
