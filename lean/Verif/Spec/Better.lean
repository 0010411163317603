import Verif.Spec.Showdown

/-!
# Better cards: vocabulary for C89

Lower values are better hands.
-/

namespace Clubs.Spec

/-- player `j` has a hand that is at least as good with `s'` as with `s`; the hands of the others have the same values -/
def Improves (j : Nat) (s s' : Nat → Int) : Prop := s' j ≤ s j ∧ ∀ i, i ≠ j → s' i = s i

/-- two tables that differ at most in the cards: in the hands, on the board and in the deck -/
def SameButCards (d e : Dealer) : Prop :=
  e = { d with communityCards := e.communityCards, deck := e.deck, holeCards := e.holeCards }

end Clubs.Spec
