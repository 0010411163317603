import Verif.Spec.Hands
import Verif.Spec.Dealing
import Verif.Spec.Turn

/-!
# Renaming the suits: vocabulary for C84

`σ` renames the suits 0 … 3; `f` is what it does to cards.
-/

namespace Clubs.Spec

/-- `σ` gives the four suits different names -/
def SuitNames (σ : Nat → Nat) : Prop := (∀ u < 4, σ u < 4) ∧ ∀ u < 4, ∀ w < 4, σ u = σ w → u = w

/-- `f` turns every card into the card of the same rank and the new suit -/
def Renames (σ : Nat → Nat) (f : Card → Card) : Prop :=
  ∀ r < 13, ∀ u < 4, ∀ c, Card.new [rankSymbol r, suitLetter u] = .ok c → Card.new [rankSymbol r, suitLetter (σ u)] = .ok (f c)

/-- the table with other suits: in the hands, on the board and in what is left of the deck -/
def renameTable (f : Card → Card) (d : Dealer) : Dealer :=
  { d with
    communityCards := d.communityCards.map f
    deck := { d.deck with cards := d.deck.cards.map f }
    holeCards := d.holeCards.map (List.map f) }

/-- the observation with other suits -/
def renameView (f : Card → Card) (o : Observation) : Observation :=
  { o with communityCards := o.communityCards.map f, holeCards := o.holeCards.map f }

/-- the result of `step` with other suits: the same exception, the same payouts and done flags -/
def renameResult (f : Card → Card) (r : Except Err StepOut) : Except Err StepOut :=
  r.map fun o => (renameView f o.1, o.2)

end Clubs.Spec
