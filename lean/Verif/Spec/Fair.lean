import Verif.Spec.Odds
import Mathlib.Data.List.Permutation
import Mathlib.Data.Nat.Factorial.Basic

/-!
# Chances, if all orders of the deck are equally likely: vocabulary for C92
-/

namespace Clubs.Spec

/-- all orders of the cards of the game -/
def orders (d : Dealer) : List (List Card) := d.deck.fullDeck.permutations

/-- a random generator that brings the cards in this order -/
def toOrder (o : List Card) : Shuffle := fun l => if l.isPerm o then o else l

/-- the part of the possibilities `os` for which `p` is true -/
def chance (os : List (List Card)) (p : List Card → Bool) : Rat := (os.countP p : Rat) / (os.length : Rat)

/-- the number of cards of the game -/
def deckSize (c : Config) : Nat := (c.numSuits * c.numRanks).toNat

/-- as many hands as players, all of the size of the game -/
def HandsShape (c : Config) (hands : List (List Card)) : Prop :=
  hands.length = c.numPlayers ∧ ∀ hand ∈ hands, hand.length = c.numHoleCards.toNat

/-- different cards of the game -/
def GameCards (c : Config) (cards : List Card) : Prop := cards.Nodup ∧ ∀ x ∈ cards, InGame c x

/-- the part of the orders of the remaining deck with which seat `i` has the best hand when the board is completed from the top,
alone or with others -/
def chanceBest (d : Dealer) (i : Nat) : Rat :=
  chance d.deck.cards.permutations fun o => bestOn d (d.communityCards ++ o.take (toCome d).toNat) i

end Clubs.Spec
