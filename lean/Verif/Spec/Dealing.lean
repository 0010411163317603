import Verif.Spec.Table

/-!
# Dealing the cards: vocabulary for C39–C43
-/

namespace Clubs.Spec

/-- all cards at the table: in the players' hands, on the board, in the deck -/
def allCards (d : Dealer) : List Card := d.holeCards.flatten ++ d.communityCards ++ d.deck.cards

/-- the number of community cards on a street (a negative entry of `num_community_cards` means no cards) -/
def boardSize (c : Config) (street : Nat) : Nat := ((c.numCommunityCards.take (street + 1)).map Int.toNat).sum

/-- the deck suffices for all hole cards and all community cards -/
def Enough (c : Config) : Prop :=
  (c.numPlayers * c.numHoleCards.toNat + (c.numCommunityCards.map Int.toNat).sum : Nat) ≤ c.numSuits * c.numRanks

/-- `card` is one of the cards of a game with `numSuits` suits and `numRanks` ranks: the highest ranks and the first suits -/
def InGame (c : Config) (card : Card) : Prop :=
  ∃ k u : Nat, (13 - c.numRanks ≤ k ∧ k < 13) ∧ u < c.numSuits ∧ Card.new [rankSymbol k, suitLetter u] = .ok card

/-- clockwise distance from seat `s` to seat `i` -/
def distance (n s i : Nat) : Nat := (i + n - s) % n

end Clubs.Spec
