import Verif.Spec.Dealing
import Verif.Spec.Hands

/-!
# Constructor arguments: vocabulary for C44 and C45
-/

namespace Clubs.Spec

/-- A single value fits any number of players or streets, a list only its length. -/
def Fits1 {α : Type} (l : ListOr α) (n : Int) : Prop :=
  match l with
  | .scalar _ => True
  | .list l => (l.length : Int) = n

/-- every list argument has one entry for each player or street -/
def ListsFit (a : DealerArgs) : Prop :=
  Fits1 a.blinds a.numPlayers ∧ Fits1 a.antes a.numPlayers ∧ Fits1 a.raiseSizes a.numStreets ∧
    Fits1 a.numRaises a.numStreets ∧ Fits1 a.numCommunityCards a.numStreets

/-- `x` is what the argument says for seat (or street) `i` of `n` -/
def SaysAt {α : Type} (l : ListOr α) (n : Int) (i : Nat) (x : α) : Prop :=
  match l with
  | .scalar v => (i : Int) < n ∧ x = v
  | .list l => l[i]? = some x

/-- `l` has `n` entries, which are those the argument gives -/
def Expands {α : Type} (arg : ListOr α) (n : Int) (l : List α) : Prop :=
  l.length = n.toNat ∧ ∀ i x, l[i]? = some x ↔ SaysAt arg n i x

/-- the number of all community cards -/
def fullBoard (c : Config) : Nat := (c.numCommunityCards.map Int.toNat).sum

/-- At the end of the last street everybody who is still in has the cards for a hand: `num_cards_for_hand` cards, or, if
`m` hole cards must be used, `m` hole cards and the rest on the board. -/
def HandsFit (c : Config) : Prop :=
  if c.mandatoryNumHoleCards = 0 then c.numCardsForHand ≤ c.numHoleCards.toNat + fullBoard c
  else (0 ≤ c.mandatoryNumHoleCards ∧ c.mandatoryNumHoleCards ≤ c.numCardsForHand) ∧
    c.mandatoryNumHoleCards ≤ c.numHoleCards.toNat ∧ c.numCardsForHand - c.mandatoryNumHoleCards ≤ fullBoard c

/-- The evaluator of the table is the one for the table's cards, with a class order that is sound (`GoodOrder`). -/
def GoodEvaluator (c : Config) : Prop :=
  ∃ low order, Evaluator.new c.numSuits c.numRanks c.numCardsForHand c.mandatoryNumHoleCards low order = .ok c.evaluator ∧
    GoodOrder c.numSuits.toNat c.numRanks.toNat c.numCardsForHand.toNat low order

end Clubs.Spec
