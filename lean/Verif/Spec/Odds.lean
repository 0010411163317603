import Verif.Spec.Config
import Mathlib.Data.List.Sublists
import Mathlib.Algebra.Order.Ring.Rat

/-!
# Winning chances: vocabulary for C46
-/

namespace Clubs.Spec

/-- the number of community cards still to come -/
def toCome (d : Dealer) : Int := d.cfg.numCommunityCards.sum - d.communityCards.length

/-- the ways in which the board can be completed from the cards left in the deck -/
def boards (d : Dealer) : List (List Card) :=
  (List.sublistsLen (toCome d).toNat d.deck.cards).map fun extra => d.communityCards ++ extra

/-- the value of the hand of seat `i` with this board, lower is better; nothing for a seat that is out -/
def rankOn (d : Dealer) (board : List Card) (i : Nat) : Option Int :=
  if isIn d i then (d.cfg.evaluator.evaluate (d.holeCards.getD i []) board).toOption else none

/-- seat `i` is in, and nobody has a better hand with this board -/
def bestOn (d : Dealer) (board : List Card) (i : Nat) : Bool :=
  match rankOn d board i with
  | none => false
  | some v => (List.range d.cfg.numPlayers).all fun j =>
    match rankOn d board j with
    | none => true
    | some w => decide (v ≤ w)

/-- how many boards seat `i` wins, alone or with others -/
def timesBest (d : Dealer) (i : Nat) : Nat := (boards d).countP fun b => bestOn d b i

/-- how many seats win with this board -/
def numBest (d : Dealer) (board : List Card) : Nat := (List.range d.cfg.numPlayers).countP fun i => bestOn d board i

/-- the share of the pot that seat `i` can expect: on average over all boards, equally likely, tied players sharing -/
def equity (d : Dealer) (i : Nat) : Rat :=
  ((boards d).map fun b => if bestOn d b i then 1 / (numBest d b : Rat) else 0).sum / ((boards d).length : Rat)

end Clubs.Spec
