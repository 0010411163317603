import Verif.Spec.Dealing

/-!
# Hidden information: vocabulary for C47 and C48
-/

namespace Clubs.Spec

/-- the number of community cards still to be dealt in this hand -/
def toDeal (d : Dealer) : Nat := ((d.cfg.numCommunityCards.drop (d.street + 1)).map Int.toNat).sum

/-- `e` is the table `d` with other hole cards and another deck; the community cards to come are the same. Everything that
all players can see is the same, now and (if they bet the same) until the cards are shown. -/
structure Alike (d e : Dealer) : Prop where
  visible : e = { d with holeCards := e.holeCards, deck := e.deck }
  seats : e.holeCards.length = d.holeCards.length
  coming : e.deck.cards.take (toDeal d) = d.deck.cards.take (toDeal d)

/-- What player `p` is told while the hand is running and the bets `bets` are made: every time the payouts and done flags,
and the observation if it is addressed to `p` (who is to act next). -/
def told (p : Nat) : Dealer → List PyNum → List (Option Observation × List Int × List Bool)
  | _, [] => []
  | d, bet :: bets =>
    match d.step bet with
    | (_, .error _) => []
    | (d', .ok out) =>
      match d'.action with
      | none => []
      | some a => (if a = p then some out.1 else none, out.2) :: told p d' bets

end Clubs.Spec
