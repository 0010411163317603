import Mathlib.Data.List.Rotate
import Verif.Spec.Showdown

/-!
# Turning the table: vocabulary for C82

All players move `k` seats down (the player of seat `k` gets seat 0), together with their chips, their cards, the button and the turn.
-/

namespace Clubs.Spec

/-- where the player of seat `a` of `n` seats sits afterwards -/
def turnSeat (n k a : Nat) : Nat := (a + (n - k % n)) % n

/-- the table afterwards; blinds and antes belong to positions counted from the button, not to seats -/
def turnTable (k : Nat) (d : Dealer) : Dealer :=
  { d with
    action := d.action.map (turnSeat d.cfg.numPlayers k)
    active := d.active.rotate k
    button := turnSeat d.cfg.numPlayers k d.button
    history := d.history.map fun h => (turnSeat d.cfg.numPlayers k h.1, h.2)
    holeCards := d.holeCards.rotate k
    potCommits := d.potCommits.rotate k
    «stacks» := d.stacks.rotate k
    streetCommits := d.streetCommits.rotate k
    streetOption := d.streetOption.rotate k }

/-- `o'` shows the turned table to the same player as `o`. When no hand is running, an observation shows the cards of the last seat, so
nothing is said about them. -/
structure SameView (n k : Nat) (o o' : Observation) : Prop where
  action : o'.action = if o.action < 0 then o.action else (turnSeat n k o.action.toNat : Int)
  active : o'.active = o.active.rotate k
  button : o'.button = turnSeat n k o.button
  call : o'.call = o.call
  communityCards : o'.communityCards = o.communityCards
  holeCards : 0 ≤ o.action → o'.holeCards = o.holeCards
  maxRaise : o'.maxRaise = o.maxRaise
  minRaise : o'.minRaise = o.minRaise
  pot : o'.pot = o.pot
  «stacks» : o'.stacks = o.stacks.rotate k
  streetCommits : o'.streetCommits = o.streetCommits.rotate k

/-- the result of the turned call: the same exception, or the same observation, payouts and done flags for the same players -/
def SameResult (n k : Nat) : Except Err StepOut → Except Err StepOut → Prop
  | .error e, .error e' => e' = e
  | .ok (o, p, f), .ok (o', p', f') => SameView n k o o' ∧ p' = p.rotate k ∧ f' = f.rotate k
  | _, _ => False

/-- A showdown that the engine pays correctly: the pot is clear and divides without odd chips. Other ends of a hand are fine. -/
def CleanEnd (d : Dealer) : Prop := AtShowdown d → ∃ s, Ranks d s ∧ ClearPot d s ∧ oddAt d s = 0

/-- the table after the bets -/
def afterBets (d : Dealer) (bets : List PyNum) : Dealer := bets.foldl (fun e b => (e.step b).1) d

end Clubs.Spec
