import Verif.Spec.Numpy

/-! Vocabulary of C104: players who have lost all their chips. -/

namespace Clubs.Spec

/-- seat `i` takes no part in the hand: it is not in, it is not to act, it has put in nothing and it has made no bet -/
structure SitsOut (i : Nat) (d : Dealer) : Prop where
  out : ¬ isIn d i
  turn : d.action ≠ some i
  chips : contribution d i = 0
  bets : ∀ e ∈ d.history, e.1 ≠ i

/-- With the array engine, from the table `d0` on: any bets, and any hands dealt without `reset_stacks` to players of whom each has no chips or
enough for blind and ante. -/
inductive ArrayOnward (d0 : Dealer) : Dealer → Prop
  | start : ArrayOnward d0 d0
  | step {d : Dealer} (bet : PyNum) (h : ArrayOnward d0 d) : ArrayOnward d0 (Numpy.step d bet).1
  | next {d d' : Dealer} {rb : Bool} {shuf : Shuffle} {obs : Observation} (h : ArrayOnward d0 d) (hs : IsShuffle shuf)
      (hn : NonNegative d.stacks d.cfg) (hc : Covers d.stacks d.cfg) (hr : Numpy.reset d rb false shuf = (d', .ok obs)) : ArrayOnward d0 d'

end Clubs.Spec
