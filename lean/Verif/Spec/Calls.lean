import Verif.Spec.Orbit

/-! Vocabulary of C102: hands in which everybody only calls. -/

namespace Clubs.Spec

/-- the call of seat `a`, as a bet -/
def callBet (d : Dealer) (a : Nat) : PyNum := .fin ((min (toCall d a) (stack d a) : Int) : Rat)

/-- `Called d0 d k`: from the table `d0` on, `k` times the player to act has called (or checked); `d` is the table now -/
inductive Called (d0 : Dealer) : Dealer → Nat → Prop
  | start : Called d0 d0 0
  | call {d d' : Dealer} {k a : Nat} {out : StepOut} (h : Called d0 d k) (ha : d.action = some a)
      (hs : d.step (callBet d a) = (d', .ok out)) : Called d0 d' (k + 1)

/-- the same with the array engine -/
inductive ArrayCalled (d0 : Dealer) : Dealer → Nat → Prop
  | start : ArrayCalled d0 d0 0
  | call {d d' : Dealer} {k a : Nat} {out : StepOut} (h : ArrayCalled d0 d k) (ha : d.action = some a)
      (hs : Numpy.step d (callBet d a) = (d', .ok out)) : ArrayCalled d0 d' (k + 1)

/-- what seat `i` has in the pot once it has answered the forced bets on the table `d0` -/
def answered (S : List Int) (d0 : Dealer) (i : Nat) : Int := min (S.getD i 0) (contribution d0 i + toCall d0 i)

end Clubs.Spec
