import Verif.Spec.Numpy

/-! Vocabulary of C101: how often players are asked. -/

namespace Clubs.Spec

/-- the player put in more than it takes to call -/
def IsRaise (m : Move) : Prop := m.call < m.chips

instance (m : Move) : Decidable (IsRaise m) := inferInstanceAs (Decidable (m.call < m.chips))

/-- number of actions and of raises on a street -/
def movesOn (street : Nat) (ms : List Move) : Nat := ms.countP fun m => m.street = street
def raisesOn (street : Nat) (ms : List Move) : Nat := ms.countP fun m => m.street = street ∧ IsRaise m

/-- number of raises of a hand -/
def numRaised (ms : List Move) : Nat := ms.countP fun m => IsRaise m

/-- `HandTrace` for the array engine -/
inductive ArrayTrace : List Int → Dealer → List Move → Prop
  | dealt {d d' : Dealer} {rb rs : Bool} {shuf : Shuffle} {obs : Observation} (hd : Seated (atSeat d))
      (hs : IsShuffle shuf) (h : Numpy.reset d rb rs shuf = (d', .ok obs)) : ArrayTrace (startStacks d rs) d' []
  | step {start : List Int} {d d' : Dealer} {ms : List Move} {a : Nat} {bet : PyNum} {out : StepOut}
      (h : ArrayTrace start d ms) (ha : d.action = some a) (hs : Numpy.step d bet = (d', .ok out)) :
      ArrayTrace start d' (ms ++ [⟨d.street, a, min (toCall d a) (stack d a), moved d d' a⟩])

end Clubs.Spec
