import Verif.Model.Engine

/-! # The example programs of the project -/

namespace Clubs

/-- what `random` yields in one turn: the result of `random.random()`, and what `random.randint` picks -/
structure Chance where
  rand : Rat
  pick : Nat

/-- `random.randint(a, b)` (`README.md:43`): raises `ValueError` if there is no integer between `a` and `b`; otherwise, every integer from
`a` to `b` is the result for some `pick`. -/
def randint (a b : Int) (pick : Nat) : Except Err Int :=
  if b < a then .error .valueError else .ok (a + (pick : Int) % (b - a + 1))

/-- how `README.md:33-43` chooses a bet -/
def readmeBet (obs : Observation) (r : Chance) : Except Err Int :=
  if r.rand < 1 / 10 then .ok 0
  else if r.rand < 80 / 100 then .ok obs.call
  else randint obs.minRaise obs.maxRaise r.pick

/-- how `example.py:18-31` chooses a bet -/
def exampleBet (obs : Observation) (r : Chance) : Except Err Int :=
  if r.rand < 15 / 100 then .ok 0
  else if r.rand < 95 / 100 then .ok obs.call
  else .ok obs.minRaise

/-- The loops `README.md:32-47` and `example.py:16-39` (without rendering and sleeping), with `fuel` turns at most (`none` if that is not enough).
The result is what is printed, or the exception that ends the program. -/
def playLoop (choose : Observation → Chance → Except Err Int) (chance : Nat → Chance) :
    Nat → Nat → Dealer → Observation → Option (Except Err (List Int))
  | 0, _, _, _ => none
  | fuel + 1, turn, d, obs =>
    match choose obs (chance turn) with
    | .error e => some (.error e)
    | .ok bet =>
      match d.step (.fin bet) with
      | (_, .error e) => some (.error e)
      | (d, .ok (obs, rewards, done)) =>
        if done.all id then some (.ok rewards) else playLoop choose chance fuel (turn + 1) d obs

/-- `README.md:28-49` and `example.py:9-41`: construct the dealer, reset it, run the loop. The two shuffles are those of the
constructor and of `reset`. Both programs call `dealer.reset()`, that is, `resetButton` is `false`; `true` is a variation. -/
def program (config : DealerArgs) (choose : Observation → Chance → Except Err Int) (resetButton : Bool) (shuf shuf' : Shuffle)
    (chance : Nat → Chance) (fuel : Nat) : Option (Except Err (List Int)) :=
  match Dealer.new config shuf with
  | .error e => some (.error e)
  | .ok d =>
    match d.reset resetButton false shuf' with
    | (_, .error e) => some (.error e)
    | (d, .ok obs) => playLoop choose chance fuel 0 d obs

end Clubs
