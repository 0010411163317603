import Verif.Model.Evaluator
import Verif.Model.Deck

/-! # `clubs/poker/evaluator.py`: `Evaluator.speed_test`, and the program `speed_test.py` -/

namespace Clubs

/-- one evaluation inside `speed_test`: the arguments and the result -/
structure Trial where
  hole : List Card
  comm : List Card
  value : Int
  deriving DecidableEq

/-- The loop `evaluator.py:175-178`. `clock k` is what the `k`-th call of `timer()` returns; times are rational numbers, not
floating-point numbers. The evaluations are recorded (the code forgets them). -/
def speedLoop (e : Evaluator) (clock : Nat → Rat) : Nat → Nat → Deck → Rat → Except Err (Rat × List Trial)
  | 0, _, _, time => .ok (time, [])
  | n + 1, k, deck, time =>
    let start := clock (2 * k)
    let (hole, deck) := deck.draw 2
    let (comm, deck) := deck.draw 5
    match e.evaluate hole comm with
    | .error err => .error err
    | .ok v =>
      match speedLoop e clock n (k + 1) deck (time + (clock (2 * k + 1) - start)) with
      | .error err => .error err
      | .ok (time, log) => .ok (time, ⟨hole, comm, v⟩ :: log)

/-- `Evaluator.speed_test` (`evaluator.py:159-181`): the average, and the recorded evaluations. `shuf` is the shuffle of the new deck
(172). -/
def Evaluator.speedTest (e : Evaluator) (n : Int) (shuf : Shuffle) (clock : Nat → Rat) : Except Err (Rat × List Trial) :=
  match Deck.new e.suits e.ranks shuf with
  | .error err => .error err
  | .ok deck =>
    match speedLoop e clock n.toNat 0 deck 0 with
    | .error err => .error err
    | .ok (time, log) => if n = 0 then .error .zeroDivision else .ok (time / n, log)

/-- `speed_test.py:4-8` and `README.md:100-106`: the two printed numbers, and the recorded evaluations. The default of `n` is
`evaluator.py:159`. -/
def speedProgram (shuf : Shuffle) (clock : Nat → Rat) : Except Err ((Rat × Rat) × List Trial) :=
  match Evaluator.new 4 13 5 0 true none with
  | .error err => .error err
  | .ok e =>
    match e.speedTest 100000 shuf clock with
    | .error err => .error err
    | .ok (avg, log) => if avg = 0 then .error .zeroDivision else .ok ((avg, 1 / avg), log)

end Clubs
