import Verif.Model.Numpy

/-!
# `engine_numpy.py` with the widths of its integers

`Model/Numpy` has unbounded integers. The arrays of `engine_numpy.py` have 32-bit elements: `pot_commit` and `street_commits` always
(`engine_numpy.py:217,222`), `stacks` until `reset(reset_stacks=True)` replaces it by an array of 64-bit elements (`engine_numpy.py:218-220,281`).
Here every number stored in these arrays is cut to its width. In-place operations like `self.stacks -= bets_arr` and assignments to
elements cut without an exception.

The width of single numbers depends on the version of NumPy: in `x + y` with a Python int and an `np.int32` the result has 64 bits in NumPy 1 and 32
bits in NumPy 2. What happens to the result of such an operation is therefore a parameter `sc`. 64-bit numbers are unbounded here, and the bet is
compared with the legal sizes without loss (`engine_numpy.py:574`). A Python int that does not fit into an element is cut by NumPy 1; NumPy 2
refuses it with an `OverflowError`, which is not modelled (no such number occurs where the chips are few).
-/

namespace Clubs.Numpy

/-- storing a number in an array of `np.int32`: the last 32 bits, with sign -/
def int32 (x : Int) : Int := (x + 2 ^ 31) % 2 ^ 32 - 2 ^ 31

/-- storing a number in `stacks`; `wide`: its elements have 64 bits -/
def stackWord (wide : Bool) (x : Int) : Int := if wide then x else int32 x

/-- An instance of `Dealer` of `engine_numpy.py` with the element type of `stacks`. -/
structure Machine where
  table : Dealer
  wide : Bool

/-- the arrays after an operation in place (`engine_numpy.py:590-593,600-602`): elements that did not change keep their value, as it is in range -/
def store (wide : Bool) (d : Dealer) : Dealer :=
  { d with
    streetCommits := d.streetCommits.map int32
    potCommits := d.potCommits.map int32
    stacks := d.stacks.map (stackWord wide) }

/-- `__init__` (`engine_numpy.py:117-231`): `np.full(…, self.start_stack, dtype=np.int32)` cuts the number -/
def newM (a : DealerArgs) (shuf : Shuffle) : Except Err Machine :=
  match new a shuf with
  | .error e => .error e
  | .ok d => .ok { table := store false d, wide := false }

/-- `_bet_sizes` (`engine_numpy.py:542-568`); the difference of two elements of `street_commits` has 32 bits -/
def betSizesM (sc : Int → Int) (d : Dealer) : Except Err (Int × Int × Int) :=
  let call := int32 (pyMax d.streetCommits - d.streetCommits.getD d.seat 0)
  let stack := d.stacks.getD d.seat 0
  match d.cfg.raiseSizes[d.street]? with
  | none => .error .indexError
  | some raiseSize =>
    let minMax : Int × Int := match raiseSize with
      | .int n => (sc (n + call), sc (n + call))
      | .pot => (max d.cfg.bigBlind (sc (d.largestRaise + call)), sc (d.pot + sc (call * 2)))
      | .inf => (max d.cfg.bigBlind (sc (d.largestRaise + call)), stack)
    match d.cfg.numRaises[d.street]? with
    | none => .error .indexError
    | some numRaises =>
      let minMax := if numRaises.reached d.streetRaises then (0, 0) else minMax
      let minMax := if d.streetRaises ≠ 0 ∧ call < d.largestRaise then (0, 0) else minMax
      .ok (min call stack, min minMax.1 stack, min minMax.2 stack)

/-- `_observation` (`engine_numpy.py:611-629`) -/
def observationM (sc : Int → Int) (d : Dealer) (done : Bool) : Except Err Observation :=
  match (if done then .ok (0, 0, 0) else betSizesM sc d : Except Err (Int × Int × Int)) with
  | .error e => .error e
  | .ok (call, minRaise, maxRaise) =>
    match pyGet d.holeCards (match d.action with | some a => (a : Int) | none => -1) with
    | .error e => .error e
    | .ok hole =>
      .ok { action := match d.action with | some a => (a : Int) | none => -1
            active := d.active, button := d.button, call, communityCards := d.communityCards
            holeCards := hole, maxRaise, minRaise, pot := d.pot, stacks := d.stacks
            streetCommits := d.streetCommits }

/-- `_collect_multiple_bets` (`engine_numpy.py:584-593`); `pot` is a Python int there -/
def collectMultipleM (wide : Bool) (d : Dealer) (bets : List Int) (streetCommits : Bool) : Dealer :=
  store wide (collectMultipleBets d bets streetCommits)

/-- `_collect_bet` (`engine_numpy.py:595-602`) -/
def collectBetM (sc : Int → Int) (wide : Bool) (d : Dealer) (bet : Int) : Dealer :=
  let d' := collectBet d bet
  store wide { d' with pot := sc d'.pot }

/-- `_payouts` (`engine_numpy.py:631-641`): `-1 * self.pot_commit` has 32-bit elements, and the amounts won are added in place; `_eval_round`
(`engine_numpy.py:660-702`) has 64-bit numbers -/
def payoutsM (d : Dealer) : Except Err (List Int) :=
  let lost := List.zipWith (fun (c : Int) (a : Bool) => int32 (-1 * c * (if !a then 1 else 0))) d.potCommits d.active
  if countTrue d.active = 1 then
    .ok (List.zipWith (fun x y => int32 (x + y)) lost
      (List.zipWith (fun (a : Bool) (c : Int) => (if a then 1 else 0) * (d.pot - c)) d.active d.potCommits))
  else if d.street ≥ d.cfg.numStreets then
    match evalRound d with
    | .error e => .error e
    | .ok p => .ok (List.zipWith (· - ·) p d.potCommits)
  else .ok lost

/-- `reset` (`engine_numpy.py:279-316`) -/
def resetM (sc : Int → Int) (m : Machine) (resetButton resetStacks : Bool) (shuf : Shuffle) : Machine × Except Err Observation :=
  let d := m.table
  let n := d.cfg.numPlayers
  let wide := m.wide || resetStacks
  let d :=
    if resetStacks then
      { d with active := List.replicate n true, stacks := List.replicate n d.cfg.startStack }
    else { d with active := d.stacks.map fun s => decide (s > 0) }
  if !resetStacks ∧ countTrue d.active ≤ 1 then ({ table := d, wide }, .error .tooFewActivePlayers)
  else
    let d := { d with button := if resetButton then 0 else d.button + 1 % n }
    let d := { d with deck := d.deck.shuffle shuf }
    match d.cfg.numCommunityCards[0]? with
    | none => ({ table := d, wide }, .error .indexError)
    | some ncc =>
      let comm := d.deck.draw ncc
      let hole := dealHole d.cfg.numHoleCards n comm.2
      let d := { d with
        communityCards := comm.1
        history := []
        holeCards := hole.1
        deck := hole.2
        largestRaise := d.cfg.bigBlind
        pot := 0
        potCommits := List.replicate n 0
        street := 0
        streetCommits := List.replicate n 0
        streetOption := List.replicate n false
        streetRaises := 0
        action := some d.button }
      let d := if n > 2 then moveAction d else d
      let d := collectMultipleM wide d d.cfg.antes false
      let d := collectMultipleM wide d d.cfg.blinds true
      let d := moveAction d
      let d := moveAction d
      ({ table := d, wide }, observationM sc d false)

/-- `engine_numpy.py:411-418` -/
def finishM (sc : Int → Int) (wide : Bool) (d : Dealer) : Dealer × Except Err StepOut :=
  let dones := done d
  match payoutsM d with
  | .error e => (d, .error e)
  | .ok pays =>
    let d :=
      if dones.all id then
        { d with
          action := none
          pot := 0
          stacks := (List.zipWith (· + ·) d.stacks (List.zipWith (· + ·) pays d.potCommits)).map (stackWord wide) }
      else d
    (d, match observationM sc d (dones.all id) with
      | .error e => .error e
      | .ok obs => .ok (obs, pays, dones))

/-- `engine_numpy.py:372-387` for the bet size chosen by `_clean_bet` -/
def actM (sc : Int → Int) (wide : Bool) (d : Dealer) (fold : Bool) (call bet : Int) : Dealer :=
  let folds := call ≠ 0 ∧ (bet < call ∨ fold = true)
  let d' := if folds then { d with active := d.active.set d.seat false } else d
  let bet := if folds then 0 else bet
  let d' :=
    if bet ≠ 0 ∧ sc (bet - call) ≥ d'.largestRaise then
      { d' with largestRaise := sc (bet - call), streetRaises := d'.streetRaises + 1 }
    else d'
  let d' := collectBetM sc wide d' bet
  let d' := { d' with
    history := d'.history ++ [(d'.seat, bet, fold)]
    streetOption := d'.streetOption.set d'.seat true }
  moveAction d'

/-- `step` (`engine_numpy.py:357-418`) -/
def stepM (sc : Int → Int) (m : Machine) (bet : PyNum) : Machine × Except Err StepOut :=
  let d := m.table
  match d.action with
  | none =>
    if d.active.any id then
      (m, match payoutsM d with
        | .error e => .error e
        | .ok pays =>
          match observationM sc d ((done d).all id) with
          | .error e => .error e
          | .ok obs => .ok (obs, pays, done d))
    else (m, .error .tableReset)
  | some _ =>
    let fold := bet.isNeg
    match pyRound bet with
    | .error e => (m, .error e)
    | .ok bet =>
      match betSizesM sc d with
      | .error e => (m, .error e)
      | .ok (call, minRaise, maxRaise) =>
        let bet := cleanBet bet call minRaise maxRaise
        let d := actM sc m.wide d fold call bet
        let d := if allAgreed d then nextStreet d else d
        let r := finishM sc m.wide d
        ({ m with table := r.1 }, r.2)

end Clubs.Numpy
