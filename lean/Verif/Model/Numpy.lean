import Verif.Model.Engine

/-!
# `engine_numpy.py`: the dealer on numpy arrays

A second implementation of `Dealer`, with the same attributes (`pot_commit` for `pot_commits`) and the same constructor;
the per-seat lists are arrays. The states are modelled by the same structure `Dealer`. `button` is not reduced modulo
the number of players by `reset`, so here it can be any number; `action` can be as large for a moment (in `reset` and at
the end of a street) until `_move_action` has run.

Functions whose text is the same as in `clubs/poker/engine.py` up to array notation are shared with that model and listed
here with their lines in `engine_numpy.py`; the others are written out. Array elements are unbounded integers here; for their
element type `int32` see `Model/Words` (C85).
-/

namespace Clubs.Numpy

/-- `__init__` (`engine_numpy.py:117-231`): the same as `engine.py:122-234` -/
def new (a : DealerArgs) (shuf : Shuffle) : Except Err Dealer := Dealer.new a shuf

/-- `np.roll(l, a)` (`engine_numpy.py:587`) for `a ≥ 0`: any shift is allowed -/
def npRoll {α : Type} (l : List α) (a : Nat) : List α := roll l (a % l.length)

/-- `_move_action` (`engine_numpy.py:704-713`): the same as `engine.py:737-746` -/
def moveAction (d : Dealer) : Dealer := d.moveAction

/-- `_bet_sizes` (`engine_numpy.py:542-568`): the same as `engine.py:545-572` -/
def betSizes (d : Dealer) : Except Err (Int × Int × Int) := d.betSizes

/-- `_collect_bet` (`engine_numpy.py:595-602`): the same as `engine.py:609-616` -/
def collectBet (d : Dealer) (bet : Int) : Dealer := d.collectBet bet

/-- `_observation` (`engine_numpy.py:611-629`): the same as `engine.py:627-645` -/
def observation (d : Dealer) (done : Bool) : Except Err Observation := d.observation done

/-- `_eval_hands` (`engine_numpy.py:643-658`): the same as `engine.py:672-687` -/
def evalHands (d : Dealer) (holeCards : List (List Card)) (communityCards : List Card) : Except Err (List Int) :=
  d.evalHands holeCards communityCards

/-- `_clean_bet` (`engine_numpy.py:571-582`): without the `max(0, bet)` of `engine.py:577`. `np.argmin` is the first
minimum, too. -/
def cleanBet (bet call minRaise maxRaise : Int) : Int :=
  let idx := argmin ([0, call, minRaise, maxRaise].map fun v => iabs (v - bet))
  if idx = 1 then call
  else if idx = 2 ∨ idx = 3 then min maxRaise (max minRaise bet)
  else 0

/-- `_collect_multiple_bets` (`engine_numpy.py:584-593`) -/
def collectMultipleBets (d : Dealer) (bets : List Int) (streetCommits : Bool) : Dealer :=
  let bets := npRoll bets (d.action.getD 0)
  let able := List.zipWith (fun (stack : Int) (active : Bool) => decide (stack > 0) && active) d.stacks d.active
  let bets := List.zipWith (fun (b : Bool) (bet : Int) => if b then bet else 0) able bets
  { d with
    streetCommits := if streetCommits then List.zipWith (· + ·) d.streetCommits bets else d.streetCommits
    potCommits := List.zipWith (· + ·) d.potCommits bets
    pot := d.pot + bets.sum
    stacks := List.zipWith (· - ·) d.stacks bets }

/-- `_all_agreed` (`engine_numpy.py:526-540`) -/
def allAgreed (d : Dealer) : Bool :=
  if !(d.streetOption.all id) then false
  else
    let streetCommits := d.streetCommits.map fun c => c == pyMax d.streetCommits
    let allIn := d.stacks.map fun s => s == 0
    let inactive := d.active.map fun a => !a
    (List.zipWith (· || ·) (List.zipWith (· || ·) streetCommits allIn) inactive).all id

/-- `_done` (`engine_numpy.py:604-609`): unlike `engine.py:625` a player without chips is not done -/
def done (d : Dealer) : List Bool :=
  if d.street ≥ d.cfg.numStreets ∨ countTrue d.active ≤ 1 then List.replicate d.cfg.numPlayers true
  else d.active.map fun a => !a

/-! ## showdown -/

/-- One iteration of the loop `engine_numpy.py:676-691` without `break`. Unlike `engine.py:712-713` nothing is skipped if
there are no chips to divide. -/
def potStep (worst : Int) (st : PotState) (idx : Nat) (h : Hand) : PotState :=
  let eligible := (st.hands.filter fun g => g.strength == h.strength).map (·.idx)
  let splitPot := (st.hands.map fun g => min g.commit h.commit).sum
  let split := splitPot / (eligible.length : Int)
  let remain := splitPot % (eligible.length : Int)
  { payouts := eligible.foldl (fun p i => p.modify i (· + split)) st.payouts
    remainder := st.remainder + remain
    hands := (st.hands.map fun g => { g with commit := g.commit - min g.commit h.commit }).modify
      idx (fun g => { g with strength := worst })
    pot := st.pot - splitPot }

/-- The loop `engine_numpy.py:676-691`, `fuel` iterations left, the next one has index `idx`. -/
def potLoop (worst : Int) : (fuel idx : Nat) → PotState → PotState
  | 0, _, st => st
  | fuel + 1, idx, st =>
    match st.hands[idx]? with
    | none => st
    | some h =>
      let st' := potStep worst st idx h
      if st'.pot = 0 then st' else potLoop worst fuel (idx + 1) st'

/-- `involved_players + button_shift` (`engine_numpy.py:696-697`) -/
def shifted (n button : Nat) (involved : List Nat) : List Int :=
  involved.map fun (i : Nat) => (i : Int) + (if i ≤ button then 1 else 0) * (n : Int)

/-- `engine_numpy.py:695-700`: the odd chips go to the first player with a payout after the button. `np.argmin` of an
empty array raises `ValueError`. -/
def oddChips (n button : Nat) (remainder : Int) (payouts : List Int) : Except Err (List Int) :=
  let involved := (List.range payouts.length).filter fun i => payouts.getD i 0 ≠ 0
  if involved = [] then .error .valueError
  else
    let worstIdx := argmin (shifted n button involved)
    let worstPos := involved.getD worstIdx 0
    .ok (payouts.modify worstPos (· + remainder))

/-- `_eval_round` (`engine_numpy.py:663-702`) for given hand strengths. `np.lexsort` with the columns commit and strength
sorts by `(strength, commit)` and is stable. -/
def potPayouts (n button : Nat) (worst pot : Int) (potCommits strengths : List Int) : Except Err (List Int) :=
  let hands := sortByKey ((strengths.zipIdx).map fun (s, i) =>
    { idx := i, strength := s, commit := potCommits.getD i 0 })
  let st := potLoop worst hands.length 0 { hands, pot, remainder := 0, payouts := List.replicate n 0 }
  if st.remainder ≠ 0 then oddChips n button st.remainder st.payouts else .ok st.payouts

/-- `_eval_round` (`engine_numpy.py:660-702`) -/
def evalRound (d : Dealer) : Except Err (List Int) :=
  match evalHands d d.holeCards d.communityCards with
  | .error e => .error e
  | .ok strengths => potPayouts d.cfg.numPlayers d.button d.worstHand d.pot d.potCommits strengths

/-- `_payouts` (`engine_numpy.py:631-641`) -/
def payouts (d : Dealer) : Except Err (List Int) :=
  let lost := List.zipWith (fun (c : Int) (a : Bool) => -1 * c * (if !a then 1 else 0)) d.potCommits d.active
  if countTrue d.active = 1 then
    .ok (List.zipWith (· + ·) lost
      (List.zipWith (fun (a : Bool) (c : Int) => (if a then 1 else 0) * (d.pot - c)) d.active d.potCommits))
  else if d.street ≥ d.cfg.numStreets then
    match evalRound d with
    | .error e => .error e
    | .ok p => .ok (List.zipWith (· - ·) p d.potCommits)
  else .ok lost

/-! ## `reset` and `step` -/

/-- `reset` (`engine_numpy.py:279-316`). `self.button + 1 % self.num_players` (`engine_numpy.py:291`) is
`self.button + (1 % self.num_players)`. -/
def reset (d : Dealer) (resetButton resetStacks : Bool) (shuf : Shuffle) : Dealer × Except Err Observation :=
  let n := d.cfg.numPlayers
  let d :=
    if resetStacks then
      { d with active := List.replicate n true, stacks := List.replicate n d.cfg.startStack }
    else { d with active := d.stacks.map fun s => decide (s > 0) }
  if !resetStacks ∧ countTrue d.active ≤ 1 then (d, .error .tooFewActivePlayers)
  else
    let d := { d with button := if resetButton then 0 else d.button + 1 % n }
    let d := { d with deck := d.deck.shuffle shuf }
    match d.cfg.numCommunityCards[0]? with
    | none => (d, .error .indexError)
    | some ncc =>
      let comm := d.deck.draw ncc
      let hole := dealHole d.cfg.numHoleCards n comm.2
      let d := { d with
        communityCards := comm.1
        history := []
        holeCards := hole.1
        deck := hole.2
        largestRaise := d.cfg.bigBlind
        pot := 0
        potCommits := List.replicate n 0
        street := 0
        streetCommits := List.replicate n 0
        streetOption := List.replicate n false
        streetRaises := 0
        action := some d.button }
      let d := if n > 2 then moveAction d else d
      let d := collectMultipleBets d d.cfg.antes false
      let d := collectMultipleBets d d.cfg.blinds true
      let d := moveAction d
      let d := moveAction d
      (d, observation d false)

/-- `self.active.sum() - all_in.sum() <= 1` (`engine_numpy.py:398-399`) -/
def allAllIn (d : Dealer) : Bool :=
  let allIn := List.zipWith (fun (active : Bool) (stack : Int) => active && stack == 0) d.active d.stacks
  decide ((countTrue d.active : Int) - (countTrue allIn : Int) ≤ 1)

/-- The loop `engine_numpy.py:395-406`; `num_streets + 1` iterations are enough, as in `engine.py:398-412`. -/
def dealStreets : (fuel : Nat) → Dealer → Dealer
  | 0, d => d
  | fuel + 1, d =>
    let d := { d with street := d.street + 1 }
    if d.street ≥ d.cfg.numStreets then d
    else
      let drawn := d.deck.draw (d.cfg.numCommunityCards.getD d.street 0)
      let d := { d with communityCards := d.communityCards ++ drawn.1, deck := drawn.2 }
      if !allAllIn d then d else dealStreets fuel d

/-- The block `engine_numpy.py:390-409` -/
def nextStreet (d : Dealer) : Dealer :=
  let d := { d with action := some d.button }
  let d := moveAction d
  let d := dealStreets (d.cfg.numStreets + 1) d
  { d with
    streetCommits := List.replicate d.cfg.numPlayers 0
    streetOption := d.active.map fun a => !a
    streetRaises := 0 }

/-- `engine_numpy.py:411-418` -/
def finish (d : Dealer) : Dealer × Except Err StepOut :=
  let dones := done d
  match payouts d with
  | .error e => (d, .error e)
  | .ok pays =>
    let d :=
      if dones.all id then
        { d with
          action := none
          pot := 0
          stacks := List.zipWith (· + ·) d.stacks (List.zipWith (· + ·) pays d.potCommits) }
      else d
    (d, match observation d (dones.all id) with
      | .error e => .error e
      | .ok obs => .ok (obs, pays, dones))

/-- `engine_numpy.py:372-387` for the bet size chosen by `_clean_bet` -/
def act (d : Dealer) (fold : Bool) (call bet : Int) : Dealer :=
  let folds := call ≠ 0 ∧ (bet < call ∨ fold = true)
  let d' := if folds then { d with active := d.active.set d.seat false } else d
  let bet := if folds then 0 else bet
  let d' :=
    if bet ≠ 0 ∧ bet - call ≥ d'.largestRaise then
      { d' with largestRaise := bet - call, streetRaises := d'.streetRaises + 1 }
    else d'
  let d' := collectBet d' bet
  let d' := { d' with
    history := d'.history ++ [(d'.seat, bet, fold)]
    streetOption := d'.streetOption.set d'.seat true }
  moveAction d'

/-- `step` (`engine_numpy.py:357-418`) -/
def step (d : Dealer) (bet : PyNum) : Dealer × Except Err StepOut :=
  match d.action with
  | none =>
    if d.active.any id then
      (d, match payouts d with
        | .error e => .error e
        | .ok pays =>
          match observation d ((done d).all id) with
          | .error e => .error e
          | .ok obs => .ok (obs, pays, done d))
    else (d, .error .tableReset)
  | some _ =>
    let fold := bet.isNeg
    match pyRound bet with
    | .error e => (d, .error e)
    | .ok bet =>
      match betSizes d with
      | .error e => (d, .error e)
      | .ok (call, minRaise, maxRaise) =>
        let bet := cleanBet bet call minRaise maxRaise
        let d := act d fold call bet
        let d := if allAgreed d then nextStreet d else d
        finish d

/-- `engine_numpy.py:515-523` for the ways `extras` to complete the board, with exact quotients instead of floats. `np.min(…,
axis=1)` of an empty list raises `AxisError`, `reshape(n, 1)` of an array of another length `ValueError`; `AxisError` is a
`ValueError`. -/
def frequencies (d : Dealer) (n : Int) (extras : List (List Card)) : Except Err (List Rat) :=
  match extras.mapM fun extra => evalHands d d.holeCards (d.communityCards ++ extra) with
  | .error e => .error e
  | .ok strengths =>
    if strengths = [] ∨ n ≠ strengths.length then .error .valueError
    else
      let won := (List.range d.cfg.numPlayers).map fun i => strengths.countP fun row => row.getD i 0 = pyMin row
      .ok (won.map fun (w : Nat) => (w : Rat) / ((won.sum : Nat) : Rat))

/-- `win_probabilities` (`engine_numpy.py:482-524`); `sample i` is what the call number `i` of `np.random.choice(self.deck.cards,
num_additional_comm_cards, replace=False)` returns. -/
def winProbabilities (d : Dealer) (n : Int) (sample : Nat → List Card) : Except Err (List Rat) :=
  let extra := d.cfg.numCommunityCards.sum - d.communityCards.length
  let combs := ncr d.deck.cards.length extra
  if combs < 1000 then
    match combinationsInt extra d.deck.cards with
    | .error e => .error e
    | .ok extras => frequencies d combs extras
  else frequencies d n ((List.range n.toNat).map sample)

end Clubs.Numpy
