import Verif.Model.Deck
import Verif.Model.Evaluator

/-!
# `clubs/poker/engine.py`: `Dealer`

A method that assigns to `self` is a function from `Dealer` to `Dealer`; if it can raise, it returns
the dealer as it was left next to an `Except`. `self.action == -1` ("no hand is running") is
`action = none`. The per-seat lists of the code are created with `num_players` elements
(`engine.py:206-227`) and are never resized, so a seat number always indexes them; `getD` is used for
these look-ups. Lists whose index can be out of range use look-ups that return `IndexError`.

Not modelled: that observations share list objects with the dealer (`engine.py:632-644`).
-/

namespace Clubs

/-! ## configuration -/

/-- An element of `self.raise_sizes` after `clean_rs` (`engine.py:194`). -/
inductive RaiseSize
  | int (n : Int)
  | pot
  | inf
  deriving DecidableEq, Repr

/-- An element of `self.num_raises` (`engine.py:195`): a float. A finite number `q` is only ever
compared with an integer by `>=`, so it is represented by the integer `⌈q⌉`. -/
inductive NumRaises
  | fin (n : Int)
  | inf
  deriving DecidableEq, Repr

/-- The configuration attributes of `Dealer` (`engine.py:189-202`) and the evaluator
(`engine.py:210`), which no method assigns to after the constructor. -/
structure Config where
  numPlayers : Nat
  numStreets : Nat
  blinds : List Int
  antes : List Int
  bigBlind : Int
  raiseSizes : List RaiseSize
  numRaises : List NumRaises
  numSuits : Int
  numRanks : Int
  numHoleCards : Int
  numCommunityCards : List Int
  numCardsForHand : Int
  mandatoryNumHoleCards : Int
  startStack : Int
  evaluator : Evaluator

/-- An instance of `Dealer` (`engine.py:204-227`). -/
structure Dealer where
  cfg : Config
  action : Option Nat
  active : List Bool
  button : Nat
  communityCards : List Card
  deck : Deck
  history : List (Nat × Int × Bool)
  holeCards : List (List Card)
  largestRaise : Int
  pot : Int
  potCommits : List Int
  stacks : List Int
  street : Nat
  streetCommits : List Int
  streetOption : List Bool
  streetRaises : Int

/-- `ObservationDict` (`engine.py:15-26`) -/
structure Observation where
  action : Int
  active : List Bool
  button : Nat
  call : Int
  communityCards : List Card
  holeCards : List Card
  maxRaise : Int
  minRaise : Int
  pot : Int
  stacks : List Int
  streetCommits : List Int
  deriving DecidableEq, Repr

/-- The seat that `xs[self.action]` refers to: index `-1` is the last seat. -/
def Dealer.seat (d : Dealer) : Nat := d.action.getD (d.cfg.numPlayers - 1)

/-! ## helpers -/

/-- `argmin` (`engine.py:749-756`): index of the first minimum. The start value `inf` is `none`. -/
def argminLoop : List Int → Nat → Option Int → Nat → Nat
  | [], _, _, minimumIdx => minimumIdx
  | v :: vs, idx, minimum, minimumIdx =>
    let smaller := match minimum with
      | none => true
      | some m => decide (v < m)
    if smaller then argminLoop vs (idx + 1) (some v) idx
    else argminLoop vs (idx + 1) minimum minimumIdx

/-- `argmin` (`engine.py:749-756`) -/
def argmin (values : List Int) : Nat := argminLoop values 0 none 0

/-- `abs` of an int -/
def iabs (x : Int) : Int := if x < 0 then -x else x

/-- `Dealer._clean_bet` (`engine.py:574-587`); its `round` is applied to an int. -/
def cleanBet (bet call minRaise maxRaise : Int) : Int :=
  let bet := max 0 bet
  let idx := argmin ([0, call, minRaise, maxRaise].map fun v => iabs (v - bet))
  if idx = 1 then call
  else if idx = 2 ∨ idx = 3 then min maxRaise (max minRaise bet)
  else 0

/-- `self.street_raises >= self.num_raises[...]` for a finite or infinite right-hand side
(`engine.py:561`) -/
def NumRaises.reached (n : NumRaises) (streetRaises : Int) : Bool :=
  match n with
  | .fin m => decide (streetRaises ≥ m)
  | .inf => false

/-- `Dealer._bet_sizes` (`engine.py:545-572`): `(call, min_raise, max_raise)`. The lists
`raise_sizes` and `num_raises` have `num_streets` elements. -/
def Dealer.betSizes (d : Dealer) : Except Err (Int × Int × Int) :=
  let call := pyMax d.streetCommits - d.streetCommits.getD d.seat 0
  let stack := d.stacks.getD d.seat 0
  match d.cfg.raiseSizes[d.street]? with
  | none => .error .indexError
  | some raiseSize =>
    let minMax : Int × Int := match raiseSize with
      | .int n => (n + call, n + call)
      | .pot => (max d.cfg.bigBlind (d.largestRaise + call), d.pot + call * 2)
      | .inf => (max d.cfg.bigBlind (d.largestRaise + call), stack)
    match d.cfg.numRaises[d.street]? with
    | none => .error .indexError
    | some numRaises =>
      let minMax := if numRaises.reached d.streetRaises then (0, 0) else minMax
      let minMax := if d.streetRaises ≠ 0 ∧ call < d.largestRaise then (0, 0) else minMax
      .ok (min call stack, min minMax.1 stack, min minMax.2 stack)

/-- The loop of `Dealer._move_action` (`engine.py:739-744`): `fuel` iterations are left, the next one
has index `idx`. Result: the new `action` and `street_option`. -/
def moveLoop (n start : Nat) (active : List Bool) :
    (fuel idx action : Nat) → (streetOption : List Bool) → Nat × List Bool
  | 0, _, action, opt => (action, opt)
  | fuel + 1, idx, _, opt =>
    let action := (start + idx) % n
    if active.getD action false then (action, opt)
    else moveLoop n start active fuel (idx + 1) action (opt.set action true)

/-- `Dealer._move_action` (`engine.py:737-746`). It is only called with `self.action ≥ 0`. -/
def Dealer.moveAction (d : Dealer) : Dealer :=
  let r := moveLoop d.cfg.numPlayers d.seat d.active d.cfg.numPlayers 1 d.seat d.streetOption
  { d with action := some r.1, streetOption := r.2 }

/-- `Dealer._collect_bet` (`engine.py:609-616`) -/
def Dealer.collectBet (d : Dealer) (bet : Int) : Dealer :=
  let bet := min (d.stacks.getD d.seat 0) bet
  { d with
    pot := d.pot + bet
    potCommits := d.potCommits.modify d.seat (· + bet)
    streetCommits := d.streetCommits.modify d.seat (· + bet)
    stacks := d.stacks.modify d.seat (· - bet) }

/-- `bets` as computed at `engine.py:593-597` -/
def Dealer.forcedBets (d : Dealer) (bets : List Int) : List Int :=
  let bets := roll bets d.seat
  (d.stacks.zip (d.active.zip bets)).map fun (stack, active, bet) =>
    if stack > 0 ∧ active then bet else 0

/-- `Dealer._collect_multiple_bets` (`engine.py:589-607`) -/
def Dealer.collectMultipleBets (d : Dealer) (bets : List Int) (streetCommits : Bool) : Dealer :=
  let bets := d.forcedBets bets
  { d with
    streetCommits :=
      if streetCommits then List.zipWith (· + ·) d.streetCommits bets else d.streetCommits
    pot := d.pot + bets.sum
    potCommits := List.zipWith (· + ·) d.potCommits bets
    stacks := List.zipWith (· - ·) d.stacks bets }

/-- `Dealer._all_agreed` (`engine.py:526-543`) -/
def Dealer.allAgreed (d : Dealer) : Bool :=
  if !(d.streetOption.all id) then false
  else
    let streetCommit := d.streetCommits.map fun c => c == pyMax d.streetCommits
    let allIn := d.stacks.map fun s => s == 0
    let folded := d.active.map fun a => !a
    (List.zipWith (· || ·) (List.zipWith (· || ·) streetCommit allIn) folded).all id

/-- `Dealer._done` (`engine.py:618-625`) -/
def Dealer.done (d : Dealer) : List Bool :=
  if d.street ≥ d.cfg.numStreets ∨ countTrue d.active ≤ 1 then List.replicate d.cfg.numPlayers true
  else List.zipWith (fun active stack => !active || stack == 0) d.active d.stacks

/-- `Dealer._observation` (`engine.py:627-645`) -/
def Dealer.observation (d : Dealer) (done : Bool) : Except Err Observation :=
  match (if done then .ok (0, 0, 0) else d.betSizes : Except Err (Int × Int × Int)) with
  | .error e => .error e
  | .ok (call, minRaise, maxRaise) =>
    match pyGet d.holeCards (match d.action with | some a => (a : Int) | none => -1) with
    | .error e => .error e
    | .ok hole =>
      .ok { action := match d.action with | some a => (a : Int) | none => -1
            active := d.active, button := d.button, call, communityCards := d.communityCards
            holeCards := hole, maxRaise, minRaise, pot := d.pot, stacks := d.stacks
            streetCommits := d.streetCommits }

/-! ## showdown -/

/-- `worst_hand` (`engine.py:676,701`) -/
def Dealer.worstHand (d : Dealer) : Int := d.cfg.evaluator.table.maxRank + 1

/-- `Dealer._eval_hands` (`engine.py:672-687`): `hole_cards[player]` is only read for active
players. -/
def Dealer.evalHands (d : Dealer) (holeCards : List (List Card)) (communityCards : List Card) :
    Except Err (List Int) :=
  (List.range d.cfg.numPlayers).mapM fun player =>
    if d.active.getD player false then
      match holeCards[player]? with
      | none => .error .indexError
      | some hole => d.cfg.evaluator.evaluate hole communityCards
    else .ok d.worstHand

/-- An element `[player_idx, hand_strength, pot_commit]` of `hands` (`engine.py:692-695`). -/
structure Hand where
  idx : Nat
  strength : Int
  commit : Int
  deriving DecidableEq, Repr

/-- insertion into a list sorted by `(strength, commit)`, before the first element that is not
smaller -/
def insertByKey (h : Hand) : List Hand → List Hand
  | [] => [h]
  | g :: l =>
    if h.strength < g.strength ∨ (h.strength = g.strength ∧ h.commit ≤ g.commit) then h :: g :: l
    else g :: insertByKey h l

/-- `sorted(hands, key=operator.itemgetter(1, 2))` (`engine.py:697`): stable sort by
`(strength, commit)`. -/
def sortByKey (l : List Hand) : List Hand := l.foldr insertByKey []

/-- The local variables of the loop `engine.py:704-727`. -/
structure PotState where
  hands : List Hand
  pot : Int
  remainder : Int
  payouts : List Int
  deriving DecidableEq, Repr

/-- The part of one iteration after `continue` (`engine.py:715-725`): `eligible` get `split` each,
every hand pays its cut, and the hand of this iteration leaves the contest. -/
def potStep (worst : Int) (st : PotState) (handIdx : Nat) (h : Hand) : PotState :=
  let eligible := (st.hands.filter fun g => g.strength == h.strength).map (·.idx)
  let splitPot := (st.hands.map fun g => min g.commit h.commit).sum
  let split := splitPot / (eligible.length : Int)
  let remain := splitPot % (eligible.length : Int)
  { payouts := eligible.foldl (fun p i => p.modify i (· + split)) st.payouts
    remainder := st.remainder + remain
    hands := (st.hands.map fun g => { g with commit := g.commit - min g.commit h.commit }).modify
      handIdx (fun g => { g with strength := worst })
    pot := st.pot - splitPot }

/-- The loop `engine.py:704-727`, `fuel` iterations left, the next one has index `handIdx`. -/
def potLoop (worst : Int) : (fuel handIdx : Nat) → PotState → PotState
  | 0, _, st => st
  | fuel + 1, handIdx, st =>
    match st.hands[handIdx]? with
    | none => st
    | some h =>
      if (st.hands.map fun g => min g.commit h.commit).sum = 0 then potLoop worst fuel (handIdx + 1) st
      else
        let st' := potStep worst st handIdx h
        if st'.pot = 0 then st' else potLoop worst fuel (handIdx + 1) st'

/-- The loop `engine.py:731-734`: for the first `player_idx` in `1..n` with
`payouts[player_idx + button % n]` non-zero add the remainder to `payouts[player_idx]`. (The index
expression is parsed as `player_idx + (button % n)`.) It raises if the index leaves the list first. -/
def remainderLoop (n button : Nat) (remainder : Int) :
    (fuel playerIdx : Nat) → List Int → Except Err (List Int)
  | 0, _, payouts => .ok payouts
  | fuel + 1, playerIdx, payouts =>
    match payouts[playerIdx + button % n]? with
    | none => .error .indexError
    | some p =>
      if p ≠ 0 then .ok (payouts.modify playerIdx (· + remainder))
      else remainderLoop n button remainder fuel (playerIdx + 1) payouts

/-- `Dealer._eval_round` (`engine.py:692-735`) for given hand strengths. -/
def potPayouts (n button : Nat) (worst pot : Int) (potCommits strengths : List Int) :
    Except Err (List Int) :=
  let hands := sortByKey ((strengths.zipIdx).map fun (s, i) =>
    { idx := i, strength := s, commit := potCommits.getD i 0 })
  let st := potLoop worst hands.length 0
    { hands, pot, remainder := 0, payouts := List.replicate n 0 }
  if st.remainder ≠ 0 then remainderLoop n button st.remainder n 1 st.payouts
  else .ok st.payouts

/-- `Dealer._eval_round` (`engine.py:689-735`) -/
def Dealer.evalRound (d : Dealer) : Except Err (List Int) :=
  match d.evalHands d.holeCards d.communityCards with
  | .error e => .error e
  | .ok strengths =>
    potPayouts d.cfg.numPlayers d.button d.worstHand d.pot d.potCommits strengths

/-- `Dealer._payouts` (`engine.py:647-670`) -/
def Dealer.payouts (d : Dealer) : Except Err (List Int) :=
  let lost := List.zipWith (fun c (a : Bool) => if a then 0 else -1 * c) d.potCommits d.active
  if countTrue d.active = 1 then
    .ok (List.zipWith (· + ·) lost
      (List.zipWith (fun (a : Bool) c => if a then d.pot - c else 0) d.active d.potCommits))
  else if d.street ≥ d.cfg.numStreets then
    match d.evalRound with
    | .error e => .error e
    | .ok p => .ok (List.zipWith (· - ·) p d.potCommits)
  else .ok lost

/-! ## `reset` and `step` -/

/-- `self.hole_cards = [self.deck.draw(k) for _ in range(n)]` (`engine.py:299-301`) -/
def dealHole (k : Int) : Nat → Deck → List (List Card) × Deck
  | 0, deck => ([], deck)
  | n + 1, deck =>
    let r := deck.draw k
    let rest := dealHole k n r.2
    (r.1 :: rest.1, rest.2)

/-- `Dealer.reset` (`engine.py:247-319`). The `Shuffle` is what `random.shuffle` does this time. -/
def Dealer.reset (d : Dealer) (resetButton resetStacks : Bool) (shuf : Shuffle) :
    Dealer × Except Err Observation :=
  let n := d.cfg.numPlayers
  let d :=
    if resetStacks then
      { d with active := List.replicate n true, stacks := List.replicate n d.cfg.startStack }
    else { d with active := d.stacks.map fun s => decide (s > 0) }
  if !resetStacks ∧ countTrue d.active ≤ 1 then (d, .error .tooFewActivePlayers)
  else
    let d := { d with button := if resetButton then 0 else (d.button + 1) % n }
    let d := { d with deck := d.deck.shuffle shuf }
    match d.cfg.numCommunityCards[0]? with
    | none => (d, .error .indexError)
    | some ncc =>
      let comm := d.deck.draw ncc
      let hole := dealHole d.cfg.numHoleCards n comm.2
      let d := { d with
        communityCards := comm.1
        history := []
        holeCards := hole.1
        deck := hole.2
        largestRaise := d.cfg.bigBlind
        pot := 0
        potCommits := List.replicate n 0
        street := 0
        streetCommits := List.replicate n 0
        streetOption := List.replicate n false
        streetRaises := 0
        action := some d.button }
      let d := if n > 2 then d.moveAction else d
      let d := d.collectMultipleBets d.cfg.antes false
      let d := d.collectMultipleBets d.cfg.blinds true
      let d := d.moveAction
      let d := d.moveAction
      (d, d.observation false)

/-- `sum(self.active) - sum(all_in) <= 1` (`engine.py:401-405`) -/
def Dealer.allAllIn (d : Dealer) : Bool :=
  let allIn := List.zipWith (fun (active : Bool) stack => active && stack == 0) d.active d.stacks
  decide ((countTrue d.active : Int) - (countTrue allIn : Int) ≤ 1)

/-- The loop `engine.py:398-412`. The street number grows with every iteration and the loop stops at
`num_streets`, so `fuel = num_streets + 1` iterations are enough
(`dealStreets_fuel`). `num_community_cards` has `num_streets` elements. -/
def dealStreets : (fuel : Nat) → Dealer → Dealer
  | 0, d => d
  | fuel + 1, d =>
    let d := { d with street := d.street + 1 }
    if d.street ≥ d.cfg.numStreets then d
    else
      let drawn := d.deck.draw (d.cfg.numCommunityCards.getD d.street 0)
      let d := { d with communityCards := d.communityCards ++ drawn.1, deck := drawn.2 }
      if !d.allAllIn then d else dealStreets fuel d

/-- The block `engine.py:393-415` -/
def Dealer.nextStreet (d : Dealer) : Dealer :=
  let d := { d with action := some d.button }
  let d := d.moveAction
  let d := dealStreets (d.cfg.numStreets + 1) d
  { d with
    streetCommits := List.replicate d.cfg.numPlayers 0
    streetOption := d.active.map fun a => !a
    streetRaises := 0 }

/-- What `step` returns: observation, payouts, done -/
abbrev StepOut := Observation × List Int × List Bool

/-- `engine.py:417-429`: compute done flags and payouts, end the hand if all are done. -/
def Dealer.finish (d : Dealer) : Dealer × Except Err StepOut :=
  let done := d.done
  match d.payouts with
  | .error e => (d, .error e)
  | .ok payouts =>
    let d :=
      if done.all id then
        { d with
          action := none
          pot := 0
          stacks := List.zipWith (· + ·) (List.zipWith (· + ·) d.stacks payouts) d.potCommits }
      else d
    (d, match d.observation (done.all id) with
      | .error e => .error e
      | .ok obs => .ok (obs, payouts, done))

/-- `engine.py:375-390` for the bet size chosen by `_clean_bet`: fold, record a full raise, collect
the chips, write the history, move the action. -/
def Dealer.act (d : Dealer) (fold : Bool) (call bet : Int) : Dealer :=
  let folds := call ≠ 0 ∧ (bet < call ∨ fold = true)
  let d' := if folds then { d with active := d.active.set d.seat false } else d
  let bet := if folds then 0 else bet
  let d' :=
    if bet ≠ 0 ∧ bet - call ≥ d'.largestRaise then
      { d' with largestRaise := bet - call, streetRaises := d'.streetRaises + 1 }
    else d'
  let d' := d'.collectBet bet
  let d' := { d' with
    history := d'.history ++ [(d'.seat, bet, fold)]
    streetOption := d'.streetOption.set d'.seat true }
  d'.moveAction

/-- `Dealer.step` (`engine.py:321-429`) -/
def Dealer.step (d : Dealer) (bet : PyNum) : Dealer × Except Err StepOut :=
  match d.action with
  | none =>
    if d.active.any id then
      (d, match d.payouts with
        | .error e => .error e
        | .ok payouts =>
          match d.observation (d.done.all id) with
          | .error e => .error e
          | .ok obs => .ok (obs, payouts, d.done))
    else (d, .error .tableReset)
  | some _ =>
    let fold := bet.isNeg
    match pyRound bet with
    | .error e => (d, .error e)
    | .ok bet =>
      match d.betSizes with
      | .error e => (d, .error e)
      | .ok (call, minRaise, maxRaise) =>
        let bet := cleanBet bet call minRaise maxRaise
        let d := d.act fold call bet
        let d := if d.allAgreed then d.nextStreet else d
        d.finish

/-! ## win probabilities -/

/-- The body of the loop `engine.py:513-519` -/
def Dealer.countWins (d : Dealer) (wins : List Nat) (extra : List Card) : Except Err (List Nat) :=
  match d.evalHands d.holeCards (d.communityCards ++ extra) with
  | .error e => .error e
  | .ok strengths =>
    let best := pyMin strengths
    .ok (List.zipWith (fun w s => if s = best then w + 1 else w) wins strengths)

/-- `Dealer.win_probabilities` (`engine.py:496-524`), with exact quotients instead of floats. -/
def Dealer.winProbabilities (d : Dealer) : Except Err (List Rat) :=
  match combinationsInt (d.cfg.numCommunityCards.sum - d.communityCards.length) d.deck.cards with
  | .error e => .error e
  | .ok combs =>
    match combs.foldlM d.countWins (List.replicate d.cfg.numPlayers 0) with
    | .error e => .error e
    | .ok wins =>
      if wins.sum = 0 ∧ d.cfg.numPlayers ≠ 0 then .error .zeroDivision
      else .ok (wins.map fun (w : Nat) => (w : Rat) / ((wins.sum : Nat) : Rat))

/-! ## constructor -/

/-- An argument that is either a list or a single value. -/
inductive ListOr (α : Type)
  | scalar (a : α)
  | list (l : List α)
  deriving DecidableEq, Repr

/-- `check_inp` (`engine.py:142-149`); `[var] * n` is empty for `n < 0`. -/
def checkInp {α : Type} (v : ListOr α) (expectNum : Int) : Except Err (List α) :=
  match v with
  | .list l => if (l.length : Int) ≠ expectNum then .error .invalidConfig else .ok l
  | .scalar a => .ok (List.replicate expectNum.toNat a)

/-- An element of the `raise_sizes` argument; `other` is any value that is not an int, `"pot"` or
`"inf"` (for example `float("inf")`). -/
inductive RawRaise
  | int (n : Int)
  | pot
  | inf
  | other
  deriving DecidableEq, Repr

/-- `clean_rs` (`engine.py:174-186`) -/
def cleanRs : RawRaise → Except Err RaiseSize
  | .inf => .ok .inf
  | .pot => .ok .pot
  | .int n => .ok (.int n)
  | .other => .error .invalidRaiseSize

/-- An element of the `num_raises` argument: a finite number (see `NumRaises`), `"inf"`, or a string
that `float` rejects. -/
inductive RawNumRaises
  | fin (n : Int)
  | inf
  | badString
  deriving DecidableEq, Repr

/-- `float(raise_num)` (`engine.py:195`) -/
def cleanNumRaises : RawNumRaises → Except Err NumRaises
  | .fin n => .ok (.fin n)
  | .inf => .ok .inf
  | .badString => .error .valueError

/-- The arguments of `Dealer.__init__` (`engine.py:122-141`). -/
structure DealerArgs where
  numPlayers : Int
  numStreets : Int
  blinds : ListOr Int
  antes : ListOr Int
  raiseSizes : ListOr RawRaise
  numRaises : ListOr RawNumRaises
  numSuits : Int
  numRanks : Int
  numHoleCards : Int
  numCommunityCards : ListOr Int
  numCardsForHand : Int
  mandatoryNumHoleCards : Int
  startStack : Int
  lowEndStraight : Bool := true
  order : Option (List String) := none
  deriving DecidableEq, Repr

/-- `POS_DICT` (`ascii_viewer.py:62-72`) -/
def POS_DICT : List (Nat × List Nat) :=
  [(2, [0, 5]), (3, [0, 3, 6]), (4, [0, 2, 4, 6]), (5, [0, 2, 4, 6, 8]), (6, [0, 1, 3, 5, 6, 8]),
   (7, [0, 1, 3, 5, 6, 7, 9]), (8, [0, 1, 2, 4, 5, 6, 7, 9]), (9, [0, 1, 2, 4, 5, 6, 7, 8, 9]),
   (10, List.range 10)]

/-- `Dealer.__init__` (`engine.py:122-234`). A negative `num_players` or `num_streets` is kept as
0: both give empty lists, and a negative number of players fails at `blinds[1]`. -/
def Dealer.new (a : DealerArgs) (shuf : Shuffle) : Except Err Dealer := do
  let blinds ← checkInp a.blinds a.numPlayers
  let antes ← checkInp a.antes a.numPlayers
  let raiseSizes ← checkInp a.raiseSizes a.numStreets
  let numRaises ← checkInp a.numRaises a.numStreets
  let numCommunityCards ← checkInp a.numCommunityCards a.numStreets
  let bigBlind ← pyGet blinds 1
  let raiseSizes ← raiseSizes.mapM cleanRs
  let numRaises ← numRaises.mapM cleanNumRaises
  let deck ← Deck.new a.numSuits a.numRanks shuf
  let evaluator ← Evaluator.new a.numSuits a.numRanks a.numCardsForHand a.mandatoryNumHoleCards
    a.lowEndStraight a.order
  let n := a.numPlayers.toNat
  let _ ← (match dictGet POS_DICT n with
    | some p => .ok p
    | none => .error .keyError : Except Err (List Nat))
  return {
    cfg := {
      numPlayers := n, numStreets := a.numStreets.toNat, blinds, antes, bigBlind, raiseSizes
      numRaises, numSuits := a.numSuits, numRanks := a.numRanks, numHoleCards := a.numHoleCards
      numCommunityCards, numCardsForHand := a.numCardsForHand
      mandatoryNumHoleCards := a.mandatoryNumHoleCards, startStack := a.startStack, evaluator }
    action := none, active := List.replicate n false, button := 0, communityCards := [], deck
    history := [], holeCards := [], largestRaise := 0, pot := 0, potCommits := List.replicate n 0
    stacks := List.replicate n a.startStack, street := 0, streetCommits := List.replicate n 0
    streetOption := List.replicate n false, streetRaises := 0 }

end Clubs
