import Verif.Model.Engine

/-!
# Lists as objects: what the dictionaries returned by `reset` and `step` share with the dealer

`_observation` (`engine.py:627-645`) puts the dealer's own lists into the dictionary, not copies. Here lists are objects in a
memory, and the attributes of the dealer as well as the entries of an observation are references to them. An assignment such as
`self.stacks = [...]` makes a new object; `self.stacks[i] -= bet` and `self.community_cards += ...` change the object that
is there. The new contents are computed by the functions of `Model/Engine`; this model adds which object they are written to.

Only lists that are handed out are objects: `active`, `stacks`, `street_commits`, `community_cards` and the hole cards of each seat.
-/

namespace Clubs

/-- The lists that have been made so far, by kind; a reference is a position. -/
structure Mem where
  bools : List (List Bool)
  ints : List (List Int)
  cards : List (List Card)
  deriving DecidableEq, Repr

/-- A dealer whose lists are objects. The lists `active`, `stacks`, `street_commits`, `community_cards` and `hole_cards` of
`rest` are not used. -/
structure LiveDealer where
  rest : Dealer
  active : Nat
  «stacks» : Nat
  streetCommits : Nat
  communityCards : Nat
  holeCards : List Nat
  mem : Mem

/-- the attributes of the dealer with the contents that their lists have now -/
def LiveDealer.read (l : LiveDealer) : Dealer :=
  { l.rest with
    active := l.mem.bools.getD l.active []
    «stacks» := l.mem.ints.getD l.stacks []
    streetCommits := l.mem.ints.getD l.streetCommits []
    communityCards := l.mem.cards.getD l.communityCards []
    holeCards := l.holeCards.map fun r => l.mem.cards.getD r [] }

/-- an `ObservationDict` (`engine.py:15-26`): numbers, and references to lists -/
structure LiveObs where
  action : Int
  active : Nat
  button : Nat
  call : Int
  communityCards : Nat
  holeCards : Nat
  maxRaise : Int
  minRaise : Int
  pot : Int
  «stacks» : Nat
  streetCommits : Nat
  deriving DecidableEq, Repr

/-- what a program sees that looks into the dictionary when the memory is `m` -/
def LiveObs.look (m : Mem) (o : LiveObs) : Observation where
  action := o.action
  active := m.bools.getD o.active []
  button := o.button
  call := o.call
  communityCards := m.cards.getD o.communityCards []
  holeCards := m.cards.getD o.holeCards []
  maxRaise := o.maxRaise
  minRaise := o.minRaise
  pot := o.pot
  «stacks» := m.ints.getD o.stacks []
  streetCommits := m.ints.getD o.streetCommits []

/-- `_observation` (`engine.py:627-645`) -/
def LiveDealer.observation (l : LiveDealer) (done : Bool) : Except Err LiveObs :=
  match (if done then .ok (0, 0, 0) else l.read.betSizes : Except Err (Int × Int × Int)) with
  | .error e => .error e
  | .ok (call, minRaise, maxRaise) =>
    match pyGet l.holeCards (match l.rest.action with | some a => (a : Int) | none => -1) with
    | .error e => .error e
    | .ok hole =>
      .ok { action := match l.rest.action with | some a => (a : Int) | none => -1
            active := l.active, button := l.rest.button, call, communityCards := l.communityCards
            holeCards := hole, maxRaise, minRaise, pot := l.rest.pot, «stacks» := l.stacks
            streetCommits := l.streetCommits }

/-- `self.active = [...]` (`engine.py:283`, `engine.py:286`) -/
def LiveDealer.newActive (l : LiveDealer) (v : List Bool) : LiveDealer :=
  { l with active := l.mem.bools.length, mem := { l.mem with bools := l.mem.bools ++ [v] } }

/-- `self.stacks = [...]` (`engine.py:284`, `engine.py:422`, `engine.py:607`) -/
def LiveDealer.newStacks (l : LiveDealer) (v : List Int) : LiveDealer :=
  { l with «stacks» := l.mem.ints.length, mem := { l.mem with ints := l.mem.ints ++ [v] } }

/-- `self.street_commits = [...]` (`engine.py:306`, `engine.py:413`, `engine.py:599`) -/
def LiveDealer.newStreetCommits (l : LiveDealer) (v : List Int) : LiveDealer :=
  { l with streetCommits := l.mem.ints.length, mem := { l.mem with ints := l.mem.ints ++ [v] } }

/-- `self.community_cards = ...`, `self.hole_cards = [...]` (`engine.py:297-301`): `deck.draw` makes a new list (`card.py:201-207`) -/
def LiveDealer.newCards (l : LiveDealer) (comm : List Card) (hole : List (List Card)) : LiveDealer :=
  { l with
    communityCards := l.mem.cards.length
    holeCards := (List.range hole.length).map fun i => l.mem.cards.length + 1 + i
    mem := { l.mem with cards := l.mem.cards ++ comm :: hole } }

/-- The dealer goes over to the state `d`; the contents of the lists are written into the objects that are there. -/
def LiveDealer.inPlace (l : LiveDealer) (d : Dealer) : LiveDealer :=
  { l with
    rest := d
    mem := {
      bools := l.mem.bools.set l.active d.active
      ints := (l.mem.ints.set l.stacks d.stacks).set l.streetCommits d.streetCommits
      cards := l.mem.cards.set l.communityCards d.communityCards } }

/-- The dealer goes over to the state `d`; no list changes. -/
def LiveDealer.withRest (l : LiveDealer) (d : Dealer) : LiveDealer := { l with rest := d }

/-- `reset` (`engine.py:247-319`): every list is a new object, unless an exception comes first. (The lists that are made and
dropped on the way, at `engine.py:306` and by the first call of `_collect_multiple_bets`, are left out.) -/
def LiveDealer.reset (l : LiveDealer) (resetButton resetStacks : Bool) (shuf : Shuffle) : LiveDealer × Except Err LiveObs :=
  let d := l.read
  let d' := (d.reset resetButton resetStacks shuf).1
  let l := (l.newActive d'.active).withRest d'
  if !resetStacks ∧ countTrue d'.active ≤ 1 then (l, .error .tooFewActivePlayers)
  else
    match d.cfg.numCommunityCards[0]? with
    | none => (if resetStacks then l.newStacks d'.stacks else l, .error .indexError)
    | some _ =>
      let l := l.newCards d'.communityCards d'.holeCards
      let l := l.newStreetCommits d'.streetCommits
      let l := l.newStacks d'.stacks
      (l, l.observation false)

/-- what `step` returns: a dictionary, and two new lists -/
abbrev LiveOut := LiveObs × List Int × List Bool

/-- `engine.py:375-390`: `self.active[self.action] = False` (377) and `_collect_bet` (609-616) change lists in place -/
def LiveDealer.act (l : LiveDealer) (fold : Bool) (call bet : Int) : LiveDealer := l.inPlace (l.read.act fold call bet)

/-- `engine.py:393-415`: `self.community_cards += ...` (408) in place, `self.street_commits = ...` (413) a new list -/
def LiveDealer.nextStreet (l : LiveDealer) : LiveDealer :=
  let d := l.read.nextStreet
  (l.inPlace { d with streetCommits := l.read.streetCommits }).newStreetCommits d.streetCommits

/-- `engine.py:417-429`: `self.stacks = ...` (422) is a new list -/
def LiveDealer.finish (l : LiveDealer) : LiveDealer × Except Err LiveOut :=
  let d := l.read
  let done := d.done
  match d.payouts with
  | .error e => (l, .error e)
  | .ok payouts =>
    let l :=
      if done.all id then
        (l.withRest { d with action := none, pot := 0 }).newStacks
          (List.zipWith (· + ·) (List.zipWith (· + ·) d.stacks payouts) d.potCommits)
      else l
    (l, match l.observation (done.all id) with
      | .error e => .error e
      | .ok obs => .ok (obs, payouts, done))

/-- `step` (`engine.py:321-429`) -/
def LiveDealer.step (l : LiveDealer) (bet : PyNum) : LiveDealer × Except Err LiveOut :=
  let d := l.read
  match d.action with
  | none =>
    if d.active.any id then
      (l, match d.payouts with
        | .error e => .error e
        | .ok payouts =>
          match l.observation (d.done.all id) with
          | .error e => .error e
          | .ok obs => .ok (obs, payouts, d.done))
    else (l, .error .tableReset)
  | some _ =>
    let fold := bet.isNeg
    match pyRound bet with
    | .error e => (l, .error e)
    | .ok bet =>
      match d.betSizes with
      | .error e => (l, .error e)
      | .ok (call, minRaise, maxRaise) =>
        let bet := cleanBet bet call minRaise maxRaise
        let l := l.act fold call bet
        let l := if l.read.allAgreed then l.nextStreet else l
        l.finish

/-- `Dealer.__init__` (`engine.py:122-234`): four lists are made, there are no hole cards yet -/
def LiveDealer.new (a : DealerArgs) (shuf : Shuffle) : Except Err LiveDealer :=
  match Dealer.new a shuf with
  | .error e => .error e
  | .ok d => .ok {
      rest := d, active := 0, «stacks» := 0, streetCommits := 1, communityCards := 0, holeCards := []
      mem := { bools := [d.active], ints := [d.stacks, d.streetCommits], cards := [d.communityCards] } }

end Clubs
