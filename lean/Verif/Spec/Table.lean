import Verif.Model.Engine
import Verif.Spec.Decks
import Mathlib.Algebra.Order.Ring.Rat
import Mathlib.Algebra.Order.Group.Abs

/-!
# Tables and hands: vocabulary for C18–C50
-/

namespace Clubs.Spec

/-- The shape of a dealer object: at least two seats, every per-seat list has an entry per seat, every
per-street list an entry per street, button and action are seats. Every dealer that was constructed and used in any way
has it (`reachable_seated`). -/
structure Seated (d : Dealer) : Prop where
  two : 2 ≤ d.cfg.numPlayers
  blinds : d.cfg.blinds.length = d.cfg.numPlayers
  antes : d.cfg.antes.length = d.cfg.numPlayers
  raiseSizes : d.cfg.raiseSizes.length = d.cfg.numStreets
  numRaises : d.cfg.numRaises.length = d.cfg.numStreets
  community : d.cfg.numCommunityCards.length = d.cfg.numStreets
  active : d.active.length = d.cfg.numPlayers
  potCommits : d.potCommits.length = d.cfg.numPlayers
  «stacks» : d.stacks.length = d.cfg.numPlayers
  streetCommits : d.streetCommits.length = d.cfg.numPlayers
  streetOption : d.streetOption.length = d.cfg.numPlayers
  button : d.button < d.cfg.numPlayers
  action : ∀ a, d.action = some a → a < d.cfg.numPlayers

/-- Everything a program can do with a dealer: construct it, reset it, step it, arrange the cards that will be on top of
its deck (`dealer.deck.trick(cards)`, with different cards) or undo that, in any order, with any arguments, errors
included. -/
inductive Reachable : Dealer → Prop
  | new {a : DealerArgs} {shuf : Shuffle} {d : Dealer} (hs : IsShuffle shuf) (h : Dealer.new a shuf = .ok d) :
      Reachable d
  | reset {d : Dealer} (rb rs : Bool) {shuf : Shuffle} (hs : IsShuffle shuf) (h : Reachable d) :
      Reachable (d.reset rb rs shuf).1
  | step {d : Dealer} (bet : PyNum) (h : Reachable d) : Reachable (d.step bet).1
  | trick {d : Dealer} {top : List Card} {deck : Deck} (h : Reachable d)
      (hp : top.Pairwise fun a b => a.eq b = false) (ht : d.deck.trick top = .ok deck) : Reachable { d with deck := deck }
  | untrick {d : Dealer} (h : Reachable d) : Reachable { d with deck := d.deck.untrick }

/-- The chips the players have when a hand is dealt by `reset`. -/
def startStacks (d : Dealer) (resetStacks : Bool) : List Int :=
  if resetStacks then List.replicate d.cfg.numPlayers d.cfg.startStack else d.stacks

/-- `InHand start d`: `d` is a state of a hand that was dealt by a successful `reset` of some table at which
the players had the chips `start`, after any number of steps. -/
inductive InHand : List Int → Dealer → Prop
  | dealt {d d' : Dealer} {rb rs : Bool} {shuf : Shuffle} {obs : Observation} (hd : Seated d)
      (hs : IsShuffle shuf) (h : d.reset rb rs shuf = (d', .ok obs)) : InHand (startStacks d rs) d'
  | step {start : List Int} {d : Dealer} (bet : PyNum) (h : InHand start d) : InHand start (d.step bet).1

/-- a seat still in the hand -/
def isIn (d : Dealer) (i : Nat) : Prop := d.active.getD i false = true

instance (d : Dealer) (i : Nat) : Decidable (isIn d i) := inferInstanceAs (Decidable (d.active.getD i false = true))

/-- chips in front of a seat, what it put in this hand, what it put in this street -/
def stack (d : Dealer) (i : Nat) : Int := d.stacks.getD i 0
def contribution (d : Dealer) (i : Nat) : Int := d.potCommits.getD i 0
def streetBet (d : Dealer) (i : Nat) : Int := d.streetCommits.getD i 0

/-- all chips at the table -/
def allChips (d : Dealer) : Int := d.stacks.sum + d.pot

/-- number of seats still in the hand -/
def numIn (d : Dealer) : Nat := d.active.count true

/-- what the players who folded put in -/
def foldedChips (d : Dealer) : Int :=
  ((List.range d.cfg.numPlayers).map fun i => if d.active.getD i false then 0 else contribution d i).sum

/-- Nobody starts the hand with debts, and no blind or ante is negative. -/
structure NonNegative (start : List Int) (c : Config) : Prop where
  start : ∀ s ∈ start, 0 ≤ s
  blinds : ∀ b ∈ c.blinds, 0 ≤ b
  antes : ∀ b ∈ c.antes, 0 ≤ b

/-- Every player with chips can pay the ante and the blind of every position. -/
def Covers (S : List Int) (c : Config) : Prop :=
  ∀ i < c.numPlayers, S.getD i 0 = 0 ∨ ∀ j < c.numPlayers, c.antes.getD j 0 + c.blinds.getD j 0 ≤ S.getD i 0

/-- The hand was ended although two or more players are still in and not all streets have been dealt. -/
def EndedEarly (d : Dealer) : Prop := d.action = none ∧ 2 ≤ numIn d ∧ d.street < d.cfg.numStreets

/-- A hand is being played: somebody is to act and there is a street to play. (If the comparison of the hands
raises an exception, the table is left with all streets dealt and `action` pointing at a seat.) -/
def Running (d : Dealer) : Prop := (∃ a, d.action = some a) ∧ d.street < d.cfg.numStreets

/-- the chips the players who folded lose to nobody when a step from `d` to `d'` ends the hand early -/
def vanished (d d' : Dealer) : Int :=
  if d.action ≠ none ∧ d'.action = none ∧ 2 ≤ numIn d' ∧ d'.street < d'.cfg.numStreets then foldedChips d' else 0

/-- A session: a first hand, then any number of steps and further hands, each dealt after the one before has ended,
without `reset_stacks`. `total` are the chips at the start, `lost` adds up the chips that vanished. -/
inductive Session : (total lost : Int) → Dealer → Prop
  | first {d d' : Dealer} {rb rs : Bool} {shuf : Shuffle} {obs : Observation} (hd : Seated d)
      (hs : IsShuffle shuf) (h : d.reset rb rs shuf = (d', .ok obs)) (hn : NonNegative (startStacks d rs) d'.cfg) :
      Session (startStacks d rs).sum 0 d'
  | step {total lost : Int} {d : Dealer} (bet : PyNum) (h : Session total lost d) :
      Session total (lost + vanished d (d.step bet).1) (d.step bet).1
  | next {total lost : Int} {d d' : Dealer} {rb : Bool} {shuf : Shuffle} {obs : Observation}
      (h : Session total lost d) (he : d.action = none) (hs : IsShuffle shuf)
      (hr : d.reset rb false shuf = (d', .ok obs)) : Session total lost d'

/-! ## betting -/

/-- chips that seat `a` put in between `d` and `d'` -/
def moved (d d' : Dealer) (a : Nat) : Int := contribution d' a - contribution d a

/-- what seat `a` has to put in to match the highest bet of the street -/
def toCall (d : Dealer) (a : Nat) : Int := pyMax d.streetCommits - streetBet d a

/-- `obs` is what `reset` or `step` returned when it left the table in state `d` -/
def Shows (d : Dealer) (obs : Observation) : Prop :=
  (∃ d0 rb rs shuf, Dealer.reset d0 rb rs shuf = (d, .ok obs)) ∨
    ∃ d0 bet payouts done, Dealer.step d0 bet = (d, .ok (obs, payouts, done))

/-- the bet sizes that an observation offers -/
def Legal (obs : Observation) (v : Int) : Prop := v = 0 ∨ v = obs.call ∨ (obs.minRaise ≤ v ∧ v ≤ obs.maxRaise)

/-- `m` is the offered size nearest to `q`, the smaller one of two equally near ones -/
def NearestLegal (obs : Observation) (q : Rat) (m : Int) : Prop :=
  Legal obs m ∧ ∀ v, Legal obs v → |(m : Rat) - q| < |(v : Rat) - q| ∨ (|(m : Rat) - q| = |(v : Rat) - q| ∧ m ≤ v)

/-- no fixed raise size is negative -/
def RaisesOk (c : Config) : Prop := ∀ n, RaiseSize.int n ∈ c.raiseSizes → 0 ≤ n

/-- `t` is the first seat after `s` (clockwise) with property `p` -/
def FirstAfter (n : Nat) (p : Nat → Prop) (s t : Nat) : Prop :=
  ∃ k, 1 ≤ k ∧ k ≤ n ∧ t = (s + k) % n ∧ p t ∧ ∀ j, 1 ≤ j → j < k → ¬ p ((s + j) % n)

/-- One action: the street, the seat, what it could have called with, the chips it put in. -/
structure Move where
  street : Nat
  seat : Nat
  call : Int
  chips : Int
  deriving DecidableEq, Repr

/-- `HandTrace start d ms`: `d` is a state of a hand and `ms` are the actions so far, oldest first. (Every step that
raises an exception either changes nothing or leaves the hand for good.) -/
inductive HandTrace : List Int → Dealer → List Move → Prop
  | dealt {d d' : Dealer} {rb rs : Bool} {shuf : Shuffle} {obs : Observation} (hd : Seated d)
      (hs : IsShuffle shuf) (h : d.reset rb rs shuf = (d', .ok obs)) : HandTrace (startStacks d rs) d' []
  | step {start : List Int} {d d' : Dealer} {ms : List Move} {a : Nat} {bet : PyNum} {out : StepOut}
      (h : HandTrace start d ms) (ha : d.action = some a) (hs : d.step bet = (d', .ok out)) :
      HandTrace start d' (ms ++ [⟨d.street, a, min (toCall d a) (stack d a), moved d d' a⟩])

/-- an action is a full raise if it exceeds the call by at least the largest raise so far -/
def isFull (largest : Int) (m : Move) : Bool := decide (0 < m.chips ∧ largest ≤ m.chips - m.call)

/-- the largest raise so far (at first the big blind) and the number of full raises on a street -/
def raises (bigBlind : Int) (street : Nat) (ms : List Move) : Int × Nat :=
  ms.foldl (fun r m => if isFull r.1 m then (m.chips - m.call, if m.street = street then r.2 + 1 else r.2) else r)
    (bigBlind, 0)

/-- `b` is `q` rounded to an integer, halves to the even one -/
def Rounded (q : Rat) (b : Int) : Prop := |q - b| ≤ 1 / 2 ∧ (|q - b| = 1 / 2 → 2 ∣ b)

/-- a negative number or minus infinity (not a number is not negative) -/
def BelowZero : PyNum → Prop
  | .fin q => q < 0
  | .posInf => False
  | .negInf => True
  | .nan => False

end Clubs.Spec
