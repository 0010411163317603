import Verif.Model.Numpy
import Verif.Spec.Showdown
import Verif.Spec.Odds

/-!
# Tables of the array engine: vocabulary for C68–C74
-/

namespace Clubs.Spec

/-- the table with the button as a seat number: `button` counts on beyond the last seat in the array engine -/
def atSeat (d : Dealer) : Dealer := { d with button := d.button % d.cfg.numPlayers }

/-- the observation with the button as a seat number, at a table with `n` seats -/
def obsAtSeat (n : Nat) (o : Observation) : Observation := { o with button := o.button % n }

/-- neither the big blind nor a fixed raise size is negative -/
def SizesOk (c : Config) : Prop := 0 ≤ c.bigBlind ∧ RaisesOk c

/-- Everything a program can do with a dealer of the array engine (as `Reachable`). -/
inductive ArrayReachable : Dealer → Prop
  | new {a : DealerArgs} {shuf : Shuffle} {d : Dealer} (hs : IsShuffle shuf) (h : Numpy.new a shuf = .ok d) :
      ArrayReachable d
  | reset {d : Dealer} (rb rs : Bool) {shuf : Shuffle} (hs : IsShuffle shuf) (h : ArrayReachable d) :
      ArrayReachable (Numpy.reset d rb rs shuf).1
  | step {d : Dealer} (bet : PyNum) (h : ArrayReachable d) : ArrayReachable (Numpy.step d bet).1
  | trick {d : Dealer} {top : List Card} {deck : Deck} (h : ArrayReachable d)
      (hp : top.Pairwise fun a b => a.eq b = false) (ht : d.deck.trick top = .ok deck) :
      ArrayReachable { d with deck := deck }
  | untrick {d : Dealer} (h : ArrayReachable d) : ArrayReachable { d with deck := d.deck.untrick }

/-- A state of a hand that was dealt by a successful `reset` of some table at which the players had the chips `start`,
after any number of steps (as `InHand`). -/
inductive ArrayInHand : List Int → Dealer → Prop
  | dealt {d d' : Dealer} {rb rs : Bool} {shuf : Shuffle} {obs : Observation} (hd : Seated (atSeat d))
      (hs : IsShuffle shuf) (h : Numpy.reset d rb rs shuf = (d', .ok obs)) : ArrayInHand (startStacks d rs) d'
  | step {start : List Int} {d : Dealer} (bet : PyNum) (h : ArrayInHand start d) :
      ArrayInHand start (Numpy.step d bet).1

/-- A session at a table of the array engine: a first hand, then any number of steps and further hands, each dealt after
the one before has ended, without `reset_stacks`; `total` are the chips at the start. -/
inductive ArraySession : (total : Int) → Dealer → Prop
  | first {d d' : Dealer} {rb rs : Bool} {shuf : Shuffle} {obs : Observation} (hd : Seated (atSeat d))
      (hs : IsShuffle shuf) (h : Numpy.reset d rb rs shuf = (d', .ok obs)) (hn : NonNegative (startStacks d rs) d'.cfg)
      (hr : SizesOk d'.cfg) : ArraySession (startStacks d rs).sum d'
  | step {total : Int} {d : Dealer} (bet : PyNum) (h : ArraySession total d) : ArraySession total (Numpy.step d bet).1
  | next {total : Int} {d d' : Dealer} {rb : Bool} {shuf : Shuffle} {obs : Observation}
      (h : ArraySession total d) (he : d.action = none) (hs : IsShuffle shuf)
      (hr : Numpy.reset d rb false shuf = (d', .ok obs)) : ArraySession total d'

/-- A bet at a table of the other engine that neither ends the hand early, nor brings a showdown in which a winner
is found to be without chips or in which chips are left over. -/
def Quiet (d : Dealer) (bet : PyNum) : Prop :=
  d.action ≠ none → ¬ EndedEarly (d.step bet).1 ∧
    (AtShowdown (d.step bet).1 → ∀ s, Ranks (d.step bet).1 s → ClearPot (d.step bet).1 s ∧ oddAt (d.step bet).1 s = 0)

/-- The same session played at a table of the array engine and at one of the other engine, with the same cards: hands,
each dealt after the one before has ended, and quiet bets. -/
inductive Twins : Dealer → Dealer → Prop
  | first {d d' : Dealer} {rb rs : Bool} {shuf : Shuffle} {obs : Observation} (hd : Seated (atSeat d))
      (hs : IsShuffle shuf) (h : Numpy.reset d rb rs shuf = (d', .ok obs)) (hn : NonNegative (startStacks d rs) d.cfg)
      (hz : SizesOk d.cfg) : Twins d' ((atSeat d).reset rb rs shuf).1
  | step {d e : Dealer} (bet : PyNum) (h : Twins d e) (hq : Quiet e bet) : Twins (Numpy.step d bet).1 (e.step bet).1
  | next {d e d' : Dealer} {rb : Bool} {shuf : Shuffle} {obs : Observation} (h : Twins d e) (he : d.action = none)
      (hs : IsShuffle shuf) (hr : Numpy.reset d rb false shuf = (d', .ok obs)) : Twins d' (e.reset rb false shuf).1

/-- in the order of the seats from the one after the button: how far seat `i` is from the start -/
def fromButton (n button i : Nat) : Nat := i + if i ≤ button then n else 0

/-- what `np.random.choice` can return: `toCome d` different cards of the deck, in any order -/
def IsSample (d : Dealer) (extra : List Card) : Prop := (extra.length : Int) = toCome d ∧ extra.Subperm d.deck.cards

/-- in how many of the first `n` samples seat `i` wins, alone or with others -/
def sampledWins (d : Dealer) (n : Nat) (sample : Nat → List Card) (i : Nat) : Nat :=
  (List.range n).countP fun k => bestOn d (d.communityCards ++ sample k) i

end Clubs.Spec
