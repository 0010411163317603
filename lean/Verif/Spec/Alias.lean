import Verif.Model.Alias
import Verif.Spec.Table

/-!
# Programs that keep dictionaries: vocabulary for C75
-/

namespace Clubs.Spec

/-- Everything a program can do with a dealer without writing into its lists. -/
inductive LiveReachable : LiveDealer → Prop
  | new {a : DealerArgs} {shuf : Shuffle} {l : LiveDealer} (hs : IsShuffle shuf) (h : LiveDealer.new a shuf = .ok l) :
      LiveReachable l
  | reset {l : LiveDealer} (rb rs : Bool) {shuf : Shuffle} (hs : IsShuffle shuf) (h : LiveReachable l) :
      LiveReachable (l.reset rb rs shuf).1
  | step {l : LiveDealer} (bet : PyNum) (h : LiveReachable l) : LiveReachable (l.step bet).1

/-- any number of steps -/
inductive StepsTo : LiveDealer → LiveDealer → Prop
  | refl (l : LiveDealer) : StepsTo l l
  | step {l l' : LiveDealer} (bet : PyNum) (h : StepsTo l l') : StepsTo l (l'.step bet).1

/-- any number of calls of `reset` and `step` -/
inductive Later : LiveDealer → LiveDealer → Prop
  | refl (l : LiveDealer) : Later l l
  | step {l l' : LiveDealer} (bet : PyNum) (h : Later l l') : Later l (l'.step bet).1
  | reset {l l' : LiveDealer} (rb rs : Bool) (shuf : Shuffle) (h : Later l l') : Later l (l'.reset rb rs shuf).1

/-- a call of `reset` or `step` has returned the dictionary `o` and left the dealer `l` -/
inductive Returned : LiveObs → LiveDealer → Prop
  | reset {l l' : LiveDealer} {rb rs : Bool} {shuf : Shuffle} {o : LiveObs} (h : LiveReachable l) (hs : IsShuffle shuf)
      (hr : l.reset rb rs shuf = (l', .ok o)) : Returned o l'
  | step {l l' : LiveDealer} {bet : PyNum} {o : LiveObs} {pays : List Int} {done : List Bool} (h : LiveReachable l)
      (hr : l.step bet = (l', .ok (o, pays, done))) : Returned o l'

/-- a program replaces the contents of the list `o["stacks"]` -/
def writeStacks (l : LiveDealer) (o : LiveObs) (v : List Int) : LiveDealer :=
  { l with mem := { l.mem with ints := l.mem.ints.set o.stacks v } }

/-- a program replaces the contents of the list `o["hole_cards"]` -/
def writeHole (l : LiveDealer) (o : LiveObs) (v : List Card) : LiveDealer :=
  { l with mem := { l.mem with cards := l.mem.cards.set o.holeCards v } }

end Clubs.Spec
