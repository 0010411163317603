import Verif.Model.NumpyAlias
import Verif.Spec.Numpy

/-!
# Programs that keep dictionaries of the array engine: vocabulary for C76
-/

namespace Clubs.Spec

open Numpy

/-- Everything a program can do with a dealer without writing into its lists. -/
inductive ArrayLiveReachable : ArrayLive → Prop
  | new {a : DealerArgs} {shuf : Shuffle} {l : ArrayLive} (hs : IsShuffle shuf) (h : ArrayLive.new a shuf = .ok l) :
      ArrayLiveReachable l
  | reset {l : ArrayLive} (rb rs : Bool) {shuf : Shuffle} (hs : IsShuffle shuf) (h : ArrayLiveReachable l) :
      ArrayLiveReachable (l.reset rb rs shuf).1
  | step {l : ArrayLive} (bet : PyNum) (h : ArrayLiveReachable l) : ArrayLiveReachable (l.step bet).1

/-- any number of steps -/
inductive ArrayStepsTo : ArrayLive → ArrayLive → Prop
  | refl (l : ArrayLive) : ArrayStepsTo l l
  | step {l l' : ArrayLive} (bet : PyNum) (h : ArrayStepsTo l l') : ArrayStepsTo l (l'.step bet).1

/-- any number of calls of `reset` and `step` -/
inductive ArrayLater : ArrayLive → ArrayLive → Prop
  | refl (l : ArrayLive) : ArrayLater l l
  | step {l l' : ArrayLive} (bet : PyNum) (h : ArrayLater l l') : ArrayLater l (l'.step bet).1
  | reset {l l' : ArrayLive} (rb rs : Bool) (shuf : Shuffle) (h : ArrayLater l l') : ArrayLater l (l'.reset rb rs shuf).1

/-- a call of `reset` or `step` has returned the dictionary `o` and left the dealer `l` -/
inductive ArrayReturned : ArrayObs → ArrayLive → Prop
  | reset {l l' : ArrayLive} {rb rs : Bool} {shuf : Shuffle} {o : ArrayObs} (h : ArrayLiveReachable l) (hs : IsShuffle shuf)
      (hr : l.reset rb rs shuf = (l', .ok o)) : ArrayReturned o l'
  | step {l l' : ArrayLive} {bet : PyNum} {o : ArrayObs} {pays : List Int} {done : List Bool} (h : ArrayLiveReachable l)
      (hr : l.step bet = (l', .ok (o, pays, done))) : ArrayReturned o l'

end Clubs.Spec
