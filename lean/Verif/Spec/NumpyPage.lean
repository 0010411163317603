import Verif.Spec.Page
import Verif.Spec.Numpy
import Verif.Model.NumpyRender

/-!
# What the page in the browser has to show of a table of the array engine
-/

namespace Clubs.Spec

/-- `m` is the message that `render` sends for the table `d` of the array engine, and the picture was made for `d`: with `n` players, `h` hole
cards and `c` community cards (`engine_numpy.py:420-480`). The deck suffices and no number of community cards is negative. -/
structure ArrayMessage (n h c : Nat) (d : Dealer) (m : Message) : Prop where
  reachable : ArrayReachable d
  enough : Enough d.cfg
  community : ∀ k ∈ d.cfg.numCommunityCards, 0 ≤ k
  players : n = d.cfg.numPlayers
  hole : h = d.cfg.numHoleCards.toNat
  board : (c : Int) = d.cfg.numCommunityCards.sum
  sent : Numpy.show d .graphic = .ok (.sent m)

end Clubs.Spec
