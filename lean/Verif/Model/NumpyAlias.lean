import Verif.Model.Numpy

/-!
# Lists as objects in the array engine

`_observation` of `engine_numpy.py:611-629` copies `active`, `stacks` and `street_commits` (`.tolist()`), but hands out the list of
the community cards itself. It also hands out the list of the player's hole cards, which nothing writes to; so here only the lists
of community cards are objects.
-/

namespace Clubs.Numpy

/-- A dealer whose list of community cards is an object: `mem` are the lists made so far, `communityCards` is a position in it. The
community cards of `rest` are not used. -/
structure ArrayLive where
  rest : Dealer
  communityCards : Nat
  mem : List (List Card)

/-- the attributes of the dealer with the contents that the list has now -/
def ArrayLive.read (l : ArrayLive) : Dealer := { l.rest with communityCards := l.mem.getD l.communityCards [] }

/-- an `ObservationDict` (`engine_numpy.py:10-21`); the community cards of `rest` are not used -/
structure ArrayObs where
  rest : Observation
  communityCards : Nat
  deriving DecidableEq

/-- what a program sees that looks into the dictionary when the memory is `m` -/
def ArrayObs.look (m : List (List Card)) (o : ArrayObs) : Observation :=
  { o.rest with communityCards := m.getD o.communityCards [] }

/-- `_observation` (`engine_numpy.py:611-629`) -/
def ArrayLive.share (l : ArrayLive) (o : Observation) : ArrayObs := ⟨o, l.communityCards⟩

/-- `reset` (`engine_numpy.py:279-316`): `self.community_cards = ...` (294) makes a new list, unless an exception comes first. -/
def ArrayLive.reset (l : ArrayLive) (resetButton resetStacks : Bool) (shuf : Shuffle) : ArrayLive × Except Err ArrayObs :=
  let r := Numpy.reset l.read resetButton resetStacks shuf
  if !resetStacks ∧ countTrue r.1.active ≤ 1 then ({ l with rest := r.1 }, r.2.map l.share)
  else
    match l.rest.cfg.numCommunityCards[0]? with
    | none => ({ l with rest := r.1 }, r.2.map l.share)
    | some _ =>
      let l := { rest := r.1, communityCards := l.mem.length, mem := l.mem ++ [r.1.communityCards] }
      (l, r.2.map l.share)

/-- `step` (`engine_numpy.py:357-418`): `self.community_cards += ...` (402) writes into the list -/
def ArrayLive.step (l : ArrayLive) (bet : PyNum) : ArrayLive × Except Err (ArrayObs × List Int × List Bool) :=
  let r := Numpy.step l.read bet
  let l := { l with rest := r.1, mem := l.mem.set l.communityCards r.1.communityCards }
  (l, r.2.map fun out => (l.share out.1, out.2))

/-- `__init__` (`engine_numpy.py:117-231`) -/
def ArrayLive.new (a : DealerArgs) (shuf : Shuffle) : Except Err ArrayLive :=
  (Numpy.new a shuf).map fun d => { rest := d, communityCards := 0, mem := [d.communityCards] }

end Clubs.Numpy
