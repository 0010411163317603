import Verif.Model.Words
import Verif.Spec.Numpy

/-!
# Integers of a fixed width: vocabulary for C85
-/

namespace Clubs.Spec

open Numpy

/-- the antes and blinds of a hand in which every seat posts -/
def forcedTotal (c : Config) : Int := c.antes.sum + c.blinds.sum

/-- The chips at the table, and twice what the players can owe after the forced bets. -/
def reach (total : Int) (c : Config) : Int := total + 2 * forcedTotal c

/-- The chips are few enough for the widths: `reach` fits into 32 bits, and `sc`, what happens to the results of operations with single
numbers, changes neither the numbers up to three times `reach` nor those from a fixed raise size on up to `reach` more. -/
structure FewChips (sc : Int → Int) (total : Int) (c : Config) : Prop where
  words : reach total c < 2 ^ 31
  blind : c.bigBlind ≤ reach total c
  single : ∀ x, 0 ≤ x → x ≤ 3 * reach total c → sc x = x
  fixed : ∀ n, RaiseSize.int n ∈ c.raiseSizes → ∀ x, n ≤ x → x ≤ n + reach total c → sc x = x

/-- A session at a table with integers of a fixed width: a first hand, then any number of steps and further hands, each dealt after
the one before has ended, without `reset_stacks`; `total` are the chips at the start, and they are few enough. -/
inductive MachineSession (sc : Int → Int) : (total : Int) → Machine → Prop
  | first {m m' : Machine} {rb rs : Bool} {shuf : Shuffle} {obs : Observation} (hd : Seated (atSeat m.table))
      (hs : IsShuffle shuf) (h : resetM sc m rb rs shuf = (m', .ok obs)) (hn : NonNegative (startStacks m.table rs) m.table.cfg)
      (hr : SizesOk m.table.cfg) (hf : FewChips sc (startStacks m.table rs).sum m.table.cfg) :
      MachineSession sc (startStacks m.table rs).sum m'
  | step {total : Int} {m : Machine} (bet : PyNum) (h : MachineSession sc total m) : MachineSession sc total (stepM sc m bet).1
  | next {total : Int} {m m' : Machine} {rb : Bool} {shuf : Shuffle} {obs : Observation}
      (h : MachineSession sc total m) (he : m.table.action = none) (hs : IsShuffle shuf)
      (hr : resetM sc m rb false shuf = (m', .ok obs)) : MachineSession sc total m'

/-- What a program can do with such a dealer: construct it, reset it and step it, in any order, with any arguments. -/
inductive MachineReachable (sc : Int → Int) : Machine → Prop
  | new {a : DealerArgs} {shuf : Shuffle} {m : Machine} (hs : IsShuffle shuf) (h : newM a shuf = .ok m) : MachineReachable sc m
  | reset {m : Machine} (rb rs : Bool) {shuf : Shuffle} (hs : IsShuffle shuf) (h : MachineReachable sc m) :
      MachineReachable sc (resetM sc m rb rs shuf).1
  | step {m : Machine} (bet : PyNum) (h : MachineReachable sc m) : MachineReachable sc (stepM sc m bet).1

end Clubs.Spec
