import Verif.Spec.Hands
import Mathlib.Data.Finset.Powerset
import Mathlib.Data.Finset.Prod
import Mathlib.Data.Finset.Dedup
import Mathlib.Data.Nat.Choose.Basic
import Mathlib.Order.Interval.Finset.Nat

/-!
# How many hands there are: vocabulary for C16
-/

namespace Clubs.Spec

/-- the deck with `s` suits and the `r` highest ranks, as a set -/
def deckSet (s r : Nat) : Finset (Nat × Nat) := Finset.Ico (13 - r) 13 ×ˢ Finset.range s

/-- the number of sets of `c` cards of the deck that are a hand of kind `k` -/
noncomputable def numHands (s r c : Nat) (low : Bool) (k : HandKind) : Nat :=
  (((deckSet s r).powersetCard c).filter fun H => handKind s r low H.toList = k).card

/-- which part of all hands of `c` cards is of kind `k` -/
noncomputable def frequency (s r c : Nat) (low : Bool) (k : HandKind) : Rat :=
  (numHands s r c low k : Rat) / (Nat.choose (r * s) c : Rat)

/-- a decimal digit -/
def digit (n : Nat) : Char := Nat.digitChar (n % 10)

/-- `n` ten-thousandths of a percent in writing: 24010 is `2.4010%` -/
def percentText (n : Nat) : List Char :=
  Nat.toDigits 10 (n / 10000) ++ ['.', digit (n / 1000), digit (n / 100), digit (n / 10), digit n, '%']

end Clubs.Spec
