import Mathlib.Data.Finset.Powerset
import Mathlib.Algebra.BigOperators.Intervals
import Mathlib.Algebra.Order.Ring.Rat
import Verif.Spec.Table

/-!
# How a pot is divided: vocabulary for C24–C27

Players are `0, …, n - 1`. `act i`: player `i` has not folded; `c i`: the chips they put in; `s i`: the strength of their
hand, lower is better. Chip number `t` (counted from 0) of every contribution forms layer `t`.
-/

namespace Clubs.Spec

open Finset

variable (n : Nat) (act : Nat → Bool) (c s : Nat → Int)

/-- who wins layer `t`: of the players who have not folded and have put in a chip number `t`, those with the best hand -/
def winners (t : Nat) : Finset Nat :=
  (range n).filter fun i => act i = true ∧ (t : Int) < c i ∧ ∀ j < n, act j = true → (t : Int) < c j → s i ≤ s j

/-- the chips in layer `t` -/
def layer (t : Nat) : Int := ((range n).filter fun i => (t : Int) < c i).card

/-- no layer with this number or a higher one has any chips -/
def numLayers : Nat := (∑ i ∈ range n, c i).toNat

/-- the pot that is won by exactly the players `W`: all layers won by them -/
def potOf (W : Finset Nat) : Int := ∑ t ∈ range (numLayers n c), if winners n act c s t = W then layer n c t else 0

/-- what player `j` is due: an equal share, rounded down, of every pot they win -/
def due (j : Nat) : Int := ∑ W ∈ (range n).powerset, if j ∈ W then potOf n act c s W / (W.card : Int) else 0

/-- the odd chips of all pots -/
def odd : Int := ∑ W ∈ (range n).powerset, potOf n act c s W % (W.card : Int)

/-- layer by layer, without rounding: an equal share of every layer that player `j` wins -/
def fairShare (j : Nat) : Rat :=
  ∑ t ∈ range (numLayers n c), if j ∈ winners n act c s t then (layer n c t : Rat) / ((winners n act c s t).card : Rat) else 0

/-- Nobody who folded put in more than everybody who did not. -/
def FoldsCovered : Prop := ∀ i < n, act i = false → ∃ j < n, act j = true ∧ c i ≤ c j

/-- No winner is found to be without chips: if two tied players put in different amounts, and the one who put in more
takes part in a pot the better hands have no part in, then the one who put in less, `p`, put in something, more than all better
hands, and not the same as another tied player. -/
def NoDrainedTie : Prop :=
  ∀ p < n, ∀ q < n, act p = true → act q = true → s p = s q → c p < c q →
    (∀ r < n, act r = true → s r < s q → c r < c q) →
    0 < c p ∧ ∀ r < n, act r = true → r ≠ p → (s r < s p → c r < c p) ∧ (s r = s p → c r ≠ c p)

/-! ## at a table -/

/-- `s i` is the value (lower is better) that the evaluator gives the hand of seat `i`, for all seats that are in -/
def Ranks (d : Dealer) (s : Nat → Int) : Prop :=
  ∀ i < d.cfg.numPlayers, isIn d i → d.cfg.evaluator.evaluate (d.holeCards.getD i []) d.communityCards = .ok (s i)

/-- all streets have been played and two or more players are in -/
def AtShowdown (d : Dealer) : Prop := d.cfg.numStreets ≤ d.street ∧ 2 ≤ numIn d

/-- seat `i` is in -/
def inB (d : Dealer) (i : Nat) : Bool := d.active.getD i false

/-- the hypotheses under which the engine divides the pot correctly -/
structure ClearPot (d : Dealer) (s : Nat → Int) : Prop where
  folds : FoldsCovered d.cfg.numPlayers (inB d) (contribution d)
  ties : NoDrainedTie d.cfg.numPlayers (inB d) (contribution d) s

/-- what seat `j` gets out of the pot: its payout plus what it put in -/
def received (d : Dealer) (pays : List Int) (j : Nat) : Int := pays.getD j 0 + contribution d j

/-- what seat `j` is due, and the odd chips -/
def dueAt (d : Dealer) (s : Nat → Int) (j : Nat) : Int := due d.cfg.numPlayers (inB d) (contribution d) s j
def oddAt (d : Dealer) (s : Nat → Int) : Int := odd d.cfg.numPlayers (inB d) (contribution d) s

/-- seat `j` wins a part of the pot -/
def Wins (d : Dealer) (s : Nat → Int) (j : Nat) : Prop :=
  ∃ t, j ∈ winners d.cfg.numPlayers (inB d) (contribution d) s t

/-- no two players who are in have equally strong hands -/
def NoTies (d : Dealer) (s : Nat → Int) : Prop :=
  ∀ i < d.cfg.numPlayers, ∀ j < d.cfg.numPlayers, isIn d i → isIn d j → s i = s j → i = j

/-- all positions pay the same ante, all players start with the same chips -/
def EqualAntes (c : Config) : Prop := ∀ a ∈ c.antes, ∀ b ∈ c.antes, a = b
def EqualStart (S : List Int) : Prop := ∀ a ∈ S, ∀ b ∈ S, a = b

/-- antes differ by at most one chip -/
def CloseAntes (c : Config) : Prop := ∀ a ∈ c.antes, ∀ b ∈ c.antes, a ≤ b + 1

end Clubs.Spec
