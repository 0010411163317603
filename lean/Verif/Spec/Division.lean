import Verif.Spec.Showdown

/-!
# How `engine.py` and `engine_numpy.py` divide a pot: vocabulary for C25, C70, C71, C96 and C97

The rule that the code follows, without the loops and the sorted list that carry it out. Notation as in `Spec/Showdown`.
-/

namespace Clubs.Spec

open Finset

variable (n : Nat) (act : Nat → Bool) (c s : Nat → Int)

/-- `k` has a better hand than `i`; those who have folded have the worst -/
def Beats (k i : Nat) : Prop := act k = true ∧ (act i = true → s k < s i)

/-- `k` and `i` have equally good hands, or both have folded -/
def Equals (k i : Nat) : Prop := act k = act i ∧ (act k = true → s k = s i)

/-- the order in which the players are served: better hands first; among equals those who put in less first, then by seat -/
def Before (k i : Nat) : Prop := Beats act s k i ∨ (Equals act s k i ∧ (c k < c i ∨ (c k = c i ∧ k < i)))

instance (k i : Nat) : Decidable (Beats act s k i) := by unfold Beats; infer_instance
instance (k i : Nat) : Decidable (Equals act s k i) := by unfold Equals; infer_instance
instance (k i : Nat) : Decidable (Before act c s k i) := by unfold Before; infer_instance

/-- so far the layers of the pot have been given out when it is the turn of player `i` -/
def reached (i : Nat) : Int := (((range n).filter fun k => Before act c s k i).sup fun k => (c k).toNat : Nat)

/-- the chips given out when it is the turn of player `i`: of everybody's, those above what has been reached, up to as many as
player `i` put in -/
def piece (i : Nat) : Int :=
  ∑ k ∈ range n, (min (c k) (max (c i) (reached n act c s i)) - min (c k) (reached n act c s i))

/-- player `i` finds chips when it is their turn -/
def Served (i : Nat) : Prop := reached n act c s i < c i

instance (i : Nat) : Decidable (Served n act c s i) := by unfold Served; infer_instance

/-- who gets a share of them: those with an equally good hand, without those who have already been served. The chips in front of
those who folded go to them and everybody who has been served. -/
def sharers (i : Nat) : Finset Nat :=
  (range n).filter fun k =>
    if act i = true then act k = true ∧ s k = s i ∧ ¬ (Before act c s k i ∧ Served n act c s k)
    else act k = true → Served n act c s k

/-- the shares of player `j`, each rounded down -/
def shares (j : Nat) : Int :=
  ∑ i ∈ range n, if j ∈ sharers n act c s i then piece n act c s i / ((sharers n act c s i).card : Int) else 0

/-- the chips left over from the rounding -/
def left : Int := ∑ i ∈ range n, piece n act c s i % ((sharers n act c s i).card : Int)

/-- the chips of everybody up to as many as player `i` put in: what player `i` can win at most -/
def winnable (i : Nat) : Int := ∑ k ∈ range n, min (c k) (c i)

/-! ## the array engine -/

/-- who gets a share in the array engine: those with an equally good hand who come later in the order, and the player. The chips in
front of those who folded go to everybody at the table. -/
def arraySharers (i : Nat) : Finset Nat :=
  (range n).filter fun k => act i = true → act k = true ∧ s k = s i ∧ ¬ Before act c s k i

/-- the shares of player `j`, each rounded down -/
def arrayShares (j : Nat) : Int :=
  ∑ i ∈ range n, if j ∈ arraySharers n act c s i then piece n act c s i / ((arraySharers n act c s i).card : Int) else 0

/-- the chips left over from the rounding -/
def arrayLeft : Int := ∑ i ∈ range n, piece n act c s i % ((arraySharers n act c s i).card : Int)

/-! ## at a table -/

def arraySharesAt (d : Dealer) (s : Nat → Int) (j : Nat) : Int := arrayShares d.cfg.numPlayers (inB d) (contribution d) s j
def arrayLeftAt (d : Dealer) (s : Nat → Int) : Int := arrayLeft d.cfg.numPlayers (inB d) (contribution d) s
/-- in the array engine, chips are left over and nobody has a share -/
def Unpaid (d : Dealer) (s : Nat → Int) : Prop := arrayLeftAt d s ≠ 0 ∧ ∀ j < d.cfg.numPlayers, arraySharesAt d s j = 0
def sharesAt (d : Dealer) (s : Nat → Int) (j : Nat) : Int := shares d.cfg.numPlayers (inB d) (contribution d) s j
def leftAt (d : Dealer) (s : Nat → Int) : Int := left d.cfg.numPlayers (inB d) (contribution d) s
def winnableAt (d : Dealer) (i : Nat) : Int := winnable d.cfg.numPlayers (contribution d) i

/-- player `i` is in and has a better hand than everybody else who is -/
def Best (d : Dealer) (s : Nat → Int) (i : Nat) : Prop :=
  isIn d i ∧ ∀ k < d.cfg.numPlayers, isIn d k → k ≠ i → s i < s k

end Clubs.Spec
