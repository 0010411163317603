import Verif.Spec.Hands
import Mathlib.Data.Set.Card
import Mathlib.Data.Multiset.Basic

/-!
# What the value of a hand counts: vocabulary for C80
-/

namespace Clubs.Spec

/-- what matters of a hand: its class and its ranks -/
def essence (s r : Nat) (low : Bool) (ps : List (Nat × Nat)) : HandKind × Multiset Nat :=
  (handKind s r low ps, (ps.map (·.1) : List Nat))

/-- With the classes in the order `classes`, from best to worst, the hand `ps` is better than `qs`. -/
def BetterThan (classes : List String) (s r : Nat) (low : Bool) (ps qs : List (Nat × Nat)) : Prop :=
  classes.idxOf (handKind s r low ps).name < classes.idxOf (handKind s r low qs).name ∨
    (handKind s r low ps = handKind s r low qs ∧ tieKey r low (qs.map (·.1)) < tieKey r low (ps.map (·.1)))

/-- the number of essentially different hands -/
noncomputable def numDifferent (s r c : Nat) (low : Bool) : Nat := (essence s r low '' {ps | IsHand s r c ps}).ncard

/-- the number of essentially different hands that are better than `qs` -/
noncomputable def numBetter (classes : List String) (s r c : Nat) (low : Bool) (qs : List (Nat × Nat)) : Nat :=
  (essence s r low '' {ps | IsHand s r c ps ∧ BetterThan classes s r low ps qs}).ncard

/-- no hand is of a better class -/
def BestClass (classes : List String) (s r c : Nat) (low : Bool) (qs : List (Nat × Nat)) : Prop :=
  ∀ ps, IsHand s r c ps → ¬ classes.idxOf (handKind s r low ps).name < classes.idxOf (handKind s r low qs).name

end Clubs.Spec
