import Verif.Props.Config
import Verif.Props.Showdown
import Verif.Spec.Numpy

/-!
# The first hand of a shipped configuration meets the hypotheses of the theorems about hands
-/

namespace Clubs

open Spec

structure GoodTable (S : List Int) (c : Config) : Prop where
  nonneg : NonNegative S c
  sizes : SizesOk c
  covers : Covers S c
  antes : CloseAntes c
  enough : Enough c
  fits : HandsFit c
  evaluator : GoodEvaluator c

theorem getD_mem_of_lt {l : List Int} {i : Nat} (h : i < l.length) : l.getD i 0 ∈ l := by
  rw [getD_eq _ _ _ h]; exact List.getElem_mem h

theorem shipped_good {a : DealerArgs} (h : a ∈ ALL_CONFIGS) {shuf : Shuffle} {d : Dealer} (hd : Dealer.new a shuf = .ok d)
    (rs : Bool) : GoodTable (startStacks d rs) d.cfg := by
  obtain ⟨p1, p2, p3, p4, -⟩ := (C45_shipped a h).plays shuf d hd
  obtain ⟨v1, v2, -, -, -, v6, -, v8, -, -, -, v11, v12, -⟩ := C44_values a shuf d hd
  have w1 := expands_eq v1
  have w2 := expands_eq v2
  have key : ∀ a ∈ ALL_CONFIGS, 0 ≤ a.startStack ∧ (∀ b ∈ expandL a.blinds a.numPlayers, 0 ≤ b) ∧
      (∀ b ∈ expandL a.antes a.numPlayers, 0 ≤ b) ∧
      (∀ x ∈ expandL a.antes a.numPlayers, ∀ y ∈ expandL a.antes a.numPlayers, x ≤ y + 1) ∧
      (∀ i < a.numPlayers.toNat, (expandL a.antes a.numPlayers).getD i 0 + (expandL a.blinds a.numPlayers).getD i 0 ≤ a.startStack) := by
    decide +kernel
  obtain ⟨k1, k2, k3, k4, k5⟩ := key a h
  have hS : startStacks d rs = List.replicate d.cfg.numPlayers a.startStack := by
    unfold startStacks
    rw [v11, v12]; simp
  refine ⟨⟨?_, by rw [w1]; exact k2, by rw [w2]; exact k3⟩, ⟨k2 _ (saysAt_mem v8), p4⟩, ?_, ?_, p1, p2, p3⟩
  · rw [hS]
    intro s hs
    rw [List.eq_of_mem_replicate hs]; exact k1
  · intro i hi
    right
    intro j hj
    rw [hS, w1, w2, getD_replicate _ _ _ _ hi]
    exact k5 j (by omega)
  · unfold CloseAntes
    rw [w2]; exact k4

end Clubs
