import Verif.Spec.Better
import Verif.Spec.Turn
import Verif.Props.NumpyReplay
import Verif.Lemmas.NumpyPlay
import Mathlib.Data.List.Count

/-! # Two deals of the same table, for examples and counterexamples -/

namespace Clubs

open Spec

/-- a shuffle that exchanges the first and the fifth card -/
def swapFive : Shuffle
  | x0 :: x1 :: x2 :: x3 :: x4 :: l => x4 :: x1 :: x2 :: x3 :: x0 :: l
  | l => l

theorem isShuffle_swapFive : IsShuffle swapFive := by
  intro l
  unfold swapFive
  split
  · rw [List.perm_iff_count]
    intro a
    simp only [List.count_cons]
    omega
  · exact .refl _

/-- Two deals and the same bets, from a computation. -/
theorem deals_exist (a : DealerArgs) (cs : List Cmd) {sh sh' : Shuffle} (hs : IsShuffle sh) (hs' : IsShuffle sh') (bets : List PyNum)
    (bet : PyNum) {P : Dealer → Dealer → Dealer → Except Err StepOut → Dealer → Except Err StepOut → Prop}
    [∀ d0 d d' r e' r', Decidable (P d0 d d' r e' r')]
    (h : (playTable a cs).bind (fun r => match r.2.1.reset false false sh, r.2.1.reset false false sh' with
      | (d, .ok _), (e, .ok _) => .ok (decide (P r.2.1 (Spec.afterBets d bets) ((Spec.afterBets d bets).step bet).1
          ((Spec.afterBets d bets).step bet).2 ((Spec.afterBets e bets).step bet).1 ((Spec.afterBets e bets).step bet).2))
      | _, _ => .error .indexError) = .ok true) :
    ∃ d0 d e o o', Reachable d0 ∧ IsShuffle sh ∧ IsShuffle sh' ∧ d0.reset false false sh = (d, .ok o) ∧ d0.reset false false sh' = (e, .ok o') ∧
      P d0 (Spec.afterBets d bets) ((Spec.afterBets d bets).step bet).1 ((Spec.afterBets d bets).step bet).2
        ((Spec.afterBets e bets).step bet).1 ((Spec.afterBets e bets).step bet).2 := by
  cases ht : playTable a cs with
  | error e => rw [ht] at h; simp [Except.bind] at h
  | ok r =>
    rw [ht] at h
    simp only [Except.bind] at h
    have hr := playTable_ok ht
    split at h
    · next d o e o' h1 h2 =>
      simp only [Except.ok.injEq, decide_eq_true_eq] at h
      exact ⟨_, d, e, o, o', hr.2.1, hs, hs', h1, h2, h⟩
    · simp at h

namespace Numpy

theorem deals_exist (a : DealerArgs) (cs : List Cmd) {sh sh' : Shuffle} (hs : IsShuffle sh) (hs' : IsShuffle sh') (bets : List PyNum)
    (bet : PyNum) {P : Dealer → Dealer → Dealer → Except Err StepOut → Dealer → Except Err StepOut → Prop}
    [∀ d0 d d' r e' r', Decidable (P d0 d d' r e' r')]
    (h : (playTable a cs).bind (fun r => match reset r.2.1 false false sh, reset r.2.1 false false sh' with
      | (d, .ok _), (e, .ok _) => .ok (decide (P r.2.1 (arrayAfter d bets) (step (arrayAfter d bets) bet).1
          (step (arrayAfter d bets) bet).2 (step (arrayAfter e bets) bet).1 (step (arrayAfter e bets) bet).2))
      | _, _ => .error .indexError) = .ok true) :
    ∃ d0 d e o o', ArrayReachable d0 ∧ IsShuffle sh ∧ IsShuffle sh' ∧ reset d0 false false sh = (d, .ok o) ∧
      reset d0 false false sh' = (e, .ok o') ∧
      P d0 (arrayAfter d bets) (step (arrayAfter d bets) bet).1 (step (arrayAfter d bets) bet).2
        (step (arrayAfter e bets) bet).1 (step (arrayAfter e bets) bet).2 := by
  cases ht : playTable a cs with
  | error e => rw [ht] at h; simp [Except.bind] at h
  | ok r =>
    rw [ht] at h
    simp only [Except.bind] at h
    have hr := playTable_ok ht
    split at h
    · next d o e o' h1 h2 =>
      simp only [Except.ok.injEq, decide_eq_true_eq] at h
      exact ⟨_, d, e, o, o', hr.2, hs, hs', h1, h2, h⟩
    · simp at h

end Numpy

end Clubs
