import Verif.Lemmas.NumpyRun
import Verif.Lemmas.View
import Verif.Props.Betting
import Verif.Spec.Replay

/-!
# Repeating a bet by its recorded size
-/

namespace Clubs

open Spec

/-- `_clean_bet` leaves the sizes it returns as they are -/
theorem cleanBet_again (b c lo hi : Int) (h : 0 ≤ cleanBet b c lo hi) :
    cleanBet (cleanBet b c lo hi) c lo hi = cleanBet b c lo hi := by
  have key : ∀ x : Int, 0 ≤ x → (x = 0 ∨ x = c ∨ x = hi ∨ x = lo ∧ lo ≤ hi) → cleanBet x c lo hi = x := by
    intro x hx hor
    have e : max 0 x = x := max_eq_right hx
    have := cleanBet_cases x c lo hi
    rw [e] at this
    simp only [abs_eq_max_neg] at this
    rcases this with h1 | h1 | h1 | h1 <;> omega
  have hB : 0 ≤ max 0 b := le_max_left _ _
  rcases cleanBet_cases b c lo hi with h1 | h1 | h1 | h1
  · rw [h1.2.2.2] at h ⊢
    exact key 0 h (.inl rfl)
  · rw [h1.2.2.2] at h ⊢
    exact key c h (.inr (.inl rfl))
  all_goals
    by_cases hin : lo ≤ max 0 b ∧ max 0 b ≤ hi
    · have e : cleanBet b c lo hi = max 0 b := by rw [h1.2.2.2]; omega
      rw [e]
      have : cleanBet (max 0 b) c lo hi = cleanBet b c lo hi := by
        unfold cleanBet
        rw [max_eq_right hB]
      rw [this, e]
    · rw [h1.2.2.2] at h ⊢
      refine key _ h ?_
      omega

theorem cleanBet_zero (c lo hi : Int) : cleanBet 0 c lo hi = 0 := by
  have := cleanBet_cases 0 c lo hi
  simp only [abs_eq_max_neg] at this
  rcases this with h1 | h1 | h1 | h1 <;> omega

theorem cleanBet_nonpos {b : Int} (hb : b ≤ 0) (c lo hi : Int) : cleanBet b c lo hi = 0 := by
  rw [← cleanBet_zero c lo hi]
  unfold cleanBet
  rw [max_eq_left hb, max_eq_left le_rfl]

theorem round_replay (e : Nat × Int × Bool) : pyRound (replayBet e) = .ok (if e.2.2 then -1 else e.2.1) := by
  unfold replayBet
  split
  · have := roundHalfEven_int (-1)
    simp only [pyRound, Except.ok.injEq]
    simpa using this
  · simp only [pyRound, Except.ok.injEq]
    exact roundHalfEven_int _

theorem isNeg_replay {e : Nat × Int × Bool} (h : 0 ≤ e.2.1) : (replayBet e).isNeg = e.2.2 := by
  unfold replayBet
  split
  · next h1 => rw [h1]; rfl
  · next h1 =>
    simp only [Bool.not_eq_true] at h1
    rw [h1]
    simp only [PyNum.isNeg, decide_eq_false_iff_not, not_lt]
    exact_mod_cast h

theorem round_of_neg {bet : PyNum} {b : Int} (hr : pyRound bet = .ok b) (hn : bet.isNeg = true) : b ≤ 0 := by
  cases bet with
  | fin q =>
    simp only [pyRound, Except.ok.injEq] at hr
    simp only [PyNum.isNeg, decide_eq_true_eq] at hn
    rw [← hr]; exact roundHalfEven_neg hn
  | _ => simp [pyRound] at hr

/-- repeating the recorded size makes the same move -/
theorem replay_congr {b c lo hi : Int} {fold : Bool} (hlo : 0 ≤ lo → 0 ≤ hi) (hf : fold = true → b ≤ 0) :
    (c ≠ 0 ∧ (cleanBet b c lo hi < c ∨ fold = true)) ∧
      (c ≠ 0 ∧ (cleanBet (if fold then -1 else betOf fold c (cleanBet b c lo hi)) c lo hi < c ∨ fold = true)) ∨
      cleanBet b c lo hi = cleanBet (if fold then -1 else betOf fold c (cleanBet b c lo hi)) c lo hi := by
  have h0 := cleanBet_nonneg (b := b) (c := c) hlo
  cases fold with
  | true =>
    right
    rw [cleanBet_nonpos (hf rfl), if_pos rfl, cleanBet_nonpos (by omega)]
  | false =>
    rw [if_neg (by simp)]
    unfold betOf
    split
    · next h1 =>
      left
      refine ⟨h1, h1.1, .inl ?_⟩
      rw [cleanBet_zero]
      have := h1.2
      simp at this
      omega
    · right
      rw [cleanBet_again _ _ _ _ h0]

end Clubs
