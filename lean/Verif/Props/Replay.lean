import Verif.Lemmas.Replay
import Verif.Lemmas.NumpyPlay

/-!
# A hand can be replayed from its history: C83
-/

namespace Clubs

open Spec

variable {S : List Int} {d d' : Dealer} {bet : PyNum}

theorem afterBet_replay (fold : Bool) {b c lo hi : Int} (hlo : 0 ≤ lo → 0 ≤ hi) (hf : fold = true → b ≤ 0) :
    d.afterBet fold c (cleanBet (if fold then -1 else betOf fold c (cleanBet b c lo hi)) c lo hi) =
      d.afterBet fold c (cleanBet b c lo hi) := by
  unfold Dealer.afterBet
  rw [act_eq, act_eq, Numpy.acted_congr d (replay_congr hlo hf)]

theorem finish_history (d : Dealer) : d.finish.1.history = d.history := by
  rcases finish_cases d with ⟨e, -, he⟩ | ⟨p, -, -, he, -⟩ | ⟨p, -, -, he, -⟩
  · rw [he]
  · rw [he]; rfl
  · rw [he]

/-- **C83**: A call of `step` either leaves the table as it is (the bet was refused, or no hand is running) or adds one entry to the history,
and repeating that entry instead of the bet gives exactly the same: table, observation, payouts, done flags, or exception. -/
theorem C83_step (h : InHand S d) (hn : NonNegative S d.cfg) (bet : PyNum) :
    (d.step bet).1 = d ∨ ∃ e, (d.step bet).1.history = d.history ++ [e] ∧ d.step (replayBet e) = d.step bet := by
  cases ha : d.action with
  | none => exact .inl (step_none ha bet)
  | some a =>
    have hl := (live_of_action h ha).1
    have hp := nn_pot hl (nn_of_action h hn ha)
    rcases step_some ha bet with ⟨e, -, he⟩ | ⟨b, e, -, -, he⟩ | ⟨b, c, lo, hi, hb, hs, he⟩
    · exact .inl (by rw [he])
    · exact .inl (by rw [he])
    · right
      have hlo := betSizes_lo_hi hl.seated hp hs
      have hx := betOf_nonneg (b := b) hl.seated hp hs bet.isNeg
      refine ⟨(d.seat, betOf bet.isNeg c (cleanBet b c lo hi), bet.isNeg), ?_, ?_⟩
      · rw [he, finish_history, (afterBet_fields _ _ _ _).2.2.2.1]
        rfl
      · generalize hy : ((d.seat, betOf bet.isNeg c (cleanBet b c lo hi), bet.isNeg) : Nat × Int × Bool) = y
        have hy1 : y.2.1 = betOf bet.isNeg c (cleanBet b c lo hi) := by rw [← hy]
        have hy2 : y.2.2 = bet.isNeg := by rw [← hy]
        have hr := round_replay y
        have hneg := isNeg_replay (e := y) (by rw [hy1]; exact hx)
        rw [hy1, hy2] at hr
        rw [hy2] at hneg
        rcases step_some ha (replayBet y) with ⟨e', hr', -⟩ | ⟨b', e', -, hs', -⟩ | ⟨b', c', lo', hi', hb', hs', he'⟩
        · rw [hr] at hr'; simp at hr'
        · rw [hs] at hs'; simp at hs'
        · rw [hr] at hb'
          rw [hs] at hs'
          simp only [Except.ok.injEq, Prod.mk.injEq] at hb' hs'
          obtain ⟨rfl, rfl, rfl⟩ := hs'
          subst hb'
          rw [he', he, hneg, afterBet_replay _ hlo (round_of_neg hb)]

/-- **C83**: Whatever bets are made during a hand, refused ones and calls after its end included, the entries they add to the history, made
as bets from the same table, lead to the same table. -/
theorem C83_bets (h : InHand S d) (hn : NonNegative S d.cfg) (bets : List PyNum) :
    ∃ added, (afterBets d bets).history = d.history ++ added ∧ afterBets d (replay added) = afterBets d bets := by
  induction bets generalizing d with
  | nil => exact ⟨[], by simp [afterBets], rfl⟩
  | cons b bets ih =>
    obtain ⟨added, h1, h2⟩ := ih (d := (d.step b).1) (.step b h) (by rw [step_cfg]; exact hn)
    rcases C83_step h hn b with he | ⟨e, e1, e2⟩
    · refine ⟨added, ?_, ?_⟩
      · rw [he] at h1; show (afterBets (d.step b).1 bets).history = _; rw [he]; exact h1
      · rw [he] at h2; show _ = afterBets (d.step b).1 bets; rw [he]; exact h2
    · refine ⟨e :: added, ?_, ?_⟩
      · show (afterBets (d.step b).1 bets).history = _
        rw [h1, e1]; simp
      · show afterBets (d.step (replayBet e)).1 (replay added) = afterBets (d.step b).1 bets
        rw [e2, h2]

/-- **C83**: A hand can be replayed from its history: from the table as it was dealt, the recorded moves lead to the table as it is now. -/
theorem C83_replay {rb rs : Bool} {shuf : Shuffle} {obs : Observation} (hd : Seated d) (hs : IsShuffle shuf)
    (hr : d.reset rb rs shuf = (d', .ok obs)) (hn : NonNegative (startStacks d rs) d'.cfg) (bets : List PyNum) :
    afterBets d' (replay (afterBets d' bets).history) = afterBets d' bets := by
  obtain ⟨added, h1, h2⟩ := C83_bets (.dealt hd hs hr) hn bets
  have h0 : d'.history = [] := by
    obtain ⟨-, -, rfl, -⟩ := reset_ok hr
    show (d.blindStart rb rs shuf).history = []
    unfold Dealer.blindStart
    split <;> rfl
  rw [h0, List.nil_append] at h1
  rw [h1, h2]

/-- **C83**: The deal and the history determine the table: if two players' sequences of bets after the same deal leave the same history, they
leave the same table. -/
theorem C83_determined (h : InHand S d) (hn : NonNegative S d.cfg) {bets bets' : List PyNum}
    (he : (afterBets d bets).history = (afterBets d bets').history) : afterBets d bets = afterBets d bets' := by
  obtain ⟨x, h1, h2⟩ := C83_bets h hn bets
  obtain ⟨y, h3, h4⟩ := C83_bets h hn bets'
  rw [h1, h3] at he
  rw [← h2, ← h4, List.append_cancel_left he]

/-- a hand of three players with bets that are no legal sizes, a refused one and a bet after the end, and its history -/
example : ∃ S d, InHand S d ∧ NonNegative S d.cfg ∧
    (afterBets d [.fin 5.5, .fin (-3), .nan, .fin 1, .fin 7, .fin (1 / 2), .fin 4]).history = [(0, 6, false), (1, 0, true), (2, 0, false)] := by
  have := play_exists (a := small 3 [1, 2, 0] 20) (bs := [])
    (f := fun d => nonNegB [20, 20, 20] d && decide ((afterBets d [.fin 5.5, .fin (-3), .nan, .fin 1, .fin 7, .fin (1 / 2), .fin 4]).history =
      [(0, 6, false), (1, 0, true), (2, 0, false)])) (by decide +kernel)
  obtain ⟨d, h1, -, h2⟩ := this
  simp only [Bool.and_eq_true, decide_eq_true_eq] at h2
  exact ⟨_, d, h1, nonNegB_iff h2.1, h2.2⟩

end Clubs
