import Verif.Props.Replay
import Verif.Props.NumpyMoney

/-!
# A hand of the array engine can be replayed from its history: C83
-/

namespace Clubs.Numpy

open Spec

variable {S : List Int} {d d' : Dealer} {bet : PyNum}

/-- the table of the array engine after the bets -/
def arrayAfter (d : Dealer) (bets : List PyNum) : Dealer := bets.foldl (fun e b => (step e b).1) d

theorem afterBet_congr {fold : Bool} {c x y : Int}
    (h : (c ≠ 0 ∧ (x < c ∨ fold = true)) ∧ (c ≠ 0 ∧ (y < c ∨ fold = true)) ∨ x = y) : afterBet d fold c x = afterBet d fold c y := by
  unfold afterBet
  rw [act_shared, act_shared, act_eq, act_eq, acted_congr d h]

theorem finish_history (d : Dealer) : (finish d).1.history = d.history := by
  rcases finish_cases d with ⟨e, -, he⟩ | ⟨p, -, -, he, -⟩ | ⟨p, -, -, he, -⟩
  · rw [he]
  · rw [he]; rfl
  · rw [he]

/-- **C83** for the array engine: a call of `step` either leaves the table as it is or adds one entry to the history, and repeating that entry
instead of the bet gives exactly the same. -/
theorem C83_step (h : ArrayInHand S d) (hn : NonNegative S d.cfg) (hz : SizesOk d.cfg) (bet : PyNum) :
    (step d bet).1 = d ∨ ∃ e, (step d bet).1.history = d.history ++ [e] ∧ step d (replayBet e) = step d bet := by
  cases ha : d.action with
  | none => exact .inl (step_none ha bet)
  | some a =>
    obtain ⟨hso, hl, -⟩ := sound_of_action h hn hz ha
    have hp : 0 ≤ (atSeat d).pot := nn_pot hl hso.nn
    have htwo : 2 ≤ d.cfg.numPlayers := hl.seated.two
    rcases step_some ha bet with ⟨e, -, he⟩ | ⟨b, e, -, -, he⟩ | ⟨b, c, lo, hi, hb, hs, he⟩
    · exact .inl (by rw [he])
    · exact .inl (by rw [he])
    · right
      have hs0 : (atSeat d).betSizes = .ok (c, lo, hi) := hs
      have hlo := betSizes_lo_hi hl.seated hp hs0
      have hx := betOf_nonneg (b := b) hl.seated hp hs0 bet.isNeg
      have e0 : afterBet d bet.isNeg c (cleanBet b c lo hi) = afterBet d bet.isNeg c (Clubs.cleanBet b c lo hi) :=
        afterBet_congr (clean_same hl.seated hp hz hs0 (isNeg_of_round hb))
      refine ⟨(d.seat, betOf bet.isNeg c (Clubs.cleanBet b c lo hi), bet.isNeg), ?_, ?_⟩
      · rw [he, finish_history, e0]
        show (atSeat (afterBet d bet.isNeg c (Clubs.cleanBet b c lo hi))).history = _
        rw [afterBet_atSeat (by omega), (afterBet_fields _ _ _ _).2.2.2.1]
        rfl
      · generalize hy : ((d.seat, betOf bet.isNeg c (Clubs.cleanBet b c lo hi), bet.isNeg) : Nat × Int × Bool) = y
        have hy1 : y.2.1 = betOf bet.isNeg c (Clubs.cleanBet b c lo hi) := by rw [← hy]
        have hy2 : y.2.2 = bet.isNeg := by rw [← hy]
        have hr := round_replay y
        have hneg := isNeg_replay (e := y) (by rw [hy1]; exact hx)
        rw [hy1, hy2] at hr
        rw [hy2] at hneg
        rcases step_some ha (replayBet y) with ⟨e', hr', -⟩ | ⟨b', e', -, hs', -⟩ | ⟨b', c', lo', hi', hb', hs', he'⟩
        · rw [hr] at hr'; simp at hr'
        · rw [hs] at hs'; simp at hs'
        · have hneg' := isNeg_of_round hb'
          rw [hr] at hb'
          rw [hs] at hs'
          simp only [Except.ok.injEq, Prod.mk.injEq] at hb' hs'
          obtain ⟨rfl, rfl, rfl⟩ := hs'
          subst hb'
          rw [he', he, hneg, afterBet_congr (clean_same hl.seated hp hz hs0 (by rw [hneg] at hneg'; exact hneg')), e0,
            ← afterBet_congr (replay_congr hlo (round_of_neg hb))]

theorem arrayInHand_nonneg (hn : NonNegative S d.cfg) (b : PyNum) : NonNegative S (step d b).1.cfg := by rw [step_cfg]; exact hn

/-- **C83** for the array engine: whatever bets are made during a hand, the entries they add to the history, made as bets from the same table,
lead to the same table. -/
theorem C83_bets (h : ArrayInHand S d) (hn : NonNegative S d.cfg) (hz : SizesOk d.cfg) (bets : List PyNum) :
    ∃ added, (arrayAfter d bets).history = d.history ++ added ∧ arrayAfter d (replay added) = arrayAfter d bets := by
  induction bets generalizing d with
  | nil => exact ⟨[], by simp [arrayAfter], rfl⟩
  | cons b bets ih =>
    obtain ⟨added, h1, h2⟩ := ih (d := (step d b).1) (.step b h) (arrayInHand_nonneg hn b) (by rw [step_cfg]; exact hz)
    rcases C83_step h hn hz b with he | ⟨e, e1, e2⟩
    · refine ⟨added, ?_, ?_⟩
      · rw [he] at h1; show (arrayAfter (step d b).1 bets).history = _; rw [he]; exact h1
      · rw [he] at h2; show _ = arrayAfter (step d b).1 bets; rw [he]; exact h2
    · refine ⟨e :: added, ?_, ?_⟩
      · show (arrayAfter (step d b).1 bets).history = _
        rw [h1, e1]; simp
      · show arrayAfter (step d (replayBet e)).1 (replay added) = arrayAfter (step d b).1 bets
        rw [e2, h2]

/-- **C83** for the array engine: a hand can be replayed from its history. -/
theorem C83_replay {rb rs : Bool} {shuf : Shuffle} {obs : Observation} (hd : Seated (atSeat d)) (hs : IsShuffle shuf)
    (hr : reset d rb rs shuf = (d', .ok obs)) (hn : NonNegative (startStacks d rs) d'.cfg) (hz : SizesOk d'.cfg) (bets : List PyNum) :
    arrayAfter d' (replay (arrayAfter d' bets).history) = arrayAfter d' bets := by
  obtain ⟨added, h1, h2⟩ := C83_bets (.dealt hd hs hr) hn hz bets
  have h0 : (atSeat d').history = [] := by
    obtain ⟨-, -, hx, -⟩ := reset_ok (reset_ok_atSeat hd hr)
    rw [hx]
    show ((atSeat d).blindStart rb rs shuf).history = []
    unfold Dealer.blindStart
    split <;> rfl
  rw [show d'.history = [] from h0, List.nil_append] at h1
  rw [h1, h2]

/-- a hand that goes to a showdown, with bets that are no legal sizes, and its history -/
example : ∃ S d, ArrayInHand S d ∧ ArrayReachable d ∧ d.history = [] ∧ NonNegative S d.cfg ∧ SizesOk d.cfg ∧
    (arrayAfter d [.fin 5.5, .fin 4, .nan, .fin (-1), .fin 7, .fin 1]).history =
      [(0, 6, false), (1, 5, false), (1, 0, true), (0, 7, false), (1, 0, false)] :=
  hand_exists (small 2 [1, 2] 20) [] (by decide +kernel)

end Clubs.Numpy
