import Verif.Props.NumpyTurn
import Verif.Props.NumpyReplay
import Verif.Props.NumpyCards
import Verif.Props.NumpyStuck

/-!
# No seat is favoured by the array engine, for whole hands: C82
-/

namespace Clubs.Numpy

open Spec

variable {S : List Int} {d d' : Dealer} {bet : PyNum}

/-- **C82** for the array engine (partial: the button's number is a seat, and at most one chip of ante difference): from every state of a hand
at a sensible table, whatever is bet and however the hand ends, turning the table turns everything: states, rewards, done flags and observations. -/
theorem C82_hand_partial (h : ArrayInHand S d) (hre : ArrayReachable d) (hn : NonNegative S d.cfg) (hz : SizesOk d.cfg)
    (hcov : Covers S d.cfg) (hca : CloseAntes d.cfg) (he : Enough d.cfg) (hf : HandsFit d.cfg) (hg : GoodEvaluator d.cfg)
    (hb : d.button < d.cfg.numPlayers) (k : Nat) (bets : List PyNum) :
    arrayAfter (turnTable k d) bets = turnTable k (arrayAfter d bets) ∧
    ∀ bet, (arrayAfter d bets).action ≠ none →
      SameResult d.cfg.numPlayers k (step (arrayAfter d bets) bet).2 (step (turnTable k (arrayAfter d bets)) bet).2 := by
  have one : ∀ (x : Dealer), ArrayInHand S x → ArrayReachable x → x.cfg = d.cfg → x.button = d.button → x.action ≠ none → ∀ bet,
      (step (turnTable k x) bet).1 = turnTable k (step x bet).1 ∧
        SameResult d.cfg.numPlayers k (step x bet).2 (step (turnTable k x) bet).2 := by
    intro x h1 h2 h3 h4 h5 bet
    have h6 := step_cfg x bet
    have := C82_standard_partial (bet := bet) h1 (by rw [h3]; exact hn) (by rw [h3]; exact hz) (by rw [h3]; exact hcov)
      (by rw [h3]; exact hca) (by rw [h3, h4]; exact hb) h5 (fun hsh => by
        have h7 := Dealt.hole_ne (d := atSeat x) (array_seated h2) (array_dealt h2) h5
        refine ranks_exist (.step bet h2) ?_ (by have := hsh.1; omega) ?_ ?_ ?_
        · rw [(C74_grow h2 bet).2.1]; exact h7
        all_goals rw [h6, h3]; assumption) k
    rwa [h3] at this
  have base : ∀ (bets : List PyNum) (x : Dealer), ArrayInHand S x → ArrayReachable x → x.cfg = d.cfg → x.button = d.button →
      arrayAfter (turnTable k x) bets = turnTable k (arrayAfter x bets) ∧
      ∀ bet, (arrayAfter x bets).action ≠ none →
        SameResult d.cfg.numPlayers k (step (arrayAfter x bets) bet).2 (step (turnTable k (arrayAfter x bets)) bet).2 := by
    intro bets
    induction bets with
    | nil => exact fun x h1 h2 h3 h4 => ⟨rfl, fun bet ha => (one x h1 h2 h3 h4 ha bet).2⟩
    | cons b bets ih =>
      intro x h1 h2 h3 h4
      have key : (step (turnTable k x) b).1 = turnTable k (step x b).1 := by
        by_cases ha : x.action = none
        · rw [step_none ha, step_none (by simp [turnTable, ha])]
        · exact (one x h1 h2 h3 h4 ha b).1
      have := ih (step x b).1 (.step b h1) (.step b h2) (by rw [step_cfg, h3]) (by rw [C72_step, h4])
      refine ⟨?_, this.2⟩
      show arrayAfter (step (turnTable k x) b).1 bets = turnTable k (arrayAfter (step x b).1 bets)
      rw [key]
      exact this.1
  exact base bets d h hre rfl rfl

/-- bets of a hand that three tied players end with an odd chip -/
def oddHand : List PyNum := [.fin 2, .fin (-1), .fin 0, .fin 0, .fin 0]

/-- The hypotheses, at the start of such a hand: the turned hand pays the turned amounts. -/
example : ∃ S d, ArrayInHand S d ∧ ArrayReachable d ∧ NonNegative S d.cfg ∧ SizesOk d.cfg ∧ Covers S d.cfg ∧ CloseAntes d.cfg ∧
    Enough d.cfg ∧ HandsFit d.cfg ∧ GoodEvaluator d.cfg ∧ d.button < d.cfg.numPlayers ∧
    (arrayAfter d oddHand).action = none ∧ (arrayAfter d oddHand).«stacks» = [11, 10, 9] ∧
    (arrayAfter (turnTable 1 d) oddHand).«stacks» = [10, 9, 11] := by
  obtain ⟨d, hd, h1, d', obs, hr, h2⟩ : ∃ d, new (ties 3 [1, 2, 0] 10) id = .ok d ∧
      (NonNegative d.stacks d.cfg ∧ SizesOk d.cfg ∧ Covers d.stacks d.cfg ∧ CloseAntes d.cfg ∧ Enough d.cfg ∧ HandsFit d.cfg) ∧
      ∃ d' obs, reset d false false id = (d', .ok obs) ∧ d'.button < d'.cfg.numPlayers ∧ (arrayAfter d' oddHand).action = none ∧
        (arrayAfter d' oddHand).«stacks» = [11, 10, 9] ∧ (arrayAfter (turnTable 1 d') oddHand).«stacks» = [10, 9, 11] := by
    have key : (match new (ties 3 [1, 2, 0] 10) id with
      | .ok d => decide (NonNegative d.stacks d.cfg ∧ SizesOk d.cfg ∧ Covers d.stacks d.cfg ∧ CloseAntes d.cfg ∧ Enough d.cfg ∧
          HandsFit d.cfg) && (match reset d false false id with
            | (d', .ok _) => decide (d'.button < d'.cfg.numPlayers ∧ (arrayAfter d' oddHand).action = none ∧
                (arrayAfter d' oddHand).«stacks» = [11, 10, 9] ∧ (arrayAfter (turnTable 1 d') oddHand).«stacks» = [10, 9, 11])
            | _ => false)
      | .error _ => false) = true := by decide +kernel
    split at key
    · next d hd =>
      rw [Bool.and_eq_true, decide_eq_true_eq] at key
      refine ⟨d, hd, key.1, ?_⟩
      have h2 := key.2
      split at h2
      · next d' obs hr => exact ⟨d', obs, hr, of_decide_eq_true h2⟩
      · cases h2
    · cases key
  have hcfg : d'.cfg = d.cfg := by have := reset_cfg d false false id; rwa [hr] at this
  have hre := ArrayReachable.reset false false isShuffle_id (.new isShuffle_id hd)
  rw [hr] at hre
  obtain ⟨g1, g2, g3, g4, g5, g6⟩ := h1
  refine ⟨_, d', .dealt (rs := false) (new_atSeat hd) isShuffle_id hr, hre, ?_, ?_, ?_, ?_, ?_, ?_, ?_, h2⟩
  all_goals rw [hcfg]
  exacts [g1, g2, g3, g4, g5, g6, new_goodEvaluator hd rfl]

end Clubs.Numpy
