import Verif.Props.NumpyShow
import Verif.Props.Flow

/-!
# The array engine: every hand ends (C70), the number of the button (C72)
-/

namespace Clubs.Numpy

open Spec

variable {S : List Int} {d d' : Dealer} {bet : PyNum} {a : Nat}

/-! ## C70 -/

/-- the table after `k` of the bets -/
def afterBets (d : Dealer) (bets : Nat → Rat) : Nat → Dealer
  | 0 => d
  | k + 1 => (step (afterBets d bets k) (.fin (bets k))).1

/-- The hand is over: nobody is to act, or all streets have been dealt and comparing the hands raises an exception. -/
def Over (d : Dealer) : Prop := d.action = none ∨ (AtShowdown d ∧ ∃ e, payouts d = .error e)

theorem afterBets_inHand (h : ArrayInHand S d) (bets : Nat → Rat) (k : Nat) : ArrayInHand S (afterBets d bets k) := by
  induction k with
  | zero => exact h
  | succ k ih => exact ArrayInHand.step _ ih

theorem afterBets_cfg (d : Dealer) (bets : Nat → Rat) (k : Nat) : (afterBets d bets k).cfg = d.cfg := by
  induction k with
  | zero => rfl
  | succ k ih => exact (step_cfg _ _).trans ih

theorem step_over (h : ArrayInHand S d) (ho : Over d) (bet : PyNum) : (step d bet).1 = d := by
  rcases ho with ho | ⟨h1, -⟩
  · exact step_none ho bet
  · cases ha : d.action with
    | none => exact step_none ha bet
    | some a =>
      obtain ⟨hl, -⟩ := live_of_array h ha
      rcases step_some ha bet with ⟨e, -, he⟩ | ⟨b, e, -, -, he⟩ | ⟨b, c, lo, hi, -, hb, he⟩
      · rw [he]
      · rw [he]
      · rw [show d.betSizes = (atSeat d).betSizes from rfl, betSizes_error hl.seated h1.1] at hb
        simp at hb

theorem over_of_error {x : Dealer} {e : Err} (hl : Live S (atSeat x)) (hp : payouts x = .error e) : Over x := by
  obtain ⟨h1, h2, -⟩ := payouts_error hp
  refine .inr ⟨⟨h2, ?_⟩, e, hp⟩
  have h3 : 1 ≤ countTrue x.active := hl.one
  unfold countTrue at h1 h3
  unfold numIn
  omega

theorem street_or_over (h : ArrayInHand S d) : Over d ∨ ∃ a, d.action = some a ∧ d.street < d.cfg.numStreets := by
  induction h with
  | @dealt d d' rb rs shuf obs hd hsh hr =>
    obtain ⟨hl, hst, -⟩ := dealt_live hd (reset_ok_atSeat hd hr)
    obtain ⟨a, ha, -⟩ := hl.action
    exact .inr ⟨a, ha, by rw [show d'.street = 0 from hst]; exact hl.oneStreet⟩
  | @step S d bet h ih =>
    rcases ih with ho | ⟨a, ha, hst⟩
    · rw [step_over h ho]; exact .inl ho
    · cases step_cases h ha bet with
      | refused e he => rw [he]; exact .inr ⟨a, ha, hst⟩
      | stuck b c lo hi e x hb hs hx hlx hp he => rw [he]; exact .inl (over_of_error hlx hp)
      | ended b c lo hi p x obs hb hs hx hlx hp hd ho he => rw [he]; exact .inl (.inl rfl)
      | goesOn b c lo hi p x obs hb hs hx hlx hp hd ho he =>
        rw [he]
        right
        obtain ⟨a', ha', -⟩ := hlx.action
        refine ⟨a', ha', ?_⟩
        show x.street < x.cfg.numStreets
        by_contra hcon
        rw [(done_all_iff x).2 (.inl (by omega))] at hd
        simp at hd

/-- Every step of a hand makes progress or ends it. -/
theorem step_less (h : ArrayInHand S d) (hn : NonNegative S d.cfg) (hz : SizesOk d.cfg) (ha : d.action = some a)
    (hst : d.street < d.cfg.numStreets) (q : Rat) :
    Over (step d (.fin q)).1 ∨ Less (progressOf (atSeat (step d (.fin q)).1)) (progressOf (atSeat d)) := by
  obtain ⟨hsd, hl, hc2⟩ := sound_of_action h hn hz ha
  have key : ∀ (b c lo hi : Int), (atSeat d).betSizes = .ok (c, lo, hi) →
      Less (progressOf ((atSeat d).afterBet (PyNum.fin q).isNeg c (Clubs.cleanBet b c lo hi))) (progressOf (atSeat d)) := by
    intro b c lo hi hb
    rcases afterBet_cases (atSeat d) (PyNum.fin q).isNeg c (Clubs.cleanBet b c lo hi) with ⟨-, h4⟩ | ⟨-, h4⟩
    · rw [h4]
      exact acted_less_of hl (hc2 hst) (nn_pot hl hsd.nn) (exists_unsat_of hl hsd.notAgreed hsd.opt) ha hb
    · apply less_of
      left
      unfold streetsLeft
      rw [Clubs.afterBet_cfg, h4,
        nextStreet_street (d := ((atSeat d).acted (PyNum.fin q).isNeg c (Clubs.cleanBet b c lo hi)).moveAction) hst]
      have hst' : (atSeat d).street < (atSeat d).cfg.numStreets := hst
      split
      · rw [show ((atSeat d).acted (PyNum.fin q).isNeg c (Clubs.cleanBet b c lo hi)).moveAction.cfg = (atSeat d).cfg from rfl]
        omega
      · rw [show ((atSeat d).acted (PyNum.fin q).isNeg c (Clubs.cleanBet b c lo hi)).moveAction.street = (atSeat d).street from rfl]
        omega
  cases step_cases h ha (.fin q) with
  | refused e he why =>
    exfalso
    obtain ⟨c, lo, hi, hb⟩ := betSizes_ok hl.seated hst
    rcases why with hr | hr
    · simp [pyRound] at hr
    · rw [show d.betSizes = (atSeat d).betSizes from rfl, hb] at hr; simp at hr
  | stuck b c lo hi e x hb hs hx hlx hp he => rw [he]; exact .inl (over_of_error hlx hp)
  | ended b c lo hi p x obs hb hs hx hlx hp hd ho he => rw [he]; exact .inl (.inl rfl)
  | goesOn b c lo hi p x obs hb hs hx hlx hp hd ho he =>
    rw [he]
    right
    show Less (progressOf (atSeat x)) _
    rw [(afterBet_sound_of h hn hz ha hb hs hx).2]
    exact key b c lo hi hs

/-- **C70** (part): whatever is bet, after finitely many steps the hand is over for good: nobody is to act any more, or all
streets have been played and comparing the hands raises an exception. -/
theorem C70_ends_partial (h : ArrayInHand S d) (hn : NonNegative S d.cfg) (hz : SizesOk d.cfg) (bets : Nat → Rat) :
    ∃ k, ∀ j ≥ k, Over (afterBets d bets j) := by
  have stay : ∀ k, Over (afterBets d bets k) → ∀ j ≥ k, Over (afterBets d bets j) := by
    intro k hk j hj
    induction j, hj using Nat.le_induction with
    | base => exact hk
    | succ j hj ih =>
      show Over (step (afterBets d bets j) _).1
      rw [step_over (afterBets_inHand h bets j) ih]
      exact ih
  have main : ∀ (p : Nat × Nat × Nat × Nat × Nat) (k : Nat), progressOf (atSeat (afterBets d bets k)) = p →
      ∃ k', Over (afterBets d bets k') := by
    intro p
    induction p using less_wf.induction with
    | _ p ih =>
      intro k hk
      have hin := afterBets_inHand h bets k
      rcases street_or_over hin with ho | ⟨a, ha, hst⟩
      · exact ⟨k, ho⟩
      · rcases step_less hin (by rw [afterBets_cfg]; exact hn) (by rw [afterBets_cfg]; exact hz) ha hst (bets k) with ho | hl
        · exact ⟨k + 1, ho⟩
        · rw [hk] at hl
          exact ih _ hl (k + 1) rfl
  obtain ⟨k, hk⟩ := main _ 0 rfl
  exact ⟨k, stay k hk⟩

/-- **C70**: at tables whose antes differ by at most one chip and where nobody has too few chips for blind and ante, whatever is bet,
after finitely many steps the hand has ended and the chips are paid out, unless the evaluator cannot rank the hands. Odd chips
never stop a hand (as they do in the other engine, `C37_false`). -/
theorem C70_ends (h : ArrayInHand S d) (hn : NonNegative S d.cfg) (hz : SizesOk d.cfg) (hcov : Covers S d.cfg)
    (he : CloseAntes d.cfg) (bets : Nat → Rat) :
    ∃ k, ∀ j ≥ k, (afterBets d bets j).action = none ∨
      (AtShowdown (afterBets d bets j) ∧ ¬ ∃ s, Ranks (afterBets d bets j) s) := by
  obtain ⟨k, hk⟩ := C70_ends_partial h hn hz bets
  refine ⟨k, fun j hj => ?_⟩
  rcases hk j hj with h1 | ⟨h1, e, h2⟩
  · exact .inl h1
  · cases ha : (afterBets d bets j).action with
    | none => exact .inl rfl
    | some a =>
      refine .inr ⟨h1, ?_⟩
      rintro ⟨s, hr⟩
      have hin := afterBets_inHand h bets j
      have hn' : NonNegative S (afterBets d bets j).cfg := by rw [afterBets_cfg]; exact hn
      have hz' : SizesOk (afterBets d bets j).cfg := by rw [afterBets_cfg]; exact hz
      obtain ⟨hsd, hl, -⟩ := sound_of_action hin hn' hz' ha
      have hf := C71_folds_covered hin hn' hz' (by rw [afterBets_cfg]; exact hcov) (by rw [afterBets_cfg]; exact he)
      obtain ⟨h3, h4, -⟩ := payouts_error h2
      cases showdown_paid hl.seated hl.holeLen hl.pot hsd.nn.contrib hr hf h3 h4 with
      | even p hp => rw [h2] at hp; simp at hp
      | odd p w hp => rw [h2] at hp; simp at hp

/-- the hand of `C37_false`, before the step that gets stuck in the other engine: here that step ends it -/
example : ∃ S d d' out, ArrayInHand S d ∧ ArrayReachable d ∧ step d (.fin 0) = (d', .ok out) ∧ NonNegative S d.cfg ∧
    SizesOk d.cfg ∧ Covers S d.cfg ∧ CloseAntes d.cfg ∧ d.action = some 1 ∧ d'.action = none ∧ d.button = 1 ∧
    out.2.1 = [1, 0, -1] :=
  step_exists (ties 3 [1, 2, 0] 10) [.bet (-1), .bet (-1), .deal, .bet 2, .bet (-1), .bet 0, .bet 0] (.fin 0)
    (by decide +kernel)

/-! ## C72 -/

theorem afterBet_button (d : Dealer) (fold : Bool) (c b : Int) : (afterBet d fold c b).button = d.button := by
  unfold afterBet
  split
  · unfold nextStreet
    simp only []
    rw [dealStreets_shared, dealStreets_fields]
    show (act d fold c b).button = d.button
    rw [act_shared, act_eq]
    rfl
  · rw [act_shared, act_eq]; rfl

/-- **C72**: no step changes the number of the button. -/
theorem C72_step (d : Dealer) (bet : PyNum) : (step d bet).1.button = d.button := by
  cases ha : d.action with
  | none => rw [step_none ha]
  | some a =>
    rcases step_some ha bet with ⟨e, -, he⟩ | ⟨b, e, -, -, he⟩ | ⟨b, c, lo, hi, -, -, he⟩
    · rw [he]
    · rw [he]
    · rw [he]
      rcases finish_cases (afterBet d bet.isNeg c (cleanBet b c lo hi)) with ⟨e, -, hf⟩ | ⟨p, -, -, hf, -⟩ | ⟨p, -, -, hf, -⟩
      · rw [hf]; exact afterBet_button _ _ _ _
      · rw [hf]; exact afterBet_button _ _ _ _
      · rw [hf]; exact afterBet_button _ _ _ _

/-- **C72**: every hand dealt without `reset_button` adds one to the number of the button, without ever going back to 0; it is
the number that the observation shows. Modulo the number of seats it is the seat after the one before. -/
theorem C72_reset {rb rs : Bool} {shuf : Shuffle} {obs : Observation} (hd : Seated (atSeat d))
    (h : reset d rb rs shuf = (d', .ok obs)) :
    d'.button = (if rb then 0 else d.button + 1) ∧ obs.button = d'.button := by
  have htwo : 2 ≤ d.cfg.numPlayers := hd.two
  rcases reset_eq d rb rs shuf with ⟨-, -, h1⟩ | ⟨-, ⟨-, h1⟩ | ⟨-, h1⟩⟩
  · rw [h] at h1; simp at h1
  · rw [h] at h1; simp at h1
  · rw [h] at h1
    obtain ⟨h2, h3⟩ := Prod.mk.inj h1
    have hb : d'.button = nextButton d rb := by
      rw [h2]
      show (posted d rb rs shuf).button = _
      unfold posted
      show (blindStart d rb rs shuf).button = _
      unfold blindStart
      split <;> rfl
    constructor
    · rw [hb]
      unfold nextButton
      rw [Nat.mod_eq_of_lt (show 1 < d.cfg.numPlayers by omega)]
    · have h4 : observation d' false = .ok obs := by rw [h2]; exact h3.symm
      unfold observation Dealer.observation at h4
      simp only [] at h4
      split at h4
      · simp at h4
      · split at h4
        · simp at h4
        · simp only [Except.ok.injEq] at h4
          rw [← h4]

/-- **C72 (the button that an observation shows is a seat) is false**: at a table with two seats, after two hands it is 2. -/
theorem C72_false : ∃ S d, ArrayInHand S d ∧ ArrayReachable d ∧ NonNegative S d.cfg ∧ SizesOk d.cfg ∧
    d.cfg.numPlayers = 2 ∧ d.action ≠ none ∧ d.button = 2 ∧
      (match observation d false with | .ok o => o.button | .error _ => 0) = 2 :=
  hand_exists (small 2 [1, 2] 20) [.bet (-1), .deal, .bet (-1), .deal] (by decide +kernel)

end Clubs.Numpy
