import Verif.Lemmas.Hist
import Verif.Props.Flow
import Verif.Props.Betting
import Verif.Props.NumpyReplay
import Verif.Lemmas.Play
import Verif.Lemmas.NumpyPlay

/-!
# Players without a decision (C93) and larger bets (C94)
-/

namespace Clubs

open Spec

variable {S : List Int} {d d' e : Dealer} {a : Nat} {bet : PyNum} {out : StepOut} {q r : Rat}

/-! ## C93 -/

/-- the bet sizes of a player without chips -/
theorem broke_sizes {c lo hi : Int} (hd : Seated d) (h : d.betSizes = .ok (c, lo, hi)) (hs : stack d d.seat = 0) : c = 0 ∧ lo ≤ 0 ∧ hi ≤ 0 := by
  have hc := call_nonneg hd
  obtain ⟨h1, h2, h3⟩ := betSizes_le h
  obtain ⟨rs, nr, -, -, h4, -⟩ := betSizes_spec h
  omega

theorem broke_bet {b c lo hi : Int} (hc : c = 0) (hlo : lo ≤ 0) (hhi : hi ≤ 0) : cleanBet b c lo hi = 0 := by
  subst hc
  rcases cleanBet_cases b 0 lo hi with ⟨-, -, -, e⟩ | ⟨-, -, -, e⟩ | ⟨h1, -⟩ | ⟨h1, -⟩
  · exact e
  · exact e
  all_goals rw [abs_of_nonpos (by omega), abs_of_nonpos (by omega)] at h1; omega

/-- **C93**: it makes no difference what a player without chips answers: any two finite bets return the same observation, payouts and done
flags (or raise the same exception) and leave the same table, with the same moves in the history. -/
theorem C93_same (h : InHand S d) (ha : d.action = some a) (hs : stack d a = 0) (q r : Rat) :
    (d.step (.fin q)).2 = (d.step (.fin r)).2 ∧ SameButHistory (d.step (.fin q)).1 (d.step (.fin r)).1 ∧
      movesOf (d.step (.fin q)).1 = movesOf (d.step (.fin r)).1 := by
  have hd := (live_of_action h ha).1.seated
  rw [← seat_some ha] at hs
  rcases step_some ha (.fin q) with ⟨e, hr, he⟩ | ⟨b, e, hr, hr2, he⟩ | ⟨b, c, lo, hi, hr, hsz, he⟩
  · simp [pyRound] at hr
  · rcases step_some ha (.fin r) with ⟨e', gr, ge⟩ | ⟨b', e', gr, gr2, ge⟩ | ⟨b', c', lo', hi', gr, gs, ge⟩
    · simp [pyRound] at gr
    · rw [hr2] at gr2; cases gr2
      rw [he, ge]; exact ⟨rfl, rfl, rfl⟩
    · rw [hr2] at gs; cases gs
  · rcases step_some ha (.fin r) with ⟨e', gr, ge⟩ | ⟨b', e', gr, gr2, ge⟩ | ⟨b', c', lo', hi', gr, gs, ge⟩
    · simp [pyRound] at gr
    · rw [hsz] at gr2; cases gr2
    · rw [hsz] at gs; cases gs
      obtain ⟨k1, k2, k3⟩ := broke_sizes hd hsz hs
      rw [he, ge, broke_bet k1 k2 k3, broke_bet k1 k2 k3, k1]
      obtain ⟨x, e1, e2⟩ := afterBet_flag d (PyNum.fin q).isNeg (PyNum.fin r).isNeg
      rw [e1, withHist_finish]
      refine ⟨rfl, rfl, ?_⟩
      have e3 : ∀ y : Dealer, movesOf y.finish.1 = movesOf y := by
        intro y
        rcases finish_cases y with ⟨e, -, h⟩ | ⟨p, -, -, h, -⟩ | ⟨p, -, -, h, -⟩ <;> rw [h] <;> rfl
      rw [e3, ← e2]; rfl

/-- **C93**: nothing that is returned later in the hand depends on it either. -/
theorem C93_later (h : InHand S d) (ha : d.action = some a) (hs : stack d a = 0) (q r : Rat) (bets : List PyNum) (bet : PyNum) :
    ((Spec.afterBets (d.step (.fin q)).1 bets).step bet).2 = ((Spec.afterBets (d.step (.fin r)).1 bets).step bet).2 :=
  (step_sameHistory (bets_sameHistory bets (C93_same h ha hs q r).2.1) bet).2

/-- **C93**: a player without chips cannot fold and puts nothing in. -/
theorem C93_stays (h : InHand S d) (ha : d.action = some a) (hs : stack d a = 0) (hst : d.step bet = (d', .ok out)) :
    isIn d' a ∧ moved d d' a = 0 := by
  refine ⟨C34_check h ha hst (.inr hs), ?_⟩
  obtain ⟨b, c, lo, hi, x, p, v⟩ := step_view h ha hst
  have hd := (live_of_action h ha).1.seated
  rw [v.moved hd a (hd.action a ha), seat_some ha, if_pos rfl, hs]
  rw [← seat_some ha] at hs
  obtain ⟨k1, k2, k3⟩ := broke_sizes hd v.sizes hs
  rw [broke_bet k1 k2 k3]
  unfold betOf
  split <;> rfl

/-- **C93**: what has been recorded never influences the play: of two tables that differ in their histories only, the same bet returns the
same and leaves two such tables. -/
theorem C93_record (hd : SameButHistory d e) (bet : PyNum) :
    (d.step bet).2 = (e.step bet).2 ∧ SameButHistory (d.step bet).1 (e.step bet).1 :=
  ⟨(step_sameHistory hd bet).2, (step_sameHistory hd bet).1⟩

/-- **C93** (the part that is true): a player who has folded is not asked again. -/
theorem C93_folded_partial (h : InHand S d) {i : Nat} (hi : i < d.cfg.numPlayers) (hout : ¬ isIn d i) (bets : List PyNum) :
    (Spec.afterBets d bets).action ≠ some i := by
  induction bets generalizing d with
  | nil =>
    intro ha
    obtain ⟨a', h1, h2⟩ := (live_of_action h ha).1.action
    rw [show (Spec.afterBets d []).action = d.action from rfl] at ha
    rw [ha] at h1
    obtain rfl : i = a' := by simpa using h1
    exact hout h2
  | cons b bets ih =>
    exact ih (.step b h) (by rw [step_cfg]; exact hi) (fun h1 => hout (C34_permanent h b hi h1))

/-- **C93** (the part that is true): if a step returns a done flag for the player whose turn it is next, that player has no chips (so the
answer makes no difference). -/
theorem C93_done_partial (h : InHand S d) (hs : d.step bet = (d', .ok out)) {i : Nat} (hi : d'.action = some i)
    (hf : out.2.2.getD i false = true) : stack d' i = 0 := by
  cases ha : d.action with
  | none =>
    have := step_none ha bet
    rw [hs] at this
    simp only [] at this
    rw [this, ha] at hi; cases hi
  | some a =>
    obtain ⟨b, c, lo, up, x, p, v⟩ := step_view h ha hs
    rcases v.res with ⟨rfl, hd, -⟩ | ⟨rfl, -⟩
    · obtain ⟨a', h1, h2⟩ := v.live.action
      rw [hi] at h1
      obtain rfl : i = a' := by simpa using h1
      have hlt := v.live.seated.action i hi
      rw [v.done] at hf
      unfold Dealer.done at hf hd
      split at hf
      · next hc => rw [if_pos hc] at hd; simp at hd
      · rw [getD_eq _ _ _ (by rw [List.length_zipWith, v.live.seated.active, v.live.seated.stacks, min_self]; exact hlt),
          List.getElem_zipWith] at hf
        unfold isIn at h2
        rw [getD_eq _ _ _ (by rw [v.live.seated.active]; exact hlt)] at h2
        unfold stack
        rw [getD_eq _ _ _ (by rw [v.live.seated.stacks]; exact hlt)]
        simpa [h2] using hf
    · cases hi

/-- **C93** is false: the step returns a done flag for the player without chips, and that player is to act. -/
theorem C93_false : ∃ S d d' out, InHand S d ∧ Reachable d ∧ d.step (.fin 0) = (d', .ok out) ∧ NonNegative S d.cfg ∧
    out.2.2 = [false, true, false] ∧ d'.action = some 1 ∧ stack d' 1 = 0 :=
  step_exists (small 3 [1, 2, 0] 20) [.bet 0, .bet 11, .bet 10, .bet 0, .bet 0, .deal, .bet 8, .bet 7, .bet 6, .bet 0] (.fin 0)
    (by decide +kernel)

/-- a player without chips who is asked, and two answers that are recorded differently -/
example : ∃ S d, InHand S d ∧ Reachable d ∧ d.action = some 1 ∧ stack d 1 = 0 ∧
    (d.step (.fin 5)).1.history ≠ (d.step (.fin (-5))).1.history :=
  hand_exists (small 3 [1, 2, 0] 20) [.bet 0, .bet 11, .bet 10, .bet 0, .bet 0, .deal, .bet 8, .bet 7, .bet 6, .bet 0, .bet 0]
    (by decide +kernel)

/-! ## C94 -/

theorem roundHalfEven_mono (h : q ≤ r) : roundHalfEven q ≤ roundHalfEven r := by
  by_contra hlt
  have h1 := roundHalfEven_rounded q
  have h2 := roundHalfEven_rounded r
  have k1 := (abs_le.1 h1.1)
  have k2 := (abs_le.1 h2.1)
  have k3 : (roundHalfEven r : Rat) + 1 ≤ roundHalfEven q := by exact_mod_cast (show roundHalfEven r + 1 ≤ roundHalfEven q by omega)
  have k4 : q = r := by linarith [k1.1, k1.2, k2.1, k2.2]
  rw [k4] at hlt
  exact hlt le_rfl

/-- the chosen bet grows with the bet -/
theorem cleanBet_mono {b b' c lo hi : Int} (hc : 0 ≤ c) (ho : (c ≤ lo ∧ c ≤ hi) ∨ (lo = 0 ∧ hi = 0)) (hb : b ≤ b') :
    cleanBet b c lo hi ≤ cleanBet b' c lo hi := by
  rcases cleanBet_cases b c lo hi with ⟨h1, h2, h3, e⟩ | ⟨h1, h2, h3, e⟩ | ⟨h1, h2, h3, e⟩ | ⟨h1, h2, h3, e⟩ <;>
  rcases cleanBet_cases b' c lo hi with ⟨g1, g2, g3, e'⟩ | ⟨g1, g2, g3, e'⟩ | ⟨g1, g2, g3, e'⟩ | ⟨g1, g2, g3, e'⟩ <;>
  rw [e, e'] <;> simp only [abs_le, abs_lt, le_abs, lt_abs] at h1 h2 h3 g1 g2 g3 <;> omega

theorem isNeg_mono (h : q ≤ r) (hr : (PyNum.fin r).isNeg = true) : (PyNum.fin q).isNeg = true := by
  simp only [PyNum.isNeg, decide_eq_true_eq] at hr ⊢
  exact lt_of_le_of_lt h hr

theorem sizes_for_more {c lo hi : Int} (hd : Seated d) (hp : 0 ≤ d.pot) (hz : SizesOk d.cfg) (hlr : d.cfg.bigBlind ≤ d.largestRaise)
    (hs0 : 0 ≤ stack d d.seat) (hsz : d.betSizes = .ok (c, lo, hi)) : 0 ≤ c ∧ ((c ≤ lo ∧ c ≤ hi) ∨ (lo = 0 ∧ hi = 0)) := by
  have hc0 := call_nonneg hd
  have hb := hz.1
  obtain ⟨rs, nr, hrs, -, h1, h2, h3⟩ := betSizes_spec hsz
  refine ⟨by omega, ?_⟩
  by_cases hcap : nr.reached d.streetRaises = true ∨
      (d.streetRaises ≠ 0 ∧ pyMax d.streetCommits - streetBet d d.seat < d.largestRaise)
  · have := h2 hcap
    right; omega
  · have h4 := h3 hcap
    left
    cases rs with
    | int n =>
      have := hz.2 n (List.mem_of_getElem? hrs)
      simp only [] at h4; omega
    | pot => simp only [] at h4; omega
    | inf => simp only [] at h4; omega

theorem betOf_mono {f f' : Bool} {c x y : Int} (hf : f' = true → f = true) (hxy : x ≤ y) (hy : 0 ≤ y) : betOf f c x ≤ betOf f' c y := by
  unfold betOf
  split
  · split <;> omega
  · next h1 =>
    split
    · next h2 => exact absurd ⟨h2.1, h2.2.imp (fun h => by omega) hf⟩ h1
    · exact hxy

theorem debt_bet {b c lo hi : Int} (hc : c ≤ 0) (hlo : lo ≤ 0) (hhi : hi ≤ 0) : cleanBet b c lo hi = 0 := by
  rcases cleanBet_cases b c lo hi with ⟨-, -, -, e⟩ | ⟨h1, -⟩ | ⟨h1, -⟩ | ⟨h1, -⟩
  · exact e
  all_goals rw [abs_of_nonpos (by omega), abs_of_nonpos (by omega)] at h1; omega

/-- the larger bet, after it has been placed -/
theorem afterBet_more {c lo hi : Int} {b b' : Int} {f f' : Bool} (hd : Seated d) (hp : 0 ≤ d.pot) (hz : SizesOk d.cfg)
    (hlr : d.cfg.bigBlind ≤ d.largestRaise) (hsz : d.betSizes = .ok (c, lo, hi)) (hb : b ≤ b')
    (hf : f' = true → f = true) :
    contribution (d.afterBet f c (cleanBet b c lo hi)) d.seat ≤ contribution (d.afterBet f' c (cleanBet b' c lo hi)) d.seat ∧
    (isIn (d.afterBet f c (cleanBet b c lo hi)) d.seat → isIn (d.afterBet f' c (cleanBet b' c lo hi)) d.seat) := by
  have hm : cleanBet b c lo hi ≤ cleanBet b' c lo hi := by
    by_cases hs0 : 0 ≤ stack d d.seat
    · obtain ⟨o1, o2⟩ := sizes_for_more hd hp hz hlr hs0 hsz
      exact cleanBet_mono o1 o2 hb
    · obtain ⟨k1, k2, k3⟩ := betSizes_le hsz
      rw [debt_bet (by omega) (by omega) (by omega), debt_bet (by omega) (by omega) (by omega)]
  have h0 : 0 ≤ cleanBet b' c lo hi := cleanBet_nonneg (betSizes_lo_hi hd hp hsz)
  have hlt := seat_lt hd
  rw [(contribution_afterBet hd _ _ _ _ hlt).1, (contribution_afterBet hd _ _ _ _ hlt).1, if_pos rfl, if_pos rfl]
  refine ⟨by have := betOf_mono (c := c) hf hm h0; omega, ?_⟩
  have e : ∀ (f : Bool) (x : Int), isIn (d.afterBet f c x) d.seat ↔ isIn d d.seat ∧ ¬ (d.seat = d.seat ∧ c ≠ 0 ∧ (x < c ∨ f = true)) := by
    intro f x
    rw [← acted_isIn hd f c x _ hlt]
    unfold isIn
    rw [(afterBet_fields _ _ _ _).2.1]
  rw [e, e]
  rintro ⟨h1, h2⟩
  exact ⟨h1, fun h3 => h2 ⟨rfl, h3.2.1, h3.2.2.imp (fun h => by omega) hf⟩⟩

/-- **C94**: who bets more never puts in fewer chips, and does not fold where the smaller bet would have kept them in the hand. -/
theorem C94_more {d1 d2 : Dealer} {o1 o2 : StepOut} (h : InHand S d) (hn : NonNegative S d.cfg) (hz : SizesOk d.cfg)
    (ha : d.action = some a) (hqr : q ≤ r) (h1 : d.step (.fin q) = (d1, .ok o1))
    (h2 : d.step (.fin r) = (d2, .ok o2)) : moved d d1 a ≤ moved d d2 a ∧ (isIn d1 a → isIn d2 a) := by
  obtain ⟨b, c, lo, hi, x, p, v⟩ := step_view h ha h1
  obtain ⟨b', c', lo', hi', x', p', v'⟩ := step_view h ha h2
  have hl := (live_of_action h ha).1
  have e := v.sizes.symm.trans v'.sizes
  simp only [Except.ok.injEq, Prod.mk.injEq] at e
  obtain ⟨rfl, rfl, rfl⟩ := e
  have hr1 := v.round
  have hr2 := v'.round
  simp only [pyRound, Except.ok.injEq] at hr1 hr2
  subst hr1 hr2
  have key := afterBet_more (f := (PyNum.fin q).isNeg) (f' := (PyNum.fin r).isNeg) hl.seated (nn_pot hl (nn_of_action h hn ha)) hz
    (raise_ge_of_inHand h) v.sizes (roundHalfEven_mono hqr) (isNeg_mono hqr)
  rw [seat_some ha, ← v.eq, ← v'.eq] at key
  unfold moved
  have e1 : contribution d1 a = contribution x a := by unfold contribution; rw [v.same.2.2.2.2.2.2.2.2.1]
  have e2 : contribution d2 a = contribution x' a := by unfold contribution; rw [v'.same.2.2.2.2.2.2.2.2.1]
  have e3 : isIn d1 a ↔ isIn x a := by unfold isIn; rw [v.same.2.1]
  have e4 : isIn d2 a ↔ isIn x' a := by unfold isIn; rw [v'.same.2.1]
  rw [e1, e2, e3, e4]
  exact ⟨by omega, key.2⟩

/-- three bets of growing size: a fold, a call and a raise -/
example : ∃ S d, InHand S d ∧ Reachable d ∧ NonNegative S d.cfg ∧ SizesOk d.cfg ∧ d.action = some 0 ∧
    moved d (d.step (.fin (9 / 10))).1 0 = 0 ∧ ¬ isIn (d.step (.fin (9 / 10))).1 0 ∧ moved d (d.step (.fin 2)).1 0 = 2 ∧
    moved d (d.step (.fin 9)).1 0 = 9 ∧ (d.step (.fin 9)).2.isOk = true ∧ (d.step (.fin 2)).2.isOk = true :=
  hand_exists (small 3 [1, 2, 0] 20) [] (by decide +kernel)

end Clubs

namespace Clubs.Numpy

open Spec

variable {S : List Int} {d d' e : Dealer} {a : Nat} {bet : PyNum} {out : StepOut} {q r : Rat}

theorem bets_sameHistory (bets : List PyNum) (hd : SameButHistory d e) : SameButHistory (arrayAfter d bets) (arrayAfter e bets) := by
  induction bets generalizing d e with
  | nil => exact hd
  | cons b bets ih => exact ih (step_sameHistory hd b).1

/-- a step of the array engine that returns, as a bet of `engine.py` that is placed -/
theorem array_bet (h : ArrayInHand S d) (hn : NonNegative S d.cfg) (hz : SizesOk d.cfg) (ha : d.action = some a)
    (hs : step d bet = (d', .ok out)) : ∃ b c lo hi, pyRound bet = .ok b ∧ (atSeat d).betSizes = .ok (c, lo, hi) ∧
      d'.potCommits = ((atSeat d).afterBet bet.isNeg c (Clubs.cleanBet b c lo hi)).potCommits ∧
      d'.active = ((atSeat d).afterBet bet.isNeg c (Clubs.cleanBet b c lo hi)).active ∧
      d'.history = ((atSeat d).afterBet bet.isNeg c (Clubs.cleanBet b c lo hi)).history := by
  obtain ⟨hso, hl, -⟩ := sound_of_action h hn hz ha
  have hp : 0 ≤ (atSeat d).pot := nn_pot hl hso.nn
  have htwo : 2 ≤ d.cfg.numPlayers := hl.seated.two
  rcases step_some ha bet with ⟨e, -, he⟩ | ⟨b, e, -, -, he⟩ | ⟨b, c, lo, hi, hb, hsz, he⟩
  · rw [hs] at he; simp at he
  · rw [hs] at he; simp at he
  · refine ⟨b, c, lo, hi, hb, hsz, ?_⟩
    have e0 : afterBet d bet.isNeg c (cleanBet b c lo hi) = afterBet d bet.isNeg c (Clubs.cleanBet b c lo hi) :=
      afterBet_congr (clean_same hl.seated hp hz hsz (isNeg_of_round hb))
    rw [e0] at he
    rw [← afterBet_atSeat (by omega)]
    have hd' : d' = (finish (afterBet d bet.isNeg c (Clubs.cleanBet b c lo hi))).1 := by rw [← he, hs]
    rw [hd']
    rcases finish_cases (afterBet d bet.isNeg c (Clubs.cleanBet b c lo hi)) with ⟨e, -, h⟩ | ⟨p, -, -, h, -⟩ | ⟨p, -, -, h, -⟩ <;>
      rw [h] <;> exact ⟨rfl, rfl, rfl⟩

theorem array_raise_ge (h : ArrayInHand S d) : d.cfg.bigBlind ≤ d.largestRaise := by
  have := array_induct (P := fun _ d => d.cfg.bigBlind ≤ d.largestRaise)
    (fun d d' rb rs shuf obs hd hs hr => by rw [dealt_raise hr])
    (fun S d fold b c lo hi hl hst h2 ih hb hf => by
      obtain ⟨f1, -, -, -, -, f6, -⟩ := afterBet_fields d fold c (cleanBet b c lo hi)
      rw [f1, f6]
      have h1 : (d.acted fold c (cleanBet b c lo hi)).largestRaise =
          if betOf fold c (cleanBet b c lo hi) ≠ 0 ∧ betOf fold c (cleanBet b c lo hi) - c ≥ d.largestRaise then
            betOf fold c (cleanBet b c lo hi) - c else d.largestRaise := rfl
      rw [h1]
      split <;> omega) h
  rcases this with ⟨h1, -⟩ | ⟨e, p, rfl, h1, -⟩
  · exact h1
  · exact h1

/-- **C93** for the array engine: it makes no difference what a player without chips answers. -/
theorem C93_same (h : ArrayInHand S d) (hn : NonNegative S d.cfg) (hz : SizesOk d.cfg) (ha : d.action = some a) (hs : stack d a = 0) (q r : Rat) :
    (step d (.fin q)).2 = (step d (.fin r)).2 ∧ SameButHistory (step d (.fin q)).1 (step d (.fin r)).1 ∧
      movesOf (step d (.fin q)).1 = movesOf (step d (.fin r)).1 := by
  obtain ⟨hso, hl, -⟩ := sound_of_action h hn hz ha
  have hp : 0 ≤ (atSeat d).pot := nn_pot hl hso.nn
  have ha' : (atSeat d).action = some a := ha
  have hs' : stack (atSeat d) (atSeat d).seat = 0 := by rw [seat_some ha']; exact hs
  have key : ∀ q : Rat, (∃ e, d.betSizes = .error e ∧ step d (.fin q) = (d, .error e)) ∨
      (∃ s, d.betSizes = .ok s ∧ step d (.fin q) = finish (afterBet d (PyNum.fin q).isNeg 0 0)) := by
    intro q
    rcases step_some ha (.fin q) with ⟨e, hr, he⟩ | ⟨b, e, hr, hr2, he⟩ | ⟨b, c, lo, hi, hr, hsz, he⟩
    · simp [pyRound] at hr
    · exact .inl ⟨e, hr2, he⟩
    · right
      refine ⟨_, hsz, ?_⟩
      obtain ⟨k1, k2, k3⟩ := broke_sizes hl.seated hsz hs'
      rw [he, afterBet_congr (clean_same hl.seated hp hz hsz (isNeg_of_round hr)), broke_bet k1 k2 k3, k1]
  rcases key q with ⟨e, h1, h2⟩ | ⟨s, h1, h2⟩ <;> rcases key r with ⟨e', g1, g2⟩ | ⟨s', g1, g2⟩
  · rw [h1] at g1; cases g1
    rw [h2, g2]; exact ⟨rfl, rfl, rfl⟩
  · rw [h1] at g1; cases g1
  · rw [h1] at g1; cases g1
  · rw [h2, g2]
    obtain ⟨x, e1, e2⟩ := afterBet_flag d (PyNum.fin q).isNeg (PyNum.fin r).isNeg
    rw [e1, withHist_finish]
    refine ⟨rfl, rfl, ?_⟩
    have e3 : ∀ y : Dealer, movesOf (finish y).1 = movesOf y := by
      intro y
      unfold movesOf
      rw [finish_history]
    rw [e3, ← e2]; rfl

/-- **C93** for the array engine: nothing that is returned later in the hand depends on it either. -/
theorem C93_later (h : ArrayInHand S d) (hn : NonNegative S d.cfg) (hz : SizesOk d.cfg) (ha : d.action = some a) (hs : stack d a = 0)
    (q r : Rat) (bets : List PyNum) (bet : PyNum) :
    (step (arrayAfter (step d (.fin q)).1 bets) bet).2 = (step (arrayAfter (step d (.fin r)).1 bets) bet).2 :=
  (step_sameHistory (bets_sameHistory bets (C93_same h hn hz ha hs q r).2.1) bet).2

/-- **C93** for the array engine: a player without chips cannot fold and puts nothing in. -/
theorem C93_stays (h : ArrayInHand S d) (hn : NonNegative S d.cfg) (hz : SizesOk d.cfg) (ha : d.action = some a) (hs : stack d a = 0)
    (hst : step d bet = (d', .ok out)) : isIn d' a ∧ moved d d' a = 0 := by
  obtain ⟨b, c, lo, hi, hb, hsz, e1, e2, -⟩ := array_bet h hn hz ha hst
  have hl := (sound_of_action h hn hz ha).2.1
  have ha' : (atSeat d).action = some a := ha
  have hs' : stack (atSeat d) (atSeat d).seat = 0 := by rw [seat_some ha']; exact hs
  obtain ⟨k1, k2, k3⟩ := broke_sizes hl.seated hsz hs'
  rw [broke_bet k1 k2 k3, k1] at e1 e2
  have hlt := hl.seated.action a ha'
  have hin : isIn (atSeat d) a := by
    obtain ⟨a', h1, h2⟩ := hl.action
    rw [ha'] at h1
    obtain rfl : a = a' := by simpa using h1
    exact h2
  constructor
  · have h1 : isIn ((atSeat d).acted bet.isNeg 0 0) a := by
      rw [acted_isIn hl.seated bet.isNeg 0 0 a hlt]
      exact ⟨hin, fun h => h.2.1 rfl⟩
    unfold isIn at h1 ⊢
    rw [e2, (afterBet_fields _ _ _ _).2.1]; exact h1
  · have h1 := (contribution_afterBet hl.seated bet.isNeg 0 0 a hlt).1
    have h2 : contribution d' a = contribution ((atSeat d).afterBet bet.isNeg 0 0) a := by unfold contribution; rw [e1]
    have h3 : contribution (atSeat d) a = contribution d a := rfl
    unfold moved
    rw [h2, h1, h3, seat_some ha', if_pos rfl]
    have h4 : stack (atSeat d) a = 0 := hs
    rw [h4]
    simp [betOf]

/-- **C93** for the array engine: what has been recorded never influences the play. -/
theorem C93_record (hd : SameButHistory d e) (bet : PyNum) :
    (step d bet).2 = (step e bet).2 ∧ SameButHistory (step d bet).1 (step e bet).1 :=
  ⟨(step_sameHistory hd bet).2, (step_sameHistory hd bet).1⟩

/-- **C93** for the array engine: the player whose turn it is next has not been told to be done. -/
theorem C93_done (h : ArrayInHand S d) (hs : step d bet = (d', .ok out)) {i : Nat} (hi : d'.action = some i) :
    out.2.2.getD i false = false := by
  cases ha : d.action with
  | none =>
    have := step_none ha bet
    rw [hs] at this
    simp only [] at this
    rw [this, ha] at hi; cases hi
  | some a =>
    have h' : ArrayInHand S d' := by have := ArrayInHand.step bet h; rwa [hs] at this
    obtain ⟨a', h1, h2⟩ := (live_of_array h' hi).1.action
    have h1' : d'.action = some a' := h1
    rw [hi] at h1'
    obtain rfl : i = a' := by simpa using h1'
    have h3 : d'.active.getD i false = true := h2
    rcases step_some ha bet with ⟨e, -, he⟩ | ⟨b, e, -, -, he⟩ | ⟨b, c, lo, up, -, -, he⟩
    · rw [hs] at he; simp at he
    · rw [hs] at he; simp at he
    · rw [hs] at he
      generalize afterBet d bet.isNeg c (cleanBet b c lo up) = x at he
      rcases finish_cases x with ⟨e, -, hx⟩ | ⟨p, -, -, hx, -⟩ | ⟨p, -, hd, hx, hx2⟩
      · rw [hx] at he; simp at he
      · have e1 : d' = x.settle p := by rw [← hx, ← he]
        rw [e1] at hi; cases hi
      · have e1 : d' = x := by rw [← hx, ← he]
        subst e1
        rw [← he] at hx2
        have e2 : out.2.2 = done d' := by
          cases ho : observation d' false with
          | error e => rw [ho] at hx2; simp [Except.map] at hx2
          | ok o => rw [ho] at hx2; simp only [Except.map, Except.ok.injEq] at hx2; rw [hx2]
        have hc : ¬ (d'.cfg.numStreets ≤ d'.street ∨ countTrue d'.active ≤ 1) := by
          rw [← done_all_iff, hd]; simp
        rw [e2]
        unfold done
        rw [if_neg hc]
        have hlt : i < d'.active.length := by
          by_contra hge
          rw [List.getD_eq_getElem?_getD, List.getElem?_eq_none (by omega)] at h3
          simp at h3
        rw [getD_eq _ _ _ (by rw [List.length_map]; exact hlt), List.getElem_map]
        rw [getD_eq _ _ _ hlt] at h3
        rw [h3]; rfl

/-- **C94** for the array engine: who bets more never puts in fewer chips, and does not fold where the smaller bet would have kept them in
the hand. -/
theorem C94_more {d1 d2 : Dealer} {o1 o2 : StepOut} (h : ArrayInHand S d) (hn : NonNegative S d.cfg) (hz : SizesOk d.cfg)
    (ha : d.action = some a) (hqr : q ≤ r) (h1 : step d (.fin q) = (d1, .ok o1))
    (h2 : step d (.fin r) = (d2, .ok o2)) : moved d d1 a ≤ moved d d2 a ∧ (isIn d1 a → isIn d2 a) := by
  obtain ⟨b, c, lo, hi, hb, hsz, e1, e2, -⟩ := array_bet h hn hz ha h1
  obtain ⟨b', c', lo', hi', hb', hsz', e1', e2', -⟩ := array_bet h hn hz ha h2
  obtain ⟨hso, hl, -⟩ := sound_of_action h hn hz ha
  have ha' : (atSeat d).action = some a := ha
  have e := hsz.symm.trans hsz'
  simp only [Except.ok.injEq, Prod.mk.injEq] at e
  obtain ⟨rfl, rfl, rfl⟩ := e
  simp only [pyRound, Except.ok.injEq] at hb hb'
  subst hb hb'
  have hlr : (atSeat d).cfg.bigBlind ≤ (atSeat d).largestRaise := array_raise_ge (d := d) h
  have key := afterBet_more (f := (PyNum.fin q).isNeg) (f' := (PyNum.fin r).isNeg) hl.seated (nn_pot hl hso.nn) hz
    hlr hsz (roundHalfEven_mono hqr) (isNeg_mono hqr)
  rw [seat_some ha'] at key
  unfold contribution isIn at key
  unfold moved contribution isIn
  rw [e1, e1', e2, e2']
  exact ⟨by omega, key.2⟩

/-- a player without chips who is asked -/
example : ∃ S d, ArrayInHand S d ∧ ArrayReachable d ∧ NonNegative S d.cfg ∧ SizesOk d.cfg ∧ d.action = some 1 ∧ stack d 1 = 0 ∧
    (step d (.fin 5)).1.history ≠ (step d (.fin (-5))).1.history :=
  hand_exists (small 3 [1, 2, 0] 20) [.bet 0, .bet 11, .bet 10, .bet 0, .bet 0, .deal, .bet 8, .bet 7, .bet 6, .bet 0, .bet 0]
    (by decide +kernel)

/-- a fold, a call and a raise -/
example : ∃ S d, ArrayInHand S d ∧ ArrayReachable d ∧ NonNegative S d.cfg ∧ SizesOk d.cfg ∧ d.action = some 0 ∧
    moved d (step d (.fin (9 / 10))).1 0 = 0 ∧ ¬ isIn (step d (.fin (9 / 10))).1 0 ∧ moved d (step d (.fin 2)).1 0 = 2 ∧
    moved d (step d (.fin 9)).1 0 = 9 ∧ (step d (.fin 9)).2.isOk = true ∧ (step d (.fin 2)).2.isOk = true :=
  hand_exists (small 3 [1, 2, 0] 20) [] (by decide +kernel)

end Clubs.Numpy
