import Verif.Spec.Sure
import Verif.Props.Calls
import Verif.Props.Money
import Verif.Props.NumpyMoney

/-!
# C103: what a player can be sure of

Whatever the others do: a player who puts in nothing more never has fewer chips than they have in front of them now, and a player who always
bets at least the call is never out of the hand.
-/

namespace Clubs

open Spec

variable {S : List Int} {d0 d d' : Dealer} {i a : Nat} {bet : PyNum} {b c lo up : Int} {fold : Bool} {P : Dealer → PyNum → Prop}

/-! ## one bet -/

theorem cleanBet_nothing (hb : b ≤ 0) : cleanBet b c lo up = 0 := by
  have := cleanBet_cases b c lo up
  rw [max_eq_left hb] at this
  simp only [abs_eq_max_neg] at this
  rcases this with h1 | h1 | h1 | h1 <;> omega

theorem betOf_nothing (hb : b ≤ 0) : betOf fold c (cleanBet b c lo up) = 0 := by
  rw [cleanBet_nothing hb]
  unfold betOf
  split <;> rfl

/-- zero or less puts in nothing -/
theorem afterBet_nothing (hd : Seated d) (hi : i < d.cfg.numPlayers) (hb : d.seat = i → b ≤ 0) :
    contribution (d.afterBet fold c (cleanBet b c lo up)) i ≤ contribution d i ∧
    (0 ≤ stack d i → contribution (d.afterBet fold c (cleanBet b c lo up)) i = contribution d i) := by
  rw [(contribution_afterBet hd _ _ _ i hi).1]
  by_cases h : d.seat = i
  · rw [if_pos h, betOf_nothing (hb h), h]
    omega
  · rw [if_neg h]
    omega

/-- the call or more keeps a player in -/
theorem afterBet_meets (hd : Seated d) (hp : 0 ≤ d.pot) (hz : SizesOk d.cfg) (hlr : d.cfg.bigBlind ≤ d.largestRaise)
    (hsz : d.betSizes = .ok (c, lo, up)) (hi : i < d.cfg.numPlayers) (hb : d.seat = i → c ≤ b ∧ fold = false) :
    isIn (d.afterBet fold c (cleanBet b c lo up)) i ↔ isIn d i := by
  have h1 : isIn (d.afterBet fold c (cleanBet b c lo up)) i ↔ isIn (d.acted fold c (cleanBet b c lo up)) i := by
    unfold isIn
    rw [(afterBet_fields _ _ _ _).2.1]
  rw [h1, acted_isIn hd _ _ _ i hi]
  refine ⟨fun h => h.1, fun h => ⟨h, ?_⟩⟩
  rintro ⟨h2, h3, h4⟩
  obtain ⟨h5, h6⟩ := hb h2
  rw [h6] at h4
  have h4 : cleanBet b c lo up < c := by simpa using h4
  have h0 : 0 ≤ cleanBet b c lo up := cleanBet_nonneg (betSizes_lo_hi hd hp hsz)
  obtain ⟨k1, k2, k3⟩ := betSizes_le hsz
  have hs0 : 0 ≤ stack d d.seat := by omega
  obtain ⟨o1, o2⟩ := sizes_for_more hd hp hz hlr hs0 hsz
  have hm : cleanBet c c lo up ≤ cleanBet b c lo up := cleanBet_mono o1 o2 h5
  rw [cleanBet_self (by omega)] at hm
  omega

theorem round_nothing {d : Dealer} (h : BetsNothing d bet) (hb : pyRound bet = .ok b) : b ≤ 0 := by
  cases bet with
  | fin q =>
    simp only [pyRound, Except.ok.injEq] at hb
    have : roundHalfEven q ≤ roundHalfEven ((0 : Int) : Rat) := roundHalfEven_mono (by exact_mod_cast h)
    rw [roundHalfEven_int] at this
    omega
  | posInf => simp [pyRound] at hb
  | negInf => simp [pyRound] at hb
  | nan => simp [pyRound] at hb

theorem round_meets (h : MeetsCall i d bet) (hb : pyRound bet = .ok b) : min (toCall d i) (stack d i) ≤ b ∧ bet.isNeg = false := by
  cases bet with
  | fin q =>
    simp only [pyRound, Except.ok.injEq] at hb
    have h1 := roundHalfEven_mono h.2
    rw [roundHalfEven_int] at h1
    refine ⟨by omega, ?_⟩
    show decide _ = false
    rw [decide_eq_false_iff_not, not_lt]
    exact h.1
  | posInf => simp [pyRound] at hb
  | negInf => simp [pyRound] at hb
  | nan => simp [pyRound] at hb

/-- nobody loses more than they put in -/
theorem lost_ge {e : Dealer} (hd : Seated e) (hi : i < e.cfg.numPlayers) (hc : 0 ≤ contribution e i) :
    0 ≤ (lostList e).getD i 0 + contribution e i := by
  have hlp : i < e.potCommits.length := by rw [hd.potCommits]; exact hi
  have hla : i < e.active.length := by rw [hd.active]; exact hi
  have hlost : (lostList e).getD i 0 = if e.active.getD i false then 0 else -1 * contribution e i :=
    getD_zipWith _ _ _ _ 0 false _ hlp hla
  rw [hlost]
  split <;> omega

/-! ## the pure-Python engine -/

theorem pays_ge {e : Dealer} {p : List Int} (hl : Live S e) (hnn : NN e) (hp : e.payouts = .ok p) (hi : i < e.cfg.numPlayers) :
    0 ≤ p.getD i 0 + contribution e i := by
  have hc := hnn.contrib i hi
  have hlp : i < e.potCommits.length := by rw [hl.seated.potCommits]; exact hi
  have hla : i < e.active.length := by rw [hl.seated.active]; exact hi
  have hlost := lost_ge hl.seated hi hc
  rcases payouts_cases hp with ⟨-, rfl⟩ | ⟨-, h2, q, hq, rfl⟩ | ⟨h1, h2, rfl⟩
  · rw [getD_zipWith _ _ _ _ 0 0 _ (by simp [lostList, hlp, hla]) (by simp [hlp, hla]), getD_zipWith _ _ _ _ false 0 _ hla hlp]
    by_cases hin : e.active.getD i false = true
    · rw [if_pos hin]
      have hle : contribution e i ≤ e.pot := by
        rw [hl.pot]
        exact List.single_le_sum (fun x hx => by
          obtain ⟨j, hj, rfl⟩ := (mem_getD 0).1 hx
          exact hnn.contrib j (by rw [← hl.seated.potCommits]; exact hj)) _ ((mem_getD 0).2 ⟨i, hlp, rfl⟩)
      have hlost2 : (lostList e).getD i 0 = if e.active.getD i false then 0 else -1 * contribution e i :=
        getD_zipWith _ _ _ _ 0 false _ hlp hla
      rw [if_pos hin] at hlost2
      show 0 ≤ (lostList e).getD i 0 + (e.pot - contribution e i) + contribution e i
      omega
    · rw [if_neg hin]
      omega
  · obtain ⟨g1, g2, g3⟩ := evalRound_sum hl.seated hl.pot hnn.contrib hq
    rw [getD_zipWith _ _ _ _ 0 0 _ (by rw [g1]; exact hi) hlp]
    have hq0 := list_getD_nonneg g3 i
    show 0 ≤ q.getD i 0 - contribution e i + contribution e i
    omega
  · exact hlost

/-- a player has at least what they have not put in -/
theorem hand_floor (h : InHand S d) (hn : NonNegative S d.cfg) (hi : i < d.cfg.numPlayers) :
    S.getD i 0 - contribution d i ≤ stack d i := by
  rcases nn_of_inHand h hn with ⟨-, hl, -⟩ | ⟨e, p, rfl, hnn, hl, hp, -⟩
  · have := hl.money i hi
    omega
  · change i < e.cfg.numPlayers at hi
    rw [settle_stack hl.seated (payouts_length hl.seated hp) i hi]
    have h1 := hl.money i hi
    have h2 := pays_ge hl hnn hp hi
    show S.getD i 0 - contribution e i ≤ _
    omega

/-- what a call of `step` does to contributions and to who is in -/
theorem step_placed (ha : d.action = some a) (bet : PyNum) : (d.step bet).1 = d ∨
    ∃ b c lo up, pyRound bet = .ok b ∧ d.betSizes = .ok (c, lo, up) ∧
      (d.step bet).1.potCommits = (d.afterBet bet.isNeg c (cleanBet b c lo up)).potCommits ∧
      (d.step bet).1.active = (d.afterBet bet.isNeg c (cleanBet b c lo up)).active := by
  rcases step_some ha bet with ⟨e, -, he⟩ | ⟨b, e, -, -, he⟩ | ⟨b, c, lo, hi, hb, hsz, he⟩
  · rw [he]; exact .inl rfl
  · rw [he]; exact .inl rfl
  · rw [he]
    refine .inr ⟨b, c, lo, hi, hb, hsz, ?_⟩
    rcases finish_cases (d.afterBet bet.isNeg c (cleanBet b c lo hi)) with ⟨e, -, hx⟩ | ⟨p, -, -, hx, -⟩ | ⟨p, -, -, hx, -⟩ <;> rw [hx] <;>
      exact ⟨rfl, rfl⟩

theorem keeps_inHand (h : InHand S d0) (k : Keeps i P d0 d) : InHand S d ∧ d.cfg = d0.cfg := by
  induction k with
  | start => exact ⟨h, rfl⟩
  | step bet _ _ ih => exact ⟨.step bet ih.1, by rw [step_cfg, ih.2]⟩

/-- **C103**: a player who bets at least the call whenever they are to act stays in the hand, whatever the others do. -/
theorem C103_stays (h : InHand S d0) (hn : NonNegative S d0.cfg) (hz : SizesOk d0.cfg) (hi : i < d0.cfg.numPlayers)
    (k : Keeps i (MeetsCall i) d0 d) : isIn d i ↔ isIn d0 i := by
  induction k with
  | start => rfl
  | @step d bet k hp ih =>
    obtain ⟨hin, hcfg⟩ := keeps_inHand h k
    rw [← ih]
    cases ha : d.action with
    | none => rw [step_none ha]
    | some a =>
      have hl := (live_of_action hin ha).1
      have hnn := nn_of_action hin (by rw [hcfg]; exact hn) ha
      rcases step_placed ha bet with e | ⟨b, c, lo, up, hb, hsz, -, e⟩
      · rw [e]
      · have := afterBet_meets (fold := bet.isNeg) (b := b) (i := i) hl.seated (nn_pot hl hnn) (by rw [hcfg]; exact hz) (raise_ge_of_inHand hin) hsz
          (by rw [hcfg]; exact hi) (fun hseat => by
            rw [seat_some ha] at hseat
            subst hseat
            have h1 := round_meets (hp ha) hb
            rw [bet_call ha hsz]
            exact h1)
        unfold isIn at *
        rw [e]
        exact this

/-- a player who bets nothing puts in nothing -/
theorem keeps_nothing (h : InHand S d0) (hi : i < d0.cfg.numPlayers) (k : Keeps i BetsNothing d0 d) :
    contribution d i ≤ contribution d0 i := by
  induction k with
  | start => exact le_refl _
  | @step d bet k hp ih =>
    obtain ⟨hin, hcfg⟩ := keeps_inHand h k
    refine le_trans ?_ ih
    cases ha : d.action with
    | none => rw [step_none ha]
    | some a =>
      have hl := (live_of_action hin ha).1
      rcases step_placed ha bet with e | ⟨b, c, lo, up, hb, hsz, e, -⟩
      · rw [e]
      · have := (afterBet_nothing (fold := bet.isNeg) (b := b) (c := c) (lo := lo) (up := up) (i := i) hl.seated (by rw [hcfg]; exact hi) (fun hseat => by
          rw [seat_some ha] at hseat
          subst hseat
          exact round_nothing (hp ha) hb)).1
        unfold contribution at *
        rw [e]
        exact this

/-- **C103**: a player who from some moment of a hand on always bets zero or less has, ever after in this hand and when it is over, at least
the chips they had in front of them at that moment, whatever the others do. -/
theorem C103_floor (h : InHand S d0) (hn : NonNegative S d0.cfg) (ha : d0.action ≠ none) (hi : i < d0.cfg.numPlayers)
    (k : Keeps i BetsNothing d0 d) : stack d0 i ≤ stack d i := by
  obtain ⟨hin, hcfg⟩ := keeps_inHand h k
  have h1 := hand_floor hin (by rw [hcfg]; exact hn) (i := i) (by rw [hcfg]; exact hi)
  have h2 := keeps_nothing h hi k
  have h3 := (C19_pot h ha).2 i hi
  omega

/-- **C103**: and it puts in nothing (if everybody can pay the forced bets). -/
theorem C103_nothing (h : InHand S d0) (hn : NonNegative S d0.cfg) (hcov : Covers S d0.cfg) (hi : i < d0.cfg.numPlayers)
    (k : Keeps i BetsNothing d0 d) : contribution d i = contribution d0 i := by
  induction k with
  | start => rfl
  | @step d bet k hp ih =>
    obtain ⟨hin, hcfg⟩ := keeps_inHand h k
    rw [← ih]
    cases ha : d.action with
    | none => rw [step_none ha]
    | some a =>
      have hl := (live_of_action hin ha).1
      rcases step_placed ha bet with e | ⟨b, c, lo, up, hb, hsz, e, -⟩
      · rw [e]
      · have := (afterBet_nothing (fold := bet.isNeg) (b := b) (c := c) (lo := lo) (up := up) (i := i) hl.seated (by rw [hcfg]; exact hi) (fun hseat => by
          rw [seat_some ha] at hseat
          subst hseat
          exact round_nothing (hp ha) hb)).2
            (C21_covered_partial hin (by rw [hcfg]; exact hn) (by rw [hcfg]; exact hcov) (by rw [ha]; simp) i (by rw [hcfg]; exact hi))
        unfold contribution at *
        rw [e]
        exact this

/-- **C103**: a bet of somebody else takes no chips from a player and leaves them in or out of the hand, also if it ends the hand. -/
theorem C103_others (h : InHand S d) (hn : NonNegative S d.cfg) (ha : d.action = some a) (hai : a ≠ i) (hi : i < d.cfg.numPlayers) (bet : PyNum) :
    stack d i ≤ stack (d.step bet).1 i ∧ contribution (d.step bet).1 i = contribution d i ∧ (isIn (d.step bet).1 i ↔ isIn d i) := by
  refine ⟨C103_floor h hn (by rw [ha]; simp) hi (.step bet .start fun h1 => ?_), ?_⟩
  · rw [ha] at h1
    exact absurd (by simpa using h1) hai
  · have hd := (live_of_action h ha).1.seated
    rcases step_placed ha bet with e | ⟨b, c, lo, up, -, -, e1, e2⟩
    · rw [e]; exact ⟨rfl, Iff.rfl⟩
    · have h1 := (contribution_afterBet hd bet.isNeg c (cleanBet b c lo up) i hi).1
      rw [seat_some ha, if_neg hai, add_zero] at h1
      have h2 : isIn (d.acted bet.isNeg c (cleanBet b c lo up)) i ↔ isIn d i := by
        rw [acted_isIn hd _ _ _ i hi]
        exact ⟨fun h => h.1, fun h => ⟨h, fun h' => hai (by rw [← seat_some ha]; exact h'.1)⟩⟩
      unfold contribution isIn at *
      rw [e1, e2, (afterBet_fields _ _ _ _).2.1]
      exact ⟨h1, h2⟩

/-! ## examples -/

instance (d : Dealer) (b : PyNum) : Decidable (BetsNothing d b) := by
  cases b <;> unfold BetsNothing <;> infer_instance

instance (i : Nat) (d : Dealer) (b : PyNum) : Decidable (MeetsCall i d b) := by
  cases b <;> unfold MeetsCall <;> infer_instance

/-- the bets of seat `i` among `bets` are as `P` wants them -/
def keptBy (step : Dealer → PyNum → Dealer) (i : Nat) (P : Dealer → PyNum → Prop) [∀ d b, Decidable (P d b)] : Dealer → List PyNum → Bool
  | _, [] => true
  | d, b :: bs => decide (d.action = some i → P d b) && keptBy step i P (step d b) bs

theorem keeps_of (P : Dealer → PyNum → Prop) [∀ d b, Decidable (P d b)] (k : Keeps i P d0 d) (bets : List PyNum)
    (h : keptBy (fun d b => (d.step b).1) i P d bets = true) : Keeps i P d0 (Spec.afterBets d bets) := by
  induction bets generalizing d with
  | nil => exact k
  | cons b bets ih =>
    simp only [keptBy, Bool.and_eq_true, decide_eq_true_eq] at h
    exact ih (.step b k h.1) h.2

/-- seat 1 (with the blind of 1) bets nothing: it folds to a raise and keeps its 19 chips -/
example : ∃ S d0 d, InHand S d0 ∧ NonNegative S d0.cfg ∧ Covers S d0.cfg ∧ d0.action = some 0 ∧ Keeps 1 BetsNothing d0 d ∧ stack d0 1 = 19 ∧
    stack d 1 = 19 ∧ d.action = none ∧ ¬ isIn d 1 := by
  obtain ⟨S, d0, h1, -, h2, h3, h4, h5, h6⟩ := hand_exists (small 3 [1, 2, 0] 20) []
    (P := fun S d0 => NonNegative S d0.cfg ∧ Covers S d0.cfg ∧ d0.action = some 0 ∧
      keptBy (fun d b => (d.step b).1) 1 BetsNothing d0 [.fin 6, .fin 0, .fin (-1)] = true ∧ stack d0 1 = 19 ∧
      stack (Spec.afterBets d0 [.fin 6, .fin 0, .fin (-1)]) 1 = 19 ∧ (Spec.afterBets d0 [.fin 6, .fin 0, .fin (-1)]).action = none ∧
      ¬ isIn (Spec.afterBets d0 [.fin 6, .fin 0, .fin (-1)]) 1) (by decide +kernel)
  exact ⟨S, d0, _, h1, h2, h3, h4, keeps_of _ .start _ h5, h6⟩

/-- seat 2 bets nothing more and wins: everybody checks to the end -/
example : ∃ S d0 d, InHand S d0 ∧ NonNegative S d0.cfg ∧ Covers S d0.cfg ∧ d0.action ≠ none ∧ Keeps 2 BetsNothing d0 d ∧ stack d0 2 = 18 ∧
    stack d 2 = 24 ∧ d.action = none := by
  obtain ⟨S, d0, h1, -, h2, h3, h4, h5, h6⟩ := hand_exists (small 3 [1, 2, 0] 20) [.bet 2, .bet 1]
    (P := fun S d0 => NonNegative S d0.cfg ∧ Covers S d0.cfg ∧ d0.action ≠ none ∧
      keptBy (fun d b => (d.step b).1) 2 BetsNothing d0 [.fin 0, .fin 0, .fin (-5), .fin 0] = true ∧ stack d0 2 = 18 ∧
      stack (Spec.afterBets d0 [.fin 0, .fin 0, .fin (-5), .fin 0]) 2 = 24 ∧ (Spec.afterBets d0 [.fin 0, .fin 0, .fin (-5), .fin 0]).action = none)
    (by decide +kernel)
  exact ⟨S, d0, _, h1, h2, h3, h4, keeps_of _ .start _ h5, h6⟩

/-- seat 1 calls whatever comes and is in at the end; seat 2 folds -/
example : ∃ S d0 d, InHand S d0 ∧ NonNegative S d0.cfg ∧ SizesOk d0.cfg ∧ Keeps 1 (MeetsCall 1) d0 d ∧ d.action = some 1 ∧ d.street = 1 ∧ isIn d 1 ∧
    contribution d 1 = 6 ∧ ¬ isIn d 2 := by
  obtain ⟨S, d0, h1, -, h2, h3, h5, h6⟩ := hand_exists (small 3 [1, 2, 0] 20) []
    (P := fun S d0 => NonNegative S d0.cfg ∧ SizesOk d0.cfg ∧
      keptBy (fun d b => (d.step b).1) 1 (MeetsCall 1) d0 [.fin 6, .posInf, .fin 5, .fin (-1)] = true ∧
      (Spec.afterBets d0 [.fin 6, .posInf, .fin 5, .fin (-1)]).action = some 1 ∧ (Spec.afterBets d0 [.fin 6, .posInf, .fin 5, .fin (-1)]).street = 1 ∧
      isIn (Spec.afterBets d0 [.fin 6, .posInf, .fin 5, .fin (-1)]) 1 ∧ contribution (Spec.afterBets d0 [.fin 6, .posInf, .fin 5, .fin (-1)]) 1 = 6 ∧
      ¬ isIn (Spec.afterBets d0 [.fin 6, .posInf, .fin 5, .fin (-1)]) 2) (by decide +kernel)
  exact ⟨S, d0, _, h1, h2, h3, keeps_of _ .start _ h5, h6⟩

end Clubs

namespace Clubs.Numpy

open Spec

variable {S : List Int} {d0 d d' : Dealer} {i a : Nat} {bet : PyNum} {P : Dealer → PyNum → Prop}

/-! ## the array engine -/

theorem pays_ge {e : Dealer} {p : List Int} (hl : Live S (atSeat e)) (hnn : NN (atSeat e)) (hp : payouts e = .ok p) (hi : i < e.cfg.numPlayers) :
    0 ≤ p.getD i 0 + contribution e i := by
  have hc : 0 ≤ contribution e i := hnn.contrib i hi
  have hlp : i < e.potCommits.length := by rw [show e.potCommits.length = _ from hl.seated.potCommits]; exact hi
  have hla : i < e.active.length := by rw [show e.active.length = _ from hl.seated.active]; exact hi
  have hlost : 0 ≤ (lostList e).getD i 0 + contribution e i := lost_ge (e := atSeat e) hl.seated hi hc
  rcases payouts_cases hp with ⟨-, rfl⟩ | ⟨-, h2, q, hq, rfl⟩ | ⟨h1, h2, rfl⟩
  · rw [getD_zipWith _ _ _ _ 0 0 _ (by simp [lostList, hlp, hla]) (by simp [hlp, hla]), getD_zipWith _ _ _ _ false 0 _ hla hlp]
    by_cases hin : e.active.getD i false = true
    · rw [if_pos hin]
      have hle : contribution e i ≤ e.pot := by
        rw [show e.pot = _ from hl.pot]
        exact List.single_le_sum (fun x hx => by
          obtain ⟨j, hj, rfl⟩ := (mem_getD 0).1 hx
          exact hnn.contrib j (by rw [← hl.seated.potCommits]; exact hj)) _ ((mem_getD 0).2 ⟨i, hlp, rfl⟩)
      have hlost2 : (lostList e).getD i 0 = if e.active.getD i false then 0 else -1 * contribution e i :=
        getD_zipWith _ _ _ _ 0 false _ hlp hla
      rw [if_pos hin] at hlost2
      show 0 ≤ (lostList e).getD i 0 + (e.pot - contribution e i) + contribution e i
      omega
    · rw [if_neg hin]
      omega
  · obtain ⟨g1, g2, g3⟩ := evalRound_sum hl.seated hl.pot hnn.contrib hq
    rw [getD_zipWith _ _ _ _ 0 0 _ (by rw [g1]; exact hi) hlp]
    have hq0 := list_getD_nonneg g3 i
    show 0 ≤ q.getD i 0 - contribution e i + contribution e i
    omega
  · exact hlost

theorem hand_floor (h : ArrayInHand S d) (hn : NonNegative S d.cfg) (hz : SizesOk d.cfg) (hi : i < d.cfg.numPlayers) :
    S.getD i 0 - contribution d i ≤ stack d i := by
  rcases sound_of h hn hz with ⟨-, hl, -⟩ | ⟨e, p, rfl, hsd, hl, hp, -⟩
  · have : stack d i + contribution d i = S.getD i 0 := hl.money i hi
    omega
  · change i < e.cfg.numPlayers at hi
    have hset : stack (e.settle p) i = _ := settle_stack (d := atSeat e) hl.seated (payouts_length hl.seated hp) i hi
    rw [hset]
    have h1 : stack e i + contribution e i = S.getD i 0 := hl.money i hi
    have h2 := pays_ge hl hsd.nn hp hi
    show S.getD i 0 - contribution e i ≤ stack e i + p.getD i 0 + contribution e i
    omega

theorem step_placed (h : ArrayInHand S d) (hn : NonNegative S d.cfg) (hz : SizesOk d.cfg) (ha : d.action = some a) (bet : PyNum) :
    (step d bet).1 = d ∨ ∃ b c lo up, pyRound bet = .ok b ∧ (atSeat d).betSizes = .ok (c, lo, up) ∧
      (step d bet).1.potCommits = ((atSeat d).afterBet bet.isNeg c (Clubs.cleanBet b c lo up)).potCommits ∧
      (step d bet).1.active = ((atSeat d).afterBet bet.isNeg c (Clubs.cleanBet b c lo up)).active := by
  obtain ⟨hso, hl, -⟩ := sound_of_action h hn hz ha
  have hp : 0 ≤ (atSeat d).pot := nn_pot hl hso.nn
  have htwo : 2 ≤ d.cfg.numPlayers := hl.seated.two
  rcases step_some ha bet with ⟨e, -, he⟩ | ⟨b, e, -, -, he⟩ | ⟨b, c, lo, hi, hb, hsz, he⟩
  · rw [he]; exact .inl rfl
  · rw [he]; exact .inl rfl
  · refine .inr ⟨b, c, lo, hi, hb, hsz, ?_⟩
    have e0 : afterBet d bet.isNeg c (cleanBet b c lo hi) = afterBet d bet.isNeg c (Clubs.cleanBet b c lo hi) :=
      afterBet_congr (clean_same hl.seated hp hz hsz (isNeg_of_round hb))
    rw [e0] at he
    rw [← afterBet_atSeat (by omega), he]
    rcases finish_cases (afterBet d bet.isNeg c (Clubs.cleanBet b c lo hi)) with ⟨e, -, h⟩ | ⟨p, -, -, h, -⟩ | ⟨p, -, -, h, -⟩ <;>
      rw [h] <;> exact ⟨rfl, rfl⟩

theorem keeps_inHand (h : ArrayInHand S d0) (k : ArrayKeeps i P d0 d) : ArrayInHand S d ∧ d.cfg = d0.cfg := by
  induction k with
  | start => exact ⟨h, rfl⟩
  | step bet _ _ ih => exact ⟨.step bet ih.1, by rw [step_cfg, ih.2]⟩

/-- **C103** for the array engine: who bets at least the call stays in -/
theorem C103_stays (h : ArrayInHand S d0) (hn : NonNegative S d0.cfg) (hz : SizesOk d0.cfg) (hi : i < d0.cfg.numPlayers)
    (k : ArrayKeeps i (MeetsCall i) d0 d) : isIn d i ↔ isIn d0 i := by
  induction k with
  | start => rfl
  | @step d bet k hp ih =>
    obtain ⟨hin, hcfg⟩ := keeps_inHand h k
    rw [← ih]
    cases ha : d.action with
    | none => rw [step_none ha]
    | some a =>
      obtain ⟨hso, hl, -⟩ := sound_of_action hin (by rw [hcfg]; exact hn) (by rw [hcfg]; exact hz) ha
      rcases step_placed hin (by rw [hcfg]; exact hn) (by rw [hcfg]; exact hz) ha bet with e | ⟨b, c, lo, up, hb, hsz, -, e⟩
      · rw [e]
      · have := afterBet_meets (d := atSeat d) (fold := bet.isNeg) (b := b) (i := i) hl.seated (nn_pot hl hso.nn)
          (by rw [show (atSeat d).cfg = d.cfg from rfl, hcfg]; exact hz) (array_raise_ge (d := d) hin) hsz
          (by rw [show (atSeat d).cfg = d.cfg from rfl, hcfg]; exact hi) (fun hseat => by
            rw [seat_some (d := atSeat d) ha] at hseat
            subst hseat
            have h1 := round_meets (hp ha) hb
            rw [bet_call (d := atSeat d) ha hsz]
            exact h1)
        unfold isIn at *
        rw [e]
        exact this

theorem keeps_nothing (h : ArrayInHand S d0) (hn : NonNegative S d0.cfg) (hz : SizesOk d0.cfg) (hi : i < d0.cfg.numPlayers)
    (k : ArrayKeeps i BetsNothing d0 d) : contribution d i ≤ contribution d0 i := by
  induction k with
  | start => exact le_refl _
  | @step d bet k hp ih =>
    obtain ⟨hin, hcfg⟩ := keeps_inHand h k
    refine le_trans ?_ ih
    cases ha : d.action with
    | none => rw [step_none ha]
    | some a =>
      have hl := (live_of_array hin ha).1
      rcases step_placed hin (by rw [hcfg]; exact hn) (by rw [hcfg]; exact hz) ha bet with e | ⟨b, c, lo, up, hb, hsz, e, -⟩
      · rw [e]
      · have := (afterBet_nothing (d := atSeat d) (fold := bet.isNeg) (b := b) (c := c) (lo := lo) (up := up) (i := i) hl.seated
          (by rw [show (atSeat d).cfg = d.cfg from rfl, hcfg]; exact hi) (fun hseat => by
          rw [seat_some (d := atSeat d) ha] at hseat
          subst hseat
          exact round_nothing (hp ha) hb)).1
        unfold contribution at *
        rw [e]
        exact this

/-- **C103** for the array engine: who puts in nothing more keeps what they have -/
theorem C103_floor (h : ArrayInHand S d0) (hn : NonNegative S d0.cfg) (hz : SizesOk d0.cfg) (ha : d0.action ≠ none)
    (hi : i < d0.cfg.numPlayers) (k : ArrayKeeps i BetsNothing d0 d) : stack d0 i ≤ stack d i := by
  obtain ⟨hin, hcfg⟩ := keeps_inHand h k
  have h1 := hand_floor hin (by rw [hcfg]; exact hn) (by rw [hcfg]; exact hz) (i := i) (by rw [hcfg]; exact hi)
  have h2 := keeps_nothing h hn hz hi k
  obtain ⟨a, ha⟩ := Option.ne_none_iff_exists'.1 ha
  have h3 : stack d0 i + contribution d0 i = S.getD i 0 := (live_of_array h ha).1.money i hi
  omega

/-- **C103** for the array engine: and puts in nothing -/
theorem C103_nothing (h : ArrayInHand S d0) (hn : NonNegative S d0.cfg) (hz : SizesOk d0.cfg) (hcov : Covers S d0.cfg)
    (hi : i < d0.cfg.numPlayers) (k : ArrayKeeps i BetsNothing d0 d) : contribution d i = contribution d0 i := by
  induction k with
  | start => rfl
  | @step d bet k hp ih =>
    obtain ⟨hin, hcfg⟩ := keeps_inHand h k
    rw [← ih]
    cases ha : d.action with
    | none => rw [step_none ha]
    | some a =>
      have hl := (live_of_array hin ha).1
      rcases step_placed hin (by rw [hcfg]; exact hn) (by rw [hcfg]; exact hz) ha bet with e | ⟨b, c, lo, up, hb, hsz, e, -⟩
      · rw [e]
      · have := (afterBet_nothing (d := atSeat d) (fold := bet.isNeg) (b := b) (c := c) (lo := lo) (up := up) (i := i) hl.seated
          (by rw [show (atSeat d).cfg = d.cfg from rfl, hcfg]; exact hi) (fun hseat => by
          rw [seat_some (d := atSeat d) ha] at hseat
          subst hseat
          exact round_nothing (hp ha) hb)).2
            (array_covered hin (by rw [hcfg]; exact hn) (by rw [hcfg]; exact hz) (by rw [hcfg]; exact hcov) (by rw [ha]; simp) i (by rw [hcfg]; exact hi))
        unfold contribution at *
        rw [e]
        exact this

/-- **C103** for the array engine: a bet of somebody else takes no chips -/
theorem C103_others (h : ArrayInHand S d) (hn : NonNegative S d.cfg) (hz : SizesOk d.cfg) (ha : d.action = some a) (hai : a ≠ i)
    (hi : i < d.cfg.numPlayers) (bet : PyNum) :
    stack d i ≤ stack (step d bet).1 i ∧ contribution (step d bet).1 i = contribution d i ∧ (isIn (step d bet).1 i ↔ isIn d i) := by
  refine ⟨C103_floor h hn hz (by rw [ha]; simp) hi (.step bet .start fun h1 => ?_), ?_⟩
  · rw [ha] at h1
    exact absurd (by simpa using h1) hai
  · have hd := (live_of_array h ha).1.seated
    rcases step_placed h hn hz ha bet with e | ⟨b, c, lo, up, -, -, e1, e2⟩
    · rw [e]; exact ⟨rfl, Iff.rfl⟩
    · have h1 := (contribution_afterBet hd bet.isNeg c (Clubs.cleanBet b c lo up) i hi).1
      rw [seat_some (d := atSeat d) ha, if_neg hai, add_zero] at h1
      have h2 : isIn ((atSeat d).acted bet.isNeg c (Clubs.cleanBet b c lo up)) i ↔ isIn (atSeat d) i := by
        rw [acted_isIn hd _ _ _ i hi]
        exact ⟨fun h => h.1, fun h => ⟨h, fun h' => hai (by rw [← seat_some (d := atSeat d) ha]; exact h'.1)⟩⟩
      unfold contribution isIn at *
      rw [e1, e2, (Clubs.afterBet_fields _ _ _ _).2.1]
      exact ⟨h1, h2⟩

theorem keeps_of (P : Dealer → PyNum → Prop) [∀ d b, Decidable (P d b)] (k : ArrayKeeps i P d0 d) (bets : List PyNum)
    (h : keptBy (fun d b => (step d b).1) i P d bets = true) : ArrayKeeps i P d0 (arrayAfter d bets) := by
  induction bets generalizing d with
  | nil => exact k
  | cons b bets ih =>
    simp only [keptBy, Bool.and_eq_true, decide_eq_true_eq] at h
    exact ih (.step b k h.1) h.2

/-- seat 1 (with the blind of 1) bets nothing: it folds to a raise and keeps its 19 chips -/
example : ∃ S d0 d, ArrayInHand S d0 ∧ NonNegative S d0.cfg ∧ SizesOk d0.cfg ∧ Covers S d0.cfg ∧ d0.action = some 0 ∧ ArrayKeeps 1 BetsNothing d0 d ∧
    stack d0 1 = 19 ∧ stack d 1 = 19 ∧ d.action = none ∧ ¬ isIn d 1 := by
  obtain ⟨S, d0, h1, -, h2, hz, h3, h4, h5, h6⟩ := hand_exists (small 3 [1, 2, 0] 20) []
    (P := fun S d0 => NonNegative S d0.cfg ∧ SizesOk d0.cfg ∧ Covers S d0.cfg ∧ d0.action = some 0 ∧
      keptBy (fun d b => (step d b).1) 1 BetsNothing d0 [.fin 6, .fin 0, .fin (-1)] = true ∧ stack d0 1 = 19 ∧
      stack (arrayAfter d0 [.fin 6, .fin 0, .fin (-1)]) 1 = 19 ∧ (arrayAfter d0 [.fin 6, .fin 0, .fin (-1)]).action = none ∧
      ¬ isIn (arrayAfter d0 [.fin 6, .fin 0, .fin (-1)]) 1) (by decide +kernel)
  exact ⟨S, d0, _, h1, h2, hz, h3, h4, keeps_of _ .start _ h5, h6⟩

/-- seat 1 calls whatever comes and is in at the end; seat 2 folds -/
example : ∃ S d0 d, ArrayInHand S d0 ∧ NonNegative S d0.cfg ∧ SizesOk d0.cfg ∧ ArrayKeeps 1 (MeetsCall 1) d0 d ∧ d.action = some 1 ∧ d.street = 1 ∧
    isIn d 1 ∧ contribution d 1 = 6 ∧ ¬ isIn d 2 := by
  obtain ⟨S, d0, h1, -, h2, h3, h5, h6⟩ := hand_exists (small 3 [1, 2, 0] 20) []
    (P := fun S d0 => NonNegative S d0.cfg ∧ SizesOk d0.cfg ∧
      keptBy (fun d b => (step d b).1) 1 (MeetsCall 1) d0 [.fin 6, .posInf, .fin 5, .fin (-1)] = true ∧
      (arrayAfter d0 [.fin 6, .posInf, .fin 5, .fin (-1)]).action = some 1 ∧ (arrayAfter d0 [.fin 6, .posInf, .fin 5, .fin (-1)]).street = 1 ∧
      isIn (arrayAfter d0 [.fin 6, .posInf, .fin 5, .fin (-1)]) 1 ∧ contribution (arrayAfter d0 [.fin 6, .posInf, .fin 5, .fin (-1)]) 1 = 6 ∧
      ¬ isIn (arrayAfter d0 [.fin 6, .posInf, .fin 5, .fin (-1)]) 2) (by decide +kernel)
  exact ⟨S, d0, _, h1, h2, h3, keeps_of _ .start _ h5, h6⟩

end Clubs.Numpy
