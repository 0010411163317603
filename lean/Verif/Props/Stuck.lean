import Verif.Props.Division
import Verif.Props.Level

/-!
# The chips left over: exactly which hands get stuck (C37), exactly which folded players get chips (C26)
-/

namespace Clubs

open Spec Finset

variable {S : List Int} {d : Dealer} {s : Nat → Int}

/-- a hand that is over stays as it is -/
theorem afterBets_over (h : InHand S d) (ho : Over d) (bets : Nat → Rat) (k : Nat) : afterBets d bets k = d := by
  induction k with
  | zero => rfl
  | succ k ih =>
    show ((afterBets d bets k).step _).1 = _
    rw [ih]; exact step_over h ho _

/-- chips are left over, and no seat with a number above the button's has a share -/
def Leftover (d : Dealer) (s : Nat → Int) : Prop :=
  leftAt d s ≠ 0 ∧ ∀ w, d.button < w → w < d.cfg.numPlayers → sharesAt d s w = 0

theorem leftover_iff (h : InHand S d) (hn : NonNegative S d.cfg) (ha : d.action ≠ none) (hsh : AtShowdown d) (hr : Ranks d s) :
    (∃ e, d.payouts = .error e) ↔ Leftover d s := by
  obtain ⟨a, ha'⟩ := Option.ne_none_iff_exists'.1 ha
  obtain ⟨hl, -⟩ := live_of_action h ha'
  have hnn := nn_of_action h hn ha'
  have hone : countTrue d.active ≠ 1 := by
    have := hsh.2
    unfold numIn at this
    unfold countTrue
    omega
  obtain ⟨hp, -, -⟩ := showdown_paidOut hl.seated hl.holeLen hl.pot hnn.contrib hr hone hsh.1
  constructor
  · rintro ⟨e, he⟩
    cases hp with
    | even p h1 => rw [h1] at he; cases he
    | odd p k h1 => rw [h1] at he; cases he
    | raises h1 h0 hf => exact ⟨h0, hf⟩
  · rintro ⟨h0, hf⟩
    cases hp with
    | even p h1 h2 => exact absurd h2 h0
    | odd p k h1 h2 hk hkn hw => exact absurd (hf _ (by omega) hkn) hw
    | raises h1 => exact ⟨_, h1⟩

/-- **C37** (exactly): at a sensible table, from every state of a hand and whatever is bet, after finitely many steps one of two things
is the case for good. Either nobody is to act any more, or the table stays as it is, at a showdown in which chips are left over and
no seat with a number above the button's has a share. -/
theorem C37_exact (h : InHand S d) (hre : Reachable d) (hn : NonNegative S d.cfg) (he : Enough d.cfg) (hf : HandsFit d.cfg)
    (hg : GoodEvaluator d.cfg) (bets : Nat → Rat) :
    ∃ k, (∀ j ≥ k, (afterBets d bets j).action = none) ∨
      ((∀ j ≥ k, afterBets d bets j = afterBets d bets k) ∧ (afterBets d bets k).action ≠ none ∧ AtShowdown (afterBets d bets k) ∧
        ∃ s, Ranks (afterBets d bets k) s ∧ Leftover (afterBets d bets k) s) := by
  obtain ⟨k, hk⟩ := C37_ends_partial h hn bets
  have hin := afterBets_inHand h bets k
  have hst : ∀ j ≥ k, afterBets d bets j = afterBets d bets k := by
    intro j hj
    induction j, hj using Nat.le_induction with
    | base => rfl
    | succ j hj ih =>
      show ((afterBets d bets j).step _).1 = _
      rw [ih]; exact step_over hin (hk k (le_refl _)) _
  refine ⟨k, ?_⟩
  by_cases ha : (afterBets d bets k).action = none
  · exact .inl fun j hj => by rw [hst j hj]; exact ha
  right
  have hcfg := afterBets_cfg d bets k
  have hre' := afterBets_reachable hre bets k
  have hn' : NonNegative S (afterBets d bets k).cfg := by rw [hcfg]; exact hn
  obtain ⟨hl, -, hsh, hee⟩ := stuck_live hin hn' (hk k (le_refl _)) ha
  obtain ⟨s, hr⟩ := C54_ranks hre' ((reachable_dealt hre').hole_ne hl.seated ha) (by have := hsh.1; omega) (by rw [hcfg]; exact he)
    (by rw [hcfg]; exact hf) (by rw [hcfg]; exact hg)
  exact ⟨hst, ha, hsh, s, hr, (leftover_iff hin hn' ha hsh hr).1 hee⟩

/-- **C37** (the converse): a table in that state stays as it is, whatever is bet; the player to act remains to act for ever. -/
theorem C37_stuck (h : InHand S d) (hn : NonNegative S d.cfg) (ha : d.action ≠ none) (hsh : AtShowdown d) (hr : Ranks d s)
    (hl : Leftover d s) (bets : Nat → Rat) (k : Nat) : afterBets d bets k = d :=
  afterBets_over h (.inr ⟨hsh.1, (leftover_iff h hn ha hsh hr).2 hl⟩) bets k

/-- **C37**: a step to a showdown ends the hand, unless chips are left over and no seat with a number above the button's has a share:
then the player who acted remains to act. -/
theorem C37_step {d' : Dealer} {bet : PyNum} {res : Except Err StepOut} (h : InHand S d) (hn : NonNegative S d.cfg) (hrun : Running d)
    (hs : d.step bet = (d', res)) (hsh : AtShowdown d') (hr : Ranks d' s) : d'.action = none ↔ ¬ Leftover d' s := by
  have hin : InHand S d' := by have := InHand.step bet h; rwa [hs] at this
  have hcfg : d'.cfg = d.cfg := by have := step_cfg d bet; rwa [hs] at this
  have hn' : NonNegative S d'.cfg := by rw [hcfg]; exact hn
  constructor
  · intro ha hl
    obtain ⟨-, -, ⟨h1, -⟩ | ⟨-, obs, pays, done, w, -, h2, h3, h4, -⟩ | ⟨-, h5, -⟩⟩ := C25_division h hn hrun hs hsh hr
    · exact hl.1 h1
    · exact h4 (hl.2 w h2 h3)
    · obtain ⟨⟨a, ha'⟩, hst⟩ := hrun
      cases step_cases h ha' bet with
      | refused e he => rw [hs] at he; cases he; rw [ha'] at ha; cases ha
      | stuck b c lo hi e x hb hs' hx hlx hp he =>
        rw [hs] at he; cases he
        obtain ⟨a', ha'', -⟩ := hlx.action
        rw [ha''] at ha; cases ha
      | ended b c lo hi p x obs hb hs' hx hlx hp hd ho he => rw [hs] at he; cases he; cases h5
      | goesOn b c lo hi p x obs hb hs' hx hlx hp hd ho he => rw [hs] at he; cases he; cases h5
  · intro hl
    by_contra ha
    rcases street_or_over hin with ho | ⟨a, -, hst⟩
    · obtain ⟨-, -, -, hee⟩ := stuck_live hin hn' ho ha
      exact hl ((leftover_iff hin hn' ha hsh hr).1 hee)
    · have := hsh.1
      omega

/-! ## C26 -/

/-- a player who folded has no share, unless they put in more than everybody who did not fold -/
theorem shares_folded {n : Nat} {act : Nat → Bool} {c s : Nat → Int} (hc : FoldsCovered n act c) {j : Nat} (ho : act j = false) :
    shares n act c s j = 0 := by
  unfold shares
  apply Finset.sum_eq_zero
  intro k hk
  rw [mem_range] at hk
  cases ak : act k
  · obtain ⟨q, q1, q2, q3⟩ := hc k hk ak
    have := le_reached (n := n) (c := c) (s := s) (i := k) q1 (.inl ⟨q2, by rw [ak]; simp⟩)
    rw [piece_zero (by unfold Served; omega), Int.zero_ediv, ite_self]
  · rw [if_neg]
    unfold sharers
    rw [mem_filter]
    rintro ⟨-, h1⟩
    rw [if_pos ak] at h1
    rw [ho] at h1
    cases h1.1

/-- **C26** (exactly): if nobody who folded put in more than everybody who did not, the players who folded lose at a showdown exactly what they
put in, with one exception: if chips are left over and `w` is the first seat above the button's with a share, seat `w - button` gets
them, folded or not. -/
theorem C26_exact {d' : Dealer} {bet : PyNum} {obs : Observation} {pays : List Int} {done : List Bool} (h : InHand S d)
    (hn : NonNegative S d.cfg) (hrun : Running d) (hs : d.step bet = (d', .ok (obs, pays, done))) (hsh : AtShowdown d') (hr : Ranks d' s)
    (hc : FoldsCovered d'.cfg.numPlayers (inB d') (contribution d')) {j : Nat} (hj : j < d'.cfg.numPlayers) (hout : ¬ isIn d' j) :
    (pays.getD j 0 = - contribution d' j ↔ ¬ (leftAt d' s ≠ 0 ∧ 0 < j ∧ d'.button + j < d'.cfg.numPlayers ∧
      sharesAt d' s (d'.button + j) ≠ 0 ∧ ∀ v, d'.button < v → v < d'.button + j → sharesAt d' s v = 0)) ∧
    (pays.getD j 0 = - contribution d' j ∨ pays.getD j 0 = leftAt d' s - contribution d' j) := by
  have h0 : sharesAt d' s j = 0 := shares_folded hc (by
    unfold isIn at hout
    unfold inB
    simpa using hout)
  obtain ⟨-, -, ⟨h2, obs', pays', done', h3, h4⟩ | ⟨h2, obs', pays', done', w, h3, w1, w2, w3, w4, h4⟩ | ⟨-, h3, -⟩⟩ :=
    C25_division h hn hrun hs hsh hr
  · simp only [Except.ok.injEq, Prod.mk.injEq] at h3
    obtain ⟨rfl, rfl, rfl⟩ := h3
    have h5 := h4 j hj
    unfold received at h5
    exact ⟨⟨fun _ h => h.1 h2, fun _ => by omega⟩, .inl (by omega)⟩
  · simp only [Except.ok.injEq, Prod.mk.injEq] at h3
    obtain ⟨rfl, rfl, rfl⟩ := h3
    have h5 := h4 j hj
    unfold received at h5
    by_cases hw : w - d'.button = j
    · rw [if_pos hw] at h5
      obtain rfl : w = d'.button + j := by omega
      exact ⟨⟨fun h6 => by omega, fun h6 => absurd ⟨h2, by omega, w2, w3, w4⟩ h6⟩, .inr (by omega)⟩
    · rw [if_neg hw] at h5
      refine ⟨⟨fun _ h6 => ?_, fun _ => by omega⟩, .inl (by omega)⟩
      obtain ⟨-, g1, g2, g3, g4⟩ := h6
      rcases Nat.lt_trichotomy w (d'.button + j) with h7 | h7 | h7
      · exact w3 (g4 w w1 h7)
      · exact hw (by omega)
      · exact g3 (w4 _ (by omega) h7)
  · cases h3

/-- **C26**: if no chips are left over, the players who folded lose what they put in, wherever the button is and whoever ties. -/
theorem C26_even {d' : Dealer} {bet : PyNum} {obs : Observation} {pays : List Int} {done : List Bool} (h : InHand S d)
    (hn : NonNegative S d.cfg) (hrun : Running d) (hs : d.step bet = (d', .ok (obs, pays, done))) (hsh : AtShowdown d') (hr : Ranks d' s)
    (hc : FoldsCovered d'.cfg.numPlayers (inB d') (contribution d')) (h0 : leftAt d' s = 0) {j : Nat} (hj : j < d'.cfg.numPlayers)
    (hout : ¬ isIn d' j) : pays.getD j 0 = - contribution d' j :=
  (C26_exact h hn hrun hs hsh hr hc hj hout).1.2 fun h1 => h1.1 h0

/-! ## witnesses -/

/-- a shuffle that moves the first three cards to the end -/
def cutThree (l : List Card) : List Card := l.drop 3 ++ l.take 3

theorem isShuffle_cutThree : IsShuffle cutThree := fun l => by
  unfold cutThree
  exact List.perm_append_comm.trans (by rw [List.take_append_drop])

/-- A state of a hand dealt with the button moved back to seat 0, from a computation. -/
theorem redeal_exists (a : DealerArgs) (cs : List Cmd) {sh : Shuffle} (hs : IsShuffle sh) (bs : List Int)
    {P : List Int → Dealer → Prop} [∀ S d, Decidable (P S d)]
    (h : (playTable a cs).bind (fun r => match r.2.1.reset true false sh with
      | (d, .ok _) => .ok (decide (P r.2.1.stacks (playFrom d bs)))
      | (_, .error e) => .error e) = .ok true) :
    ∃ S d, InHand S d ∧ Reachable d ∧ P S d := by
  cases ht : playTable a cs with
  | error e => rw [ht] at h; simp [Except.bind] at h
  | ok r =>
    rw [ht] at h
    simp only [Except.bind] at h
    have hr := playTable_ok ht
    split at h
    · next d obs hd =>
      simp only [Except.ok.injEq, decide_eq_true_eq] at h
      have h1 := InHand.dealt (rs := false) (reachable_seated hr.2.1) hs hd
      have h2 := Reachable.reset true false hs hr.2.1
      rw [hd] at h2
      exact ⟨_, _, playFrom_inHand h1 bs, playFrom_reachable h2 bs, h⟩
    · simp at h

instance (d : Dealer) (s : Nat → Int) : Decidable (Leftover d s) :=
  decidable_of_iff (leftAt d s ≠ 0 ∧ ∀ w < d.cfg.numPlayers, d.button < w → sharesAt d s w = 0)
    ⟨fun h => ⟨h.1, fun w h1 h2 => h.2 w h2 h1⟩, fun h => ⟨h.1, fun w h1 h2 => h.2 w h2 h1⟩⟩

/-- **C37 is false** also with the button at seat 0 and no antes at all: seats 0, 1 and 2 are all in with 10, 9 and 11 chips. Seat 0 has an ace,
the others have kings. Seat 0 gets 29 chips; the last chip, seat 2's own, is split between seats 1 and 2. Both get 0, and the hand is stuck. -/
theorem C37_false_button : ∃ S d, InHand S d ∧ Reachable d ∧ (NonNegative S d.cfg ∧ Covers S d.cfg ∧ EqualAntes d.cfg ∧ d.button = 0 ∧
    S = [10, 9, 11] ∧ d.potCommits = [10, 9, 11] ∧ AtShowdown d ∧ Ranks d (strength [0, 1, 1]) ∧ Leftover d (strength [0, 1, 1])) ∧
    ∀ bets k, (afterBets d bets k).action = some 1 := by
  obtain ⟨S, d, h1, h2, h3, h4⟩ := redeal_exists (mixed 3 2 2 [0, 0, 0] [1, 2, 0] 10) [.bet (-1), .bet (-1)] isShuffle_cutThree [20, 20, 20]
    (P := fun S d => (NonNegative S d.cfg ∧ Covers S d.cfg ∧ EqualAntes d.cfg ∧ d.button = 0 ∧
      S = [10, 9, 11] ∧ d.potCommits = [10, 9, 11] ∧ AtShowdown d ∧ Ranks d (strength [0, 1, 1]) ∧ Leftover d (strength [0, 1, 1])) ∧
      d.action = some 1) (by decide +kernel)
  refine ⟨S, d, h1, h2, h3, fun bets k => ?_⟩
  obtain ⟨hn, -, -, -, -, -, hsh, hr, hl⟩ := h3
  rw [C37_stuck h1 hn (by rw [h4]; simp) hsh hr hl]
  exact h4

/-- The hypotheses of `C37_exact` hold in the hand of `C37_false_shipped`, in the configuration of `clubs/configs.py` in which only one
position pays an ante. -/
example : ∃ S d bets, InHand S d ∧ Reachable d ∧ NonNegative S d.cfg ∧ Enough d.cfg ∧ HandsFit d.cfg ∧ GoodEvaluator d.cfg ∧
    ∀ j ≥ 18, (afterBets d bets j).action = some 2 := by
  obtain ⟨d, d', obs, h1, h2, h3⟩ := C37_false_shipped
  have hm : NO_LIMIT_HOLDEM_BB_ANTE_NINE_PLAYER ∈ ALL_CONFIGS := by decide
  have g := shipped_good hm h1 true
  have hcfg : d'.cfg = d.cfg := by have := reset_cfg d true true acesFirst; rwa [h2] at this
  rw [← hcfg] at g
  have hre := Reachable.reset true true acesFirst_isShuffle (.new isShuffle_id h1)
  rw [h2] at hre
  exact ⟨_, d', bbBets, .dealt (new_seated h1) acesFirst_isShuffle h2, hre, g.nonneg, g.enough, g.fits, g.evaluator, h3⟩

/-- the hypotheses of `C37_step`, for both outcomes: one chip is left over with the button at seat 0, and with the button at seat 1
(`C37_false`) -/
example : (∃ S d, InHand S d ∧ Reachable d ∧ NonNegative S d.cfg ∧ Running d ∧ AtShowdown (d.step (.fin 0)).1 ∧
      Ranks (d.step (.fin 0)).1 (fun _ => 1) ∧ leftAt (d.step (.fin 0)).1 (fun _ => 1) = 1 ∧ ¬ Leftover (d.step (.fin 0)).1 (fun _ => 1)) ∧
    ∃ S d, InHand S d ∧ Reachable d ∧ NonNegative S d.cfg ∧ Running d ∧ AtShowdown (d.step (.fin 0)).1 ∧
      Ranks (d.step (.fin 0)).1 (fun _ => 1) ∧ leftAt (d.step (.fin 0)).1 (fun _ => 1) = 1 ∧ Leftover (d.step (.fin 0)).1 (fun _ => 1) :=
  ⟨hand_exists (ties 4 [1, 2, 0, 0] 10) [.bet 2, .bet 2, .bet (-1), .bet 0, .bet 0, .bet 0] (by decide +kernel),
    hand_exists (ties 3 [1, 2, 0] 10) [.bet (-1), .bet (-1), .deal, .bet 2, .bet (-1), .bet 0, .bet 0] (by decide +kernel)⟩

set_option synthInstance.maxSize 1024 in
/-- the exception of `C26_exact`: the hand of `C26_false` -/
example : ∃ S d d' out, InHand S d ∧ Reachable d ∧ d.step (.fin 0) = (d', .ok out) ∧ NonNegative S d.cfg ∧ Running d ∧ AtShowdown d' ∧
    Ranks d' (fun _ => 1) ∧ FoldsCovered d'.cfg.numPlayers (inB d') (contribution d') ∧ ¬ isIn d' 2 ∧ leftAt d' (fun _ => 1) = 1 ∧
    d'.button = 1 ∧ (List.range 4).map (sharesAt d' (fun _ => 1)) = [2, 2, 0, 2] ∧ out.2.1 = [0, 0, 0, 0] :=
  step_exists (ties 4 [1, 2, 0, 0] 10)
    [.bet (-1), .bet (-1), .bet (-1), .deal, .bet 2, .bet 2, .bet (-1), .bet 0, .bet 0, .bet 0] (.fin 0) (by decide +kernel)

set_option synthInstance.maxSize 1024 in
/-- the hypotheses of `C26_even`, with a tie and the button at seat 1 -/
example : ∃ S d d' out, InHand S d ∧ Reachable d ∧ d.step (.fin 0) = (d', .ok out) ∧ NonNegative S d.cfg ∧ Running d ∧ AtShowdown d' ∧
    Ranks d' (fun _ => 1) ∧ FoldsCovered d'.cfg.numPlayers (inB d') (contribution d') ∧ ¬ isIn d' 2 ∧ leftAt d' (fun _ => 1) = 0 ∧
    d'.button = 1 ∧ out.2.1 = [1, 1, -3, 1] :=
  step_exists (ties 4 [3, 6, 0, 0] 30)
    [.bet (-1), .bet (-1), .bet (-1), .deal, .bet 6, .bet 6, .bet (-1), .bet 0, .bet 0, .bet 0] (.fin 0) (by decide +kernel)

end Clubs
