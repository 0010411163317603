import Verif.Lemmas.NumpyAfter
import Verif.Lemmas.NumpyRender
import Verif.Props.NumpyShow
import Verif.Props.NumpyFlow
import Verif.Props.Level

/-!
# C86: the array engine after the hand
-/

namespace Clubs.Numpy

open Spec

variable {S : List Int} {d d' : Dealer} {bet bet' : PyNum} {out : StepOut} {s : Nat → Int}

/-- **C86**: after the hand has ended, any number of further steps, with any bets, leave the table as it is. -/
theorem C86_readonly (h : d.action = none) (bets : List PyNum) : bets.foldl (fun e b => (step e b).1) d = d := by
  induction bets with
  | nil => rfl
  | cons b bs ih => rw [List.foldl_cons, step_none h]; exact ih

/-- a step after a hand that a step has ended -/
theorem after_end (h : ArrayInHand S d) (hr : d.action ≠ none) (hs : step d bet = (d', .ok out)) (hend : d'.action = none)
    (bet' : PyNum) : ∃ x, Live S (atSeat x) ∧ d' = x.settle out.2.1 ∧ payouts x = .ok out.2.1 ∧ HandOver x ∧
      out.2.2 = List.replicate d'.cfg.numPlayers true ∧
      step d' bet' = (d', (payouts d').map fun p => (out.1, p, out.2.2)) := by
  cases ha : d.action with
  | none => exact absurd ha hr
  | some a =>
    cases step_cases h ha bet with
    | refused e h1 => rw [h1] at hs; cases hs
    | stuck b c lo hi e x hb hbs hx hlx hp h1 => rw [h1] at hs; cases hs
    | goesOn b c lo hi p x obs hb hbs hx hlx hp hd ho h1 =>
      rw [h1] at hs
      obtain ⟨rfl, -⟩ := Prod.mk.inj hs
      obtain ⟨t, ht, -⟩ := hlx.action
      rw [show x.action = some t from ht] at hend
      cases hend
    | ended b c lo hi p x obs hb hbs hx hlx hp hd ho h1 =>
      rw [h1] at hs
      obtain ⟨rfl, h2⟩ := Prod.mk.inj hs
      simp only [Except.ok.injEq] at h2
      subst h2
      have hov := (done_all_iff x).1 hd
      have hdone : done x = List.replicate x.cfg.numPlayers true := by
        unfold done
        exact if_pos hov
      have hany : (x.settle p).active.any id = true := by
        show x.active.any id = true
        obtain ⟨i, hi, hi2⟩ := countTrue_pos.1 (show 1 ≤ countTrue x.active from hlx.one)
        exact (any_getD false).2 ⟨i, hi, hi2⟩
      refine ⟨x, hlx, rfl, hp, hov, hdone, ?_⟩
      unfold step
      rw [show (x.settle p).action = none from rfl]
      simp only []
      rw [if_pos hany, show done (x.settle p) = done x from rfl, hd, show observation (x.settle p) true = .ok obs from ho]
      cases payouts (x.settle p) <;> rfl

/-- **C86**: when a hand ends, all players are done: unlike the other engine (C28, C43) this one ends a hand only after the last street
or when one player is left; and every further step reports the same done flags, and the same observation if it does not fail. -/
theorem C86_done (h : ArrayInHand S d) (hr : d.action ≠ none) (hs : step d bet = (d', .ok out)) (hend : d'.action = none) :
    HandOver d' ∧ out.2.2 = List.replicate d'.cfg.numPlayers true ∧
    ∀ bet' out', (step d' bet').2 = .ok out' → out'.1 = out.1 ∧ out'.2.2 = out.2.2 := by
  obtain ⟨x, -, h2, -, h4, h5, -⟩ := after_end h hr hs hend bet
  refine ⟨by rw [h2]; exact h4, h5, fun bet' out' ho => ?_⟩
  obtain ⟨-, -, -, -, -, -, h6⟩ := after_end h hr hs hend bet'
  rw [h6] at ho
  cases hp : payouts d' with
  | error e => rw [hp] at ho; cases ho
  | ok p =>
    rw [hp] at ho
    simp only [Except.map, Except.ok.injEq] at ho
    rw [← ho]
    exact ⟨rfl, rfl⟩

/-- **C86** (part: for hands that end with a showdown to which everybody who is in has paid something; see `C86_false` and
`C86_false_antes` for the others): every further step reports the same observation, payouts and done flags as the step that ended the
hand. -/
theorem C86_showdown_partial (h : ArrayInHand S d) (hn : NonNegative S d.cfg) (hz : SizesOk d.cfg) (hrun : Running d)
    (hs : step d bet = (d', .ok out)) (hsh : AtShowdown d') (hrk : Ranks d' s)
    (hin : (∀ i < d'.cfg.numPlayers, isIn d' i → 0 < contribution d' i) ∨ ∀ i < d'.cfg.numPlayers, contribution d' i = 0)
    (bet' : PyNum) : step d' bet' = (d', .ok out) := by
  obtain ⟨x, k1, -, k3, k4, k5, -, k7, -, -, -, -, -, -, -, k8⟩ := step_showdown h hn hz hrun hs hsh
  rcases k8 with ⟨e, -, k9, -⟩ | ⟨obs, p, k9, k10, k11, hend⟩
  · cases k9
  · simp only [Except.ok.injEq] at k10
    subst k10
    obtain ⟨-, -, -, -, -, -, h6⟩ := after_end h (fun h0 => by obtain ⟨⟨a, ha⟩, -⟩ := hrun; rw [h0] at ha; cases ha) hs hend bet'
    rw [h6]
    rw [k11] at hsh hrk hin ⊢
    rw [payouts_after (s := s) k1 k3 k4 k5 hrk hsh.2 hsh.1 hin, k9]
    rfl

/-- **C86**: at a showdown at a table with equal antes where everybody who is in started with chips, the condition is met: everybody who
is in has paid something, or nobody has. -/
theorem C86_paid (h : ArrayInHand S d) (hn : NonNegative S d.cfg) (hz : SizesOk d.cfg) (hcov : Covers S d.cfg) (he : EqualAntes d.cfg)
    (hS : ∀ i < d.cfg.numPlayers, isIn d i → 0 < S.getD i 0) (hsh : AtShowdown d) :
    (∀ i < d.cfg.numPlayers, isIn d i → 0 < contribution d i) ∨ ∀ i < d.cfg.numPlayers, contribution d i = 0 := by
  obtain ⟨-, M, h1, h2, h3⟩ := array_level_showdown h hn hz hcov he hsh.1
  by_cases hM : 0 < M
  · left
    intro i hi hin
    rcases h3 i hi hin with h4 | h4
    · omega
    · have := hS i hi hin; omega
  · right
    intro i hi
    have := h1 i hi
    have := (h2 i hi).1
    omega

/-- **C86**: so at such tables every further step after a showdown repeats what the ending step reported. -/
theorem C86_equal_partial (h : ArrayInHand S d) (hn : NonNegative S d.cfg) (hz : SizesOk d.cfg) (hcov : Covers S d.cfg)
    (he : EqualAntes d.cfg) (hS : ∀ x ∈ S, 0 < x) (hrun : Running d) (hs : step d bet = (d', .ok out)) (hsh : AtShowdown d')
    (hrk : Ranks d' s) (bet' : PyNum) : step d' bet' = (d', .ok out) := by
  have hin' : ArrayInHand S d' := by have := ArrayInHand.step bet h; rwa [hs] at this
  have hcfg : d'.cfg = d.cfg := by have := step_cfg d bet; rwa [hs] at this
  rw [← hcfg] at hcov he
  have hl := (array_level_showdown hin' (by rw [hcfg]; exact hn) (by rw [hcfg]; exact hz) hcov he hsh.1).1
  refine C86_showdown_partial h hn hz hrun hs hsh hrk (C86_paid hin' (by rw [hcfg]; exact hn) (by rw [hcfg]; exact hz) hcov he ?_ hsh) bet'
  intro i hi _
  rw [getD_eq _ _ _ (by rw [hl]; exact hi)]
  exact hS _ (List.getElem_mem _)

/-- **C86**: after a hand that ended because all but one player folded, every further step reports that everybody has lost what they had
put in: for the others that is what the ending step reported, for the winner it is not. -/
theorem C86_folded (h : ArrayInHand S d) (hr : d.action ≠ none) (hs : step d bet = (d', .ok out)) (hend : d'.action = none)
    (hone : numIn d' = 1) (bet' : PyNum) :
    ∃ pays, step d' bet' = (d', .ok (out.1, pays, out.2.2)) ∧ pays.length = d'.cfg.numPlayers ∧
      ∀ i < d'.cfg.numPlayers, pays.getD i 0 = - contribution d' i ∧
        (out.2.1.getD i 0 = if isIn d' i then d'.potCommits.sum - contribution d' i else - contribution d' i) := by
  obtain ⟨x, hl, h2, h3, h4, h5, h6⟩ := after_end h hr hs hend bet'
  have hact : x.active.length = x.cfg.numPlayers := hl.seated.active
  have hcom : x.potCommits.length = x.cfg.numPlayers := hl.seated.potCommits
  have key : ∀ y : Dealer, y.active = x.active → y.potCommits = x.potCommits → ∃ pays, payouts y = .ok pays ∧
      pays.length = x.cfg.numPlayers ∧ ∀ i < x.cfg.numPlayers, pays.getD i 0 =
        if isIn x i then y.pot - contribution x i else - contribution x i := by
    intro y e1 e2
    have h1 : countTrue y.active = 1 := by rw [e1]; rw [h2] at hone; exact hone
    unfold payouts
    simp only []
    rw [if_pos h1]
    refine ⟨_, rfl, by simp [e1, e2, hact, hcom], fun i hi => ?_⟩
    rw [getD_eq _ _ _ (by simp [e1, e2, hact, hcom]; exact hi)]
    simp only [List.getElem_zipWith, e1, e2]
    have ea : x.active.getD i false = x.active[i]'(by rw [hact]; exact hi) := getD_eq _ _ _ _
    have ec : contribution x i = x.potCommits[i]'(by rw [hcom]; exact hi) := getD_eq _ _ _ _
    rw [ec]
    by_cases ha : x.active[i]'(by rw [hact]; exact hi) = true
    · rw [if_pos (show isIn x i from ea.trans ha)]
      simp [ha]
    · rw [if_neg (show ¬ isIn x i from fun hc => ha (ea.symm.trans hc))]
      simp [ha]
  obtain ⟨p1, k1, k2, k3⟩ := key x rfl rfl
  rw [h3] at k1
  cases k1
  obtain ⟨p2, m1, m2, m3⟩ := key (x.settle out.2.1) rfl rfl
  refine ⟨p2, ?_, ?_, ?_⟩
  · rw [h6]
    rw [h2, m1]
    rfl
  · rw [h2]; exact m2
  · intro i hi
    rw [h2] at hi ⊢
    have hi' : i < x.cfg.numPlayers := hi
    have e : (x.settle out.2.1).pot = 0 := rfl
    constructor
    · rw [m3 i hi', e]
      show (if isIn x i then 0 - contribution x i else - contribution x i) = - contribution x i
      split <;> omega
    · have hp : x.pot = x.potCommits.sum := hl.pot
      rw [k3 i hi', hp]
      rfl

/-- a showdown of three players, with odd chips -/
example : ∃ S d d' out, ArrayInHand S d ∧ ArrayReachable d ∧ step d (.fin 0) = (d', .ok out) ∧ NonNegative S d.cfg ∧ SizesOk d.cfg ∧
    Covers S d.cfg ∧ EqualAntes d.cfg ∧ AtShowdown d' ∧ Ranks d' (fun _ => 1) ∧
    (∀ x ∈ S, 0 < x) ∧ Running d ∧ out.2.1 = [1, 0, -1] :=
  step_exists (ties 3 [1, 2, 0] 10) [.bet (-1), .bet (-1), .deal, .bet 2, .bet (-1), .bet 0, .bet 0] (.fin 0)
    (by decide +kernel)

/-- **C86 is false** for hands that end because all others fold: player 1 won 1 chip, the next step says that they lost 2. -/
theorem C86_false : ∃ S d d' out, ArrayInHand S d ∧ ArrayReachable d ∧ step d (.fin (-1)) = (d', .ok out) ∧ NonNegative S d.cfg ∧
    SizesOk d.cfg ∧ d.action ≠ none ∧ d'.action = none ∧ numIn d' = 1 ∧ out.2.1 = [-1, 1] ∧
    (step d' (.fin 0)).2.toOption.map (fun o => o.2.1) = some [-1, -2] :=
  step_exists (small 2 [1, 2] 10) [] (.fin (-1)) (by decide +kernel)

/-- **C86 is false** for showdowns of players who have paid nothing: at a table with one ante and no bets nobody wins or loses, the next
step says that player 1 lost their ante. -/
theorem C86_false_antes : ∃ S d d' out, ArrayInHand S d ∧ ArrayReachable d ∧ step d (.fin 0) = (d', .ok out) ∧ NonNegative S d.cfg ∧
    SizesOk d.cfg ∧ Covers S d.cfg ∧ Running d ∧ AtShowdown d' ∧ d'.potCommits = [0, 1, 0] ∧ out.2.1 = [0, 0, 0] ∧
    (step d' (.fin 0)).2.toOption.map (fun o => o.2.1) = some [0, -1, 0] :=
  step_exists (mixed 3 1 6 [1, 0, 0] [0, 0, 0] 30) [.bet 0, .bet 0, .bet 0, .bet 0, .bet 0] (.fin 0) (by decide +kernel)

end Clubs.Numpy
