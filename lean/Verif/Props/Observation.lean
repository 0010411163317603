import Verif.Lemmas.Trace
import Verif.Lemmas.Secrecy
import Verif.Props.Showdown
import Verif.Spec.Betting

/-!
# C58–C60: what `reset` and `step` return
-/

namespace Clubs

open Spec

variable {S : List Int} {d d' : Dealer} {bet : PyNum} {out : StepOut} {obs : Observation} {ms : List Move} {a : Nat}

theorem shows_any (h : Shows d obs) : ∃ x, d.observation x = .ok obs := by
  rcases h with ⟨d0, rb, rs, shuf, hr⟩ | ⟨d0, bet, p, dn, hs⟩
  · exact ⟨_, (reset_ok hr).2.2.2⟩
  · cases ha0 : d0.action with
    | none =>
      have h1 := step_none ha0 bet
      rw [hs] at h1
      simp only at h1
      subst h1
      unfold Dealer.step at hs
      rw [ha0] at hs
      simp only [] at hs
      split at hs
      · split at hs
        · simp at hs
        · split at hs
          · simp at hs
          · rename_i o ho
            simp only [Prod.mk.injEq, Except.ok.injEq, true_and] at hs
            exact ⟨_, by rw [ho, hs.1]⟩
      · simp at hs
    | some a0 =>
      rcases step_some ha0 bet with ⟨e, -, he⟩ | ⟨b, e, -, -, he⟩ | ⟨b, c, lo, hi, -, -, he⟩
      · rw [hs] at he; simp at he
      · rw [hs] at he; simp at he
      · rw [hs] at he
        rcases finish_cases (d0.afterBet bet.isNeg c (cleanBet b c lo hi)) with
          ⟨e, -, hf⟩ | ⟨q, -, -, hf1, hf2⟩ | ⟨q, -, -, hf1, hf2⟩
        · rw [hf] at he; simp at he
        · rw [← he] at hf1 hf2
          simp only at hf1 hf2
          rw [hf1]
          cases ho : ((d0.afterBet bet.isNeg c (cleanBet b c lo hi)).settle q).observation true with
          | error e => rw [ho] at hf2; simp [Except.map] at hf2
          | ok o =>
            rw [ho] at hf2
            simp only [Except.map, Except.ok.injEq, Prod.mk.injEq] at hf2
            exact ⟨_, by rw [ho, hf2.1]⟩
        · rw [← he] at hf1 hf2
          simp only at hf1 hf2
          rw [hf1]
          cases ho : (d0.afterBet bet.isNeg c (cleanBet b c lo hi)).observation false with
          | error e => rw [ho] at hf2; simp [Except.map] at hf2
          | ok o =>
            rw [ho] at hf2
            simp only [Except.map, Except.ok.injEq, Prod.mk.injEq] at hf2
            exact ⟨_, by rw [ho, hf2.1]⟩

/-- **C58**: an observation tells who is in, the button, the board, the pot, the stacks and the bets of the street as they are,
and who is to act (−1 if nobody is). -/
theorem C58_table (h : Shows d obs) :
    obs.active = d.active ∧ obs.button = d.button ∧ obs.communityCards = d.communityCards ∧ obs.pot = d.pot ∧
    obs.stacks = d.stacks ∧ obs.streetCommits = d.streetCommits ∧
    (∀ a, d.action = some a → obs.action = a) ∧ (d.action = none → obs.action = -1) := by
  obtain ⟨x, ho⟩ := shows_any h
  unfold Dealer.observation at ho
  split at ho
  · cases ho
  · split at ho
    · cases ho
    · cases ho
      refine ⟨rfl, rfl, rfl, rfl, rfl, rfl, ?_, ?_⟩
      · intro a ha
        simp only [ha]
      · intro ha
        simp only [ha]

/-- **C58**: an observation contains the hole cards of the player to act. -/
theorem C58_hole (h : Shows d obs) (ha : d.action = some a) : obs.holeCards = d.holeCards.getD a [] := by
  obtain ⟨x, ho⟩ := shows_any h
  exact (observation_some ha ho).2

/-! ## C59 -/

/-- **C59**: the call that is offered is what is missing to the highest bet, or the stack if that is less. -/
theorem C59_call (h : Shows d obs) (ha : d.action = some a) : obs.call = min (toCall d a) (stack d a) := by
  have hsz := shows_sizes h ha
  unfold Dealer.betSizes at hsz
  simp only [seat_some ha] at hsz
  split at hsz
  · cases hsz
  · split at hsz
    · cases hsz
    · simp only [Except.ok.injEq, Prod.mk.injEq] at hsz
      exact hsz.1.symm

/-- **C59**: if a raise is allowed, the smallest and the largest raise of the rules are offered, each replaced by the stack if
that is less. -/
theorem C59_raise (ht : HandTrace S d ms) (hn : NonNegative S d.cfg) (h : Shows d obs) (ha : d.action = some a)
    {r : RaiseSize} {limit : NumRaises} (hr : d.cfg.raiseSizes[d.street]? = some r)
    (hl : d.cfg.numRaises[d.street]? = some limit)
    (hm : MayRaise limit (raises d.cfg.bigBlind d.street ms) (toCall d a)) :
    obs.minRaise = min (stack d a) (leastRaise d.cfg r (raises d.cfg.bigBlind d.street ms) (toCall d a)) ∧
    obs.maxRaise = (match mostRaise r d.pot (toCall d a) with | none => stack d a | some m => min (stack d a) m) := by
  obtain ⟨-, t1, t2⟩ := trace_raises ht hn
  have hst : d.street < d.cfg.numStreets := by
    have hs := (live_of_action (trace_inHand ht) ha).1.seated
    rw [← hs.numRaises]
    exact (List.getElem?_eq_some_iff.1 hl).1
  have t2 := t2 hst
  have hsz := shows_sizes h ha
  unfold Dealer.betSizes at hsz
  simp only [seat_some ha, hr, hl] at hsz
  obtain ⟨m1, m2⟩ := hm
  have hn1 : ¬ limit.reached d.streetRaises = true := by
    unfold NumRaises.reached
    cases limit with
    | inf => simp
    | fin m =>
      have := m1 m rfl
      simp only [decide_eq_true_eq]
      omega
  have hc : pyMax d.streetCommits - d.streetCommits.getD a 0 = toCall d a := rfl
  have hstk : d.stacks.getD a 0 = stack d a := rfl
  rw [hc, hstk] at hsz
  have hn2 : ¬ (d.streetRaises ≠ 0 ∧ toCall d a < d.largestRaise) := by
    rw [← t1, ← t2]
    rintro ⟨h1, h2⟩
    rcases m2 with m2 | m2
    · rw [m2] at h1; exact h1 rfl
    · omega
  rw [if_neg hn1, if_neg hn2] at hsz
  simp only [Except.ok.injEq, Prod.mk.injEq] at hsz
  obtain ⟨-, h1, h2⟩ := hsz
  rw [← h1, ← h2]
  unfold leastRaise mostRaise
  rw [t1]
  cases r with
  | int n => simp only []; omega
  | pot => simp only []; omega
  | inf => simp only []; omega

/-- **C59**: if no raise is allowed, none is offered: both sizes are 0 (the stack, if that is negative). -/
theorem C59_none (ht : HandTrace S d ms) (hn : NonNegative S d.cfg) (h : Shows d obs) (ha : d.action = some a)
    {limit : NumRaises} (hl : d.cfg.numRaises[d.street]? = some limit)
    (hm : ¬ MayRaise limit (raises d.cfg.bigBlind d.street ms) (toCall d a)) :
    obs.minRaise = min 0 (stack d a) ∧ obs.maxRaise = min 0 (stack d a) := by
  obtain ⟨-, t1, t2⟩ := trace_raises ht hn
  have hs := (live_of_action (trace_inHand ht) ha).1.seated
  have hst : d.street < d.cfg.numStreets := by
    rw [← hs.numRaises]
    exact (List.getElem?_eq_some_iff.1 hl).1
  have t2 := t2 hst
  have hsz := shows_sizes h ha
  unfold Dealer.betSizes at hsz
  rw [List.getElem?_eq_getElem (by rw [hs.raiseSizes]; exact hst)] at hsz
  simp only [seat_some ha, hl] at hsz
  have hc : pyMax d.streetCommits - d.streetCommits.getD a 0 = toCall d a := rfl
  have hstk : d.stacks.getD a 0 = stack d a := rfl
  rw [hc, hstk] at hsz
  by_cases h2 : d.streetRaises ≠ 0 ∧ toCall d a < d.largestRaise
  · rw [if_pos h2] at hsz
    simp only [Except.ok.injEq, Prod.mk.injEq] at hsz
    exact ⟨hsz.2.1.symm, hsz.2.2.symm⟩
  · have h1 : limit.reached d.streetRaises = true := by
      by_contra hcon
      apply hm
      constructor
      · rintro m rfl
        unfold NumRaises.reached at hcon
        simp only [decide_eq_true_eq] at hcon
        omega
      · rw [t1]
        by_contra hx
        rw [not_or] at hx
        exact h2 ⟨by rw [← t2]; exact_mod_cast hx.1, by omega⟩
    rw [if_neg h2, if_pos h1] at hsz
    simp only [Except.ok.injEq, Prod.mk.injEq] at hsz
    exact ⟨hsz.2.1.symm, hsz.2.2.symm⟩

/-! ## C60 -/

/-- **C60**: while the hand goes on, the done flags are those of the players who are not in or have no chips left. -/
theorem C60_running (h : InHand S d) (ha : d.action = some a) (hs : d.step bet = (d', .ok out)) (hr : d'.action ≠ none) :
    out.2.2.length = d.cfg.numPlayers ∧
    ∀ i < d.cfg.numPlayers, (out.2.2.getD i false = true ↔ ¬ isIn d' i ∨ stack d' i = 0) := by
  obtain ⟨b, c, lo, up, x, p, v⟩ := step_view h ha hs
  rcases v.res with ⟨rfl, hd, -⟩ | ⟨rfl, -⟩
  · rw [v.done]
    have hcfg := v.cfg
    unfold Dealer.done at hd ⊢
    split at hd
    · simp at hd
    · rename_i hne
      have hsd := v.live.seated
      rw [if_neg hne]
      refine ⟨by simp [hsd.active, hsd.stacks, hcfg], ?_⟩
      intro i hi
      rw [← hcfg] at hi
      rw [getD_zipWith _ _ _ _ false 0 _ (by rw [hsd.active]; exact hi) (by rw [hsd.stacks]; exact hi)]
      unfold isIn stack
      cases d'.active.getD i false <;> simp
  · exact absurd rfl hr

/-- **C60**: when the hand ends, everybody is done. -/
theorem C60_ended (h : InHand S d) (ha : d.action = some a) (hs : d.step bet = (d', .ok out)) (hr : d'.action = none) :
    out.2.2 = List.replicate d.cfg.numPlayers true := by
  obtain ⟨b, c, lo, up, x, p, v⟩ := step_view h ha hs
  rcases v.res with ⟨rfl, hd, -⟩ | ⟨rfl, hd, -⟩
  · obtain ⟨t, ht, -⟩ := v.live.action
    rw [hr] at ht
    cases ht
  · rw [v.done, ← v.cfg]
    have hl := v.live.seated
    show x.done = List.replicate x.cfg.numPlayers true
    rw [List.eq_replicate_iff]
    refine ⟨?_, ?_⟩
    · unfold Dealer.done
      split
      · simp
      · simp [hl.active, hl.stacks]
    · rw [List.all_eq_true] at hd
      intro y hy
      exact hd y hy

/-- a table of three, no limit: player 2 has raised to 6 (a full raise of 4), player 3 may call 5 or raise by 9 to 20 chips -/
example : ∃ S d ms obs, HandTrace S d ms ∧ Shows d obs ∧ NonNegative S d.cfg ∧ d.action = some 2 ∧
    (d.cfg.raiseSizes[d.street]? = some .inf ∧ d.cfg.numRaises[d.street]? = some .inf ∧
    raises d.cfg.bigBlind d.street ms = (4, 1) ∧ toCall d 2 = 5) ∧ (obs.call, obs.minRaise, obs.maxRaise) = (5, 9, 20) := by
  obtain ⟨S, d, ms, d', out, h1, -, h3, h4, h5, h6, h7, h8⟩ :=
    trace_step (small 3 [1, 2, 0] 20) [.bet (-1), .bet (-1)] [] (.fin 6)
      (P := fun S d ms d' out => NonNegative S d'.cfg ∧ d.action = some 1 ∧ d'.action = some 2 ∧
        (d'.cfg.raiseSizes[d'.street]? = some .inf ∧ d'.cfg.numRaises[d'.street]? = some .inf ∧
        raises d'.cfg.bigBlind d'.street (ms ++ [⟨d.street, 1, min (toCall d 1) (stack d 1), moved d d' 1⟩]) = (4, 1) ∧
        toCall d' 2 = 5) ∧ (out.1.call, out.1.minRaise, out.1.maxRaise) = (5, 9, 20)) (by decide +kernel)
  exact ⟨S, d', _, out.1, h1.step h5 h3, .inr ⟨d, _, out.2.1, out.2.2, h3⟩, h4, h6, h7, h8⟩

/-- a table of three: player 1 goes all-in -/
example : ∃ S d d' out, InHand S d ∧ Reachable d ∧ d.step (.fin 20) = (d', .ok out) ∧ d.action = some 0 ∧ d'.action = some 1 ∧
    out.2.2 = [true, false, false] :=
  step_exists (small 3 [1, 2, 0] 20) [] (.fin 20) (by decide +kernel)

/-- and everybody else folds -/
example : ∃ S d d' out, InHand S d ∧ Reachable d ∧ d.step (.fin (-1)) = (d', .ok out) ∧ d.action = some 2 ∧ d'.action = none ∧
    out.2.2 = [true, true, true] :=
  step_exists (small 3 [1, 2, 0] 20) [.bet 20, .bet (-1)] (.fin (-1)) (by decide +kernel)

end Clubs
