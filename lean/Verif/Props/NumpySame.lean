import Verif.Props.NumpyMoney
import Verif.Props.NumpyShow

/-!
# The two engines play the same game (C68)
-/

namespace Clubs.Numpy

open Spec

variable {S : List Int} {d e : Dealer} {bet : PyNum}

/-- the state and what is returned, without the numbers of the button and the `done` flags -/
def sameOut (n : Nat) (r : Except Err StepOut) : Except Err (Observation × List Int) := r.map fun o => (obsAtSeat n o.1, o.2.1)

/-- a showdown of a clear pot without odd chips pays the same -/
theorem same_payouts {x : Dealer} (hl : Live S (atSeat x)) (hpos : ∀ i < x.cfg.numPlayers, 0 ≤ contribution x i)
    (hq : AtShowdown x → ∀ s, Ranks x s → ClearPot x s ∧ oddAt x s = 0) : payouts x = (atSeat x).payouts := by
  by_cases hc : countTrue x.active = 1 ∨ x.street < x.cfg.numStreets
  · exact payouts_shared hc
  · rw [not_or, Nat.not_lt] at hc
    have hone : 1 ≤ countTrue x.active := hl.one
    have hsh : AtShowdown x := ⟨hc.2, by unfold numIn; unfold countTrue at hc hone; omega⟩
    have hcl : x.potCommits.length = x.cfg.numPlayers := hl.seated.potCommits
    cases hT : x.evalHands x.holeCards x.communityCards with
    | error er =>
      have h1 : payouts x = .error er := by
        unfold payouts evalRound evalHands
        simp only []
        rw [if_neg hc.1, if_pos hc.2, hT]
      have h2 : (atSeat x).payouts = .error er := by
        unfold Dealer.payouts Dealer.evalRound
        simp only []
        rw [if_neg (show ¬ countTrue (atSeat x).active = 1 from hc.1),
          if_pos (show (atSeat x).street ≥ (atSeat x).cfg.numStreets from hc.2),
          show (atSeat x).evalHands (atSeat x).holeCards (atSeat x).communityCards = .error er from hT]
      rw [h1, h2]
    | ok T =>
      have hr : Ranks x _ := ranks_of_evalHands hl.holeLen hT
      obtain ⟨hclear, h0⟩ := hq hsh _ hr
      have hclear' : ClearPot (atSeat x) fun i => T.getD i 0 := ⟨hclear.folds, hclear.ties⟩
      obtain ⟨p, hp, hpj⟩ : ∃ p, payouts x = .ok p ∧ ∀ j < x.cfg.numPlayers, received x p j = dueAt x _ j := by
        cases showdown_paid hl.seated hl.holeLen hl.pot hpos hr hclear.folds hc.1 hc.2 with
        | even p hp _ h => exact ⟨p, hp, h⟩
        | odd p w hp hne => exact absurd h0 hne
      obtain ⟨q, hq, hqj⟩ : ∃ q, (atSeat x).payouts = .ok q ∧
          ∀ j < x.cfg.numPlayers, received x q j = dueAt x (fun i => T.getD i 0) j := by
        cases Clubs.showdown_paid (d := atSeat x) hl.seated hl.holeLen hl.pot hpos hr hclear' hc.1 hc.2 with
        | even p hp _ h => exact ⟨p, hp, h⟩
        | odd p k hp hne => exact absurd h0 hne
        | raises _ hne => exact absurd h0 hne
      rw [hp, hq]
      congr 1
      have l1 := payouts_length hl.seated hp
      have l2 : q.length = x.cfg.numPlayers := Clubs.payouts_length hl.seated hq
      refine ext_getD 0 (by rw [l1, l2]) fun i hi => ?_
      rw [l1] at hi
      have h1 := hpj i hi
      have h2 := hqj i hi
      unfold received at h1 h2
      omega

/-- what follows a bet is the same -/
theorem same_finish {x : Dealer} (hl : Live S (atSeat x)) (hp : payouts x = (atSeat x).payouts)
    (hd : (atSeat x).done.all id = true → (done x).all id = true) :
    atSeat (finish x).1 = (atSeat x).finish.1 ∧
      sameOut x.cfg.numPlayers (finish x).2 = (atSeat x).finish.2.map fun o => (o.1, o.2.1) := by
  have hd' : (done x).all id = (atSeat x).done.all id := by
    by_cases h : (atSeat x).done.all id = true
    · rw [h, hd h]
    · have h1 : ¬ (done x).all id = true := by
        intro h1
        apply h
        rw [Clubs.done_all_iff hl.seated]
        rcases (done_all_iff x).1 h1 with h2 | h2
        · exact .inl h2
        · exact .inr (.inl h2)
      rw [Bool.not_eq_true] at h h1
      rw [h, h1]
  rcases finish_cases x with ⟨er, h1, h2⟩ | ⟨p, h1, h2, h3, h4⟩ | ⟨p, h1, h2, h3, h4⟩ <;>
  rcases Clubs.finish_cases (atSeat x) with ⟨er', g1, g2⟩ | ⟨q, g1, g2, g3, g4⟩ | ⟨q, g1, g2, g3, g4⟩ <;>
  rw [← hp, h1] at g1
  · obtain rfl : er = er' := by simpa using g1
    rw [h2, g2]
    exact ⟨rfl, rfl⟩
  · simp at g1
  · simp at g1
  · simp at g1
  · obtain rfl : p = q := by simpa using g1
    rw [h3, h4, g3, g4]
    refine ⟨rfl, ?_⟩
    rw [← settle_atSeat, observation_atSeat]
    unfold sameOut
    show _ = Except.map _ (Except.map _ (Except.map (obsAtSeat x.cfg.numPlayers) _))
    cases observation (x.settle p) true <;> rfl
  · rw [hd', g2] at h2; simp at h2
  · simp at g1
  · rw [hd', g2] at h2; simp at h2
  · obtain rfl : p = q := by simpa using g1
    rw [h3, h4, g3, g4]
    refine ⟨rfl, ?_⟩
    rw [observation_atSeat]
    unfold sameOut
    cases observation x false <;> rfl

/-- **C68**: `reset` leaves the same table and returns the same observation or exception, up to the number of the button. -/
theorem C68_reset (h : Seated (atSeat d)) (rb rs : Bool) (shuf : Shuffle) :
    atSeat (reset d rb rs shuf).1 = ((atSeat d).reset rb rs shuf).1 ∧
    (reset d rb rs shuf).2.map (obsAtSeat d.cfg.numPlayers) = ((atSeat d).reset rb rs shuf).2 := reset_atSeat h rb rs shuf

/-- the step of the other engine, and the state in it after the bet -/
theorem other_step {a : Nat} {b c lo hi : Int} (ha : d.action = some a) (hb : pyRound bet = .ok b)
    (hs : d.betSizes = .ok (c, lo, hi)) :
    d.step bet = (d.afterBet bet.isNeg c (Clubs.cleanBet b c lo hi)).finish := by
  rcases Clubs.step_some ha bet with ⟨e, h1, -⟩ | ⟨b', e, -, h1, -⟩ | ⟨b', c', lo', hi', h1, h2, h3⟩
  · rw [hb] at h1; simp at h1
  · rw [hs] at h1; simp at h1
  · rw [hb] at h1
    rw [hs] at h2
    simp only [Except.ok.injEq, Prod.mk.injEq] at h1 h2
    obtain ⟨rfl, rfl, rfl⟩ := h2
    rw [h1]
    exact h3

theorem finish_fields (x : Dealer) : x.finish.1.cfg = x.cfg ∧ x.finish.1.street = x.street ∧ x.finish.1.active = x.active ∧
    x.finish.1.potCommits = x.potCommits ∧ x.finish.1.button = x.button ∧ x.finish.1.holeCards = x.holeCards ∧
    x.finish.1.communityCards = x.communityCards := by
  rcases Clubs.finish_cases x with ⟨er, -, h2⟩ | ⟨p, -, -, h3, -⟩ | ⟨p, -, -, h3, -⟩
  · rw [h2]; exact ⟨rfl, rfl, rfl, rfl, rfl, rfl, rfl⟩
  · rw [h3]; exact ⟨rfl, rfl, rfl, rfl, rfl, rfl, rfl⟩
  · rw [h3]; exact ⟨rfl, rfl, rfl, rfl, rfl, rfl, rfl⟩

/-- **C68**: a quiet bet leaves the same table and returns the same observation and payouts, or the same exception, up to the
number of the button. -/
theorem C68_step (h : ArrayInHand S d) (hn : NonNegative S d.cfg) (hz : SizesOk d.cfg) (ha : d.action ≠ none)
    (hq : Quiet (atSeat d) bet) :
    atSeat (step d bet).1 = ((atSeat d).step bet).1 ∧
      sameOut d.cfg.numPlayers (step d bet).2 = ((atSeat d).step bet).2.map fun o => (o.1, o.2.1) := by
  obtain ⟨hq1, hq2⟩ := hq ha
  obtain ⟨a, ha⟩ := Option.ne_none_iff_exists'.1 ha
  have ha' : (atSeat d).action = some a := ha
  rcases step_some ha bet with ⟨er, h1, h2⟩ | ⟨b, er, h0, h1, h2⟩ | ⟨b, c, lo, hi, hb, hs, h2⟩
  · rcases Clubs.step_some ha' bet with ⟨er', g1, g2⟩ | ⟨b', er', g1, -, -⟩ | ⟨b', c', lo', hi', g1, -, -⟩
    · rw [h1] at g1
      obtain rfl : er = er' := by simpa using g1
      rw [h2, g2]; exact ⟨rfl, rfl⟩
    · rw [h1] at g1; simp at g1
    · rw [h1] at g1; simp at g1
  · rcases Clubs.step_some ha' bet with ⟨er', g1, g2⟩ | ⟨b', er', -, g1, g2⟩ | ⟨b', c', lo', hi', -, g1, -⟩
    · rw [h0] at g1; simp at g1
    · rw [show (atSeat d).betSizes = d.betSizes from rfl, h1] at g1
      obtain rfl : er = er' := by simpa using g1
      rw [h2, g2]; exact ⟨rfl, rfl⟩
    · rw [show (atSeat d).betSizes = d.betSizes from rfl, h1] at g1; simp at g1
  · generalize hx : afterBet d bet.isNeg c (cleanBet b c lo hi) = x at h2
    obtain ⟨hsd, he⟩ := afterBet_sound_of h hn hz ha hb hs hx.symm
    have g2 := other_step ha' hb hs
    rw [← he] at g2
    have hl : Live S (atSeat x) := by
      cases step_cases h ha bet with
      | refused er h3 why =>
        exfalso
        rcases why with h4 | h4
        · rw [hb] at h4; simp at h4
        · rw [hs] at h4; simp at h4
      | stuck b' c' lo' hi' er y hb' hs' hy hly =>
        rw [hb] at hb'; rw [hs] at hs'
        simp only [Except.ok.injEq, Prod.mk.injEq] at hb' hs'
        obtain ⟨rfl, rfl, rfl⟩ := hs'
        rw [← hb', hx] at hy
        rw [← hy]; exact hly
      | ended b' c' lo' hi' p y obs hb' hs' hy hly =>
        rw [hb] at hb'; rw [hs] at hs'
        simp only [Except.ok.injEq, Prod.mk.injEq] at hb' hs'
        obtain ⟨rfl, rfl, rfl⟩ := hs'
        rw [← hb', hx] at hy
        rw [← hy]; exact hly
      | goesOn b' c' lo' hi' p y obs hb' hs' hy hly =>
        rw [hb] at hb'; rw [hs] at hs'
        simp only [Except.ok.injEq, Prod.mk.injEq] at hb' hs'
        obtain ⟨rfl, rfl, rfl⟩ := hs'
        rw [← hb', hx] at hy
        rw [← hy]; exact hly
    have hcfg : x.cfg = d.cfg := by rw [← hx, afterBet_cfg]
    rw [g2] at hq1 hq2
    obtain ⟨f1, f2, f3, f4, f5, f6, f7⟩ := finish_fields (atSeat x)
    have hpay : payouts x = (atSeat x).payouts := by
      refine same_payouts hl hsd.nn.contrib fun hsh s hr => ?_
      have hst : SameTable (atSeat x).finish.1 (atSeat x) := ⟨f1.symm, f3.symm, f4.symm, f5.symm, f6.symm, f7.symm⟩
      have hst' : SameTable (atSeat x) (atSeat x).finish.1 := ⟨f1, f3, f4, f5, f6, f7⟩
      obtain ⟨k1, k2⟩ := hq2 ⟨by rw [f1, f2]; exact hsh.1, by unfold numIn; rw [f3]; exact hsh.2⟩ s (hst.ranks hr)
      have k3 := hst'.clear k1
      exact ⟨⟨k3.folds, k3.ties⟩, by rw [← hst'.odd] at k2; exact k2⟩
    have hdone : (atSeat x).done.all id = true → (done x).all id = true := by
      intro hd
      rw [done_all_iff]
      by_contra hcon
      rw [not_or] at hcon
      apply hq1
      have hpok : ∃ p, (atSeat x).payouts = .ok p := by
        cases hp : (atSeat x).payouts with
        | ok p => exact ⟨p, rfl⟩
        | error er =>
          rw [hp] at hpay
          exact absurd (payouts_error hpay).2.1 hcon.1
      obtain ⟨p, hp⟩ := hpok
      rcases Clubs.finish_cases (atSeat x) with ⟨er, k1, -⟩ | ⟨q, -, -, k2, -⟩ | ⟨q, -, k2, -⟩
      · rw [hp] at k1; simp at k1
      · refine ⟨by rw [k2]; rfl, ?_, ?_⟩
        · unfold numIn
          rw [f3]
          have := hcon.2
          unfold countTrue at this
          show 2 ≤ x.active.count true
          omega
        · rw [f1, f2]
          show x.street < x.cfg.numStreets
          omega
      · rw [hd] at k2; simp at k2
    have := same_finish hl hpay hdone
    rw [hcfg] at this
    rw [h2, g2]
    exact this

theorem twins_inv (h : Twins d e) : atSeat d = e ∧ ∃ S, ArrayInHand S d ∧ NonNegative S d.cfg ∧ SizesOk d.cfg := by
  induction h with
  | @first d d' rb rs shuf obs hd hs hr hn hz =>
    have hcfg : d'.cfg = d.cfg := by
      have := reset_cfg d rb rs shuf
      rw [hr] at this; exact this
    refine ⟨?_, _, .dealt hd hs hr, by rw [hcfg]; exact hn, by rw [hcfg]; exact hz⟩
    rw [reset_ok_atSeat hd hr]
  | @step d e bet h hq ih =>
    obtain ⟨rfl, S, h1, h2, h3⟩ := ih
    refine ⟨?_, S, .step bet h1, by rw [step_cfg]; exact h2, by rw [step_cfg]; exact h3⟩
    by_cases ha : d.action = none
    · rw [step_none ha, Clubs.step_none (d := atSeat d) ha]
    · exact (C68_step h1 h2 h3 ha hq).1
  | @next d e d' rb shuf obs h he hs hr ih =>
    obtain ⟨rfl, S, h1, h2, h3⟩ := ih
    obtain ⟨hseat, -⟩ := seated_of_ended h1 he
    have hcfg : d'.cfg = d.cfg := by
      have := reset_cfg d rb false shuf
      rw [hr] at this; exact this
    refine ⟨by rw [reset_ok_atSeat hseat hr], _, .dealt hseat hs hr, ⟨?_, ?_, ?_⟩, by rw [hcfg]; exact h3⟩
    · intro s hs
      change s ∈ d.stacks at hs
      obtain ⟨i, hi, rfl⟩ := (mem_getD 0).1 hs
      exact C69_after_hand h1 h2 h3 he i (by
        rw [← show d.stacks.length = d.cfg.numPlayers from hseat.stacks]; exact hi)
    · rw [hcfg]; exact h2.blinds
    · rw [hcfg]; exact h2.antes

/-- **C68** (part): over any session of quiet bets the two engines are in the same state, up to the number of the button. -/
theorem C68_session_partial (h : Twins d e) : atSeat d = e := (twins_inv h).1

/-- **C68** (part): and every further quiet bet returns the same. -/
theorem C68_session_step_partial (h : Twins d e) (ha : d.action ≠ none) (hq : Quiet e bet) :
    sameOut d.cfg.numPlayers (step d bet).2 = (e.step bet).2.map fun o => (o.1, o.2.1) := by
  obtain ⟨rfl, S, h1, h2, h3⟩ := twins_inv h
  exact (C68_step h1 h2 h3 ha hq).2

/-- **C68**: bets that end a hand early in the other engine do not end it in the array engine. -/
theorem C68_early (h : ArrayInHand S d) (hn : NonNegative S d.cfg) (hz : SizesOk d.cfg) (ha : d.action ≠ none)
    (he : EndedEarly ((atSeat d).step bet).1) : (step d bet).1.action ≠ none := by
  obtain ⟨a, ha⟩ := Option.ne_none_iff_exists'.1 ha
  have ha' : (atSeat d).action = some a := ha
  have key : ∀ b c lo hi x, pyRound bet = .ok b → d.betSizes = .ok (c, lo, hi) →
      x = afterBet d bet.isNeg c (cleanBet b c lo hi) → x.street < x.cfg.numStreets ∧ 2 ≤ countTrue x.active := by
    intro b c lo hi x hb hs hx
    obtain ⟨hsd, hxe⟩ := afterBet_sound_of h hn hz ha hb hs hx
    rw [other_step ha' hb hs, ← hxe] at he
    obtain ⟨f1, f2, f3, -⟩ := finish_fields (atSeat x)
    obtain ⟨-, h2, h3⟩ := he
    unfold numIn at h2
    rw [f3] at h2
    rw [f1, f2] at h3
    exact ⟨h3, h2⟩
  cases step_cases h ha bet with
  | refused er h1 => rw [h1]; show d.action ≠ none; rw [ha]; simp
  | stuck b c lo hi er x hb hs hx hlx hp h1 =>
    rw [h1]
    obtain ⟨a', h2, -⟩ := hlx.action
    show (atSeat x).action ≠ none
    rw [h2]; simp
  | goesOn b c lo hi p x obs hb hs hx hlx hp hd ho h1 =>
    rw [h1]
    obtain ⟨a', h2, -⟩ := hlx.action
    show (atSeat x).action ≠ none
    rw [h2]; simp
  | ended b c lo hi p x obs hb hs hx hlx hp hd ho h1 =>
    exfalso
    have h2 := key b c lo hi x hb hs hx
    have h3 := (done_all_iff x).1 hd
    omega

/-- **C68**: while all streets are not yet dealt and two or more players are in, the `done` flags of the other engine are those of
the array engine and, besides, the players without chips. -/
theorem C68_done {x : Dealer} (hd : Seated (atSeat x)) (hst : x.street < x.cfg.numStreets) (h2 : 2 ≤ numIn x) {i : Nat}
    (hi : i < x.cfg.numPlayers) :
    (atSeat x).done.getD i false = ((done x).getD i false || decide (stack x i = 0)) ∧
      ((done x).getD i false = true ↔ ¬ isIn x i) := by
  have hla : i < x.active.length := by rw [show x.active.length = x.cfg.numPlayers from hd.active]; exact hi
  have hls : i < x.stacks.length := by rw [show x.stacks.length = x.cfg.numPlayers from hd.stacks]; exact hi
  have hn : ¬ (x.street ≥ x.cfg.numStreets ∨ countTrue x.active ≤ 1) := by
    unfold numIn at h2; unfold countTrue; omega
  have e1 : (done x).getD i false = !x.active.getD i false := by
    unfold done
    rw [if_neg hn, getD_map _ _ _ false _ hla]
  have e2 : (atSeat x).done.getD i false = (!x.active.getD i false || decide (stack x i = 0)) := by
    unfold Dealer.done
    rw [if_neg (show ¬ ((atSeat x).street ≥ (atSeat x).cfg.numStreets ∨ countTrue (atSeat x).active ≤ 1) from hn),
      show (atSeat x).active = x.active from rfl, show (atSeat x).stacks = x.stacks from rfl]
    rw [getD_zipWith _ _ _ _ false 0 _ hla hls]
    rfl
  refine ⟨by rw [e1, e2], ?_⟩
  rw [e1]
  unfold isIn
  cases x.active.getD i false <;> simp

/-! ## Sessions to which the theorems apply -/

/-- the strengths of the hands are determined -/
theorem quiet_of {s : Nat → Int} (h0 : ¬ EndedEarly (d.step bet).1) (hr : Ranks (d.step bet).1 s)
    (hc : ClearPot (d.step bet).1 s) (ho : oddAt (d.step bet).1 s = 0) : Quiet d bet := by
  refine fun _ => ⟨h0, fun _ s' hr' => ?_⟩
  generalize (d.step bet).1 = x at *
  have e : ∀ i < x.cfg.numPlayers, inB x i = true → s i = s' i := by
    intro i hi ha
    have h1 := hr i hi ha
    rw [hr' i hi ha] at h1
    simpa using h1.symm
  exact ⟨⟨hc.folds, noDrainedTie_congr e hc.ties⟩, by rw [← ho]; exact (odd_congr e).symm⟩

theorem quiet_of_running (h0 : ¬ EndedEarly (d.step bet).1) (h1 : ¬ AtShowdown (d.step bet).1) : Quiet d bet :=
  fun _ => ⟨h0, fun h => absurd h h1⟩

instance (d : Dealer) : Decidable (EndedEarly d) := by unfold EndedEarly; infer_instance

/-- a step of the same game, after which the hand is over, and the payouts -/
example : ∃ S d, ArrayInHand S d ∧ ArrayReachable d ∧ NonNegative S d.cfg ∧ SizesOk d.cfg ∧ d.action ≠ none ∧ d.button = 4 ∧
    Quiet (atSeat d) (.fin 0) ∧ (step d (.fin 0)).1.action = none ∧
      (match (step d (.fin 0)).2 with | .ok o => o.2.1 | .error _ => []) = [-8, -5, 13] := by
  obtain ⟨S, d, h1, h2, h3, h4, h5, h6, h7, h8, h9, h10, h11, h12⟩ := hand_exists (small 3 [1, 2, 0] 20)
    [.bet (-1), .bet (-1), .deal, .bet (-1), .bet (-1), .deal, .bet (-1), .bet (-1), .deal, .bet (-1), .bet (-1), .deal,
      .bet 5, .bet 4, .bet 6, .bet (-1), .bet 3, .bet 0]
    (P := fun S d => NonNegative S d.cfg ∧ SizesOk d.cfg ∧ d.action ≠ none ∧ d.button = 4 ∧
      ¬ EndedEarly ((atSeat d).step (.fin 0)).1 ∧ Ranks ((atSeat d).step (.fin 0)).1 (strength [5, 4, 3]) ∧
      ClearPot ((atSeat d).step (.fin 0)).1 (strength [5, 4, 3]) ∧
      oddAt ((atSeat d).step (.fin 0)).1 (strength [5, 4, 3]) = 0 ∧ (step d (.fin 0)).1.action = none ∧
      (match (step d (.fin 0)).2 with | .ok o => o.2.1 | .error _ => []) = [-8, -5, 13]) (by decide +kernel)
  exact ⟨S, d, h1, h2, h3, h4, h5, h6, quiet_of h7 h8 h9 h10, h11, h12⟩

/-- the same commands at both tables, as long as no hand comes to a showdown or ends early -/
def twinCmds : Dealer × Dealer → List Cmd → Except Err (Dealer × Dealer)
  | r, [] => .ok r
  | (d, e), .bet b :: cs =>
    if ¬ EndedEarly (e.step (.fin b)).1 ∧ ¬ AtShowdown (e.step (.fin b)).1 then
      twinCmds ((step d (.fin b)).1, (e.step (.fin b)).1) cs
    else .error .valueError
  | (d, e), .deal :: cs =>
    match reset d false false id with
    | (d', .ok _) => if d.action = none then twinCmds (d', (e.reset false false id).1) cs else .error .valueError
    | (_, .error er) => .error er

theorem twinCmds_ok {r r' : Dealer × Dealer} {cs : List Cmd} (h : Twins r.1 r.2) (hf : twinCmds r cs = .ok r') :
    Twins r'.1 r'.2 := by
  induction cs generalizing r with
  | nil =>
    simp only [twinCmds, Except.ok.injEq] at hf
    rwa [← hf]
  | cons c cs ih =>
    obtain ⟨d, e⟩ := r
    cases c with
    | bet b =>
      rw [twinCmds] at hf
      split at hf
      · next hq => exact ih (.step _ h (quiet_of_running hq.1 hq.2)) hf
      · simp at hf
    | deal =>
      rw [twinCmds] at hf
      split at hf
      · next d' obs hr =>
        split at hf
        · next ha => exact ih (.next h ha isShuffle_id hr) hf
        · simp at hf
      · simp at hf

/-- the tables after these commands, from a new table on -/
def twinTable (a : DealerArgs) (cs : List Cmd) : Except Err (Dealer × Dealer) :=
  (new a id).bind fun d =>
    match reset d true false id with
    | (d', .ok _) =>
      if NonNegative (startStacks d false) d.cfg ∧ SizesOk d.cfg then twinCmds (d', ((atSeat d).reset true false id).1) cs
      else .error .valueError
    | (_, .error er) => .error er

theorem twins_exists (a : DealerArgs) (cs : List Cmd) {P : Dealer → Dealer → Prop} [∀ d e, Decidable (P d e)]
    (h : (twinTable a cs).bind (fun r => .ok (decide (P r.1 r.2))) = .ok true) : ∃ d e, Twins d e ∧ P d e := by
  cases ht : twinTable a cs with
  | error er => rw [ht] at h; simp [Except.bind] at h
  | ok r =>
    rw [ht] at h
    simp only [Except.bind, Except.ok.injEq, decide_eq_true_eq] at h
    unfold twinTable at ht
    cases hn : new a id with
    | error er => rw [hn] at ht; simp [Except.bind] at ht
    | ok d =>
      rw [hn] at ht
      simp only [Except.bind] at ht
      split at ht
      · next d' obs hr =>
        split at ht
        · next hc =>
          exact ⟨_, _, twinCmds_ok (r := (d', ((atSeat d).reset true false id).1))
            (.first (new_atSeat hn) isShuffle_id hr hc.1 hc.2) ht, h⟩
        · simp at ht
      · simp at ht

/-- the fourth hand of a session, after a raise: the number of the button is 3 in one engine and 0 in the other -/
example : ∃ d e, Twins d e ∧ d.action ≠ none ∧ Quiet e (.fin (-1)) ∧ d.button = 3 ∧ e.button = 0 ∧ d.stacks = [12, 22, 18] ∧
    d.pot = 8 := by
  obtain ⟨d, e, h1, h2, h3, h4, h5⟩ := twins_exists (small 3 [1, 2, 0] 20)
    [.bet (-1), .bet (-1), .deal, .bet 6, .bet (-1), .bet (-1), .deal, .bet (-1), .bet (-1), .deal, .bet 5]
    (P := fun d e => d.action ≠ none ∧ ¬ EndedEarly (e.step (.fin (-1))).1 ∧ ¬ AtShowdown (e.step (.fin (-1))).1 ∧
      d.button = 3 ∧ e.button = 0 ∧ d.stacks = [12, 22, 18] ∧ d.pot = 8) (by decide +kernel)
  exact ⟨d, e, h1, h2, quiet_of_running h3 h4, h5⟩

/-- **C68 is false without the restriction to quiet bets** (early ends): after the same bets the other engine has ended the hand,
the array engine plays on. -/
theorem C68_false_early : ∃ S d, ArrayInHand S d ∧ ArrayReachable d ∧ NonNegative S d.cfg ∧ SizesOk d.cfg ∧ d.button = 0 ∧
    d.action ≠ none ∧ EndedEarly ((atSeat d).step (.fin (-1))).1 ∧ (step d (.fin (-1))).1.action = some 2 ∧
    (step d (.fin (-1))).1.pot = 5 :=
  hand_exists (small 3 [1, 2, 0] 2) [.bet 2] (by decide +kernel)

/-- … (a winner found to be without chips): in the hand of `C25_false` the engines pay differently. -/
theorem C68_false_ties : ∃ S d, ArrayInHand S d ∧ ArrayReachable d ∧ NonNegative S d.cfg ∧ SizesOk d.cfg ∧ d.action ≠ none ∧
    (match (step d (.fin 6)).2 with | .ok o => o.2.1 | .error _ => []) = [0, 0, 0] ∧
    (match ((atSeat d).step (.fin 6)).2 with | .ok o => o.2.1 | .error _ => []) = [0, 3, -3] :=
  hand_exists (ties 3 [1, 2, 0] 10) [.bet 2, .bet 1, .bet 4, .bet (-1), .bet (-1), .deal, .bet 8, .bet 13] (by decide +kernel)

/-- … (odd chips): in the hand of `C37_false` the other engine raises an exception. -/
theorem C68_false_odd : ∃ S d, ArrayInHand S d ∧ ArrayReachable d ∧ NonNegative S d.cfg ∧ SizesOk d.cfg ∧ d.action ≠ none ∧
    (match (step d (.fin 0)).2 with | .ok o => o.2.1 | .error _ => []) = [1, 0, -1] ∧
    (match ((atSeat d).step (.fin 0)).2 with | .ok _ => false | .error e => decide (e = .indexError)) = true :=
  hand_exists (ties 3 [1, 2, 0] 10) [.bet (-1), .bet (-1), .deal, .bet 2, .bet (-1), .bet 0, .bet 0] (by decide +kernel)

end Clubs.Numpy
