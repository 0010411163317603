import Verif.Lemmas.Calls
import Verif.Props.Orbit

/-!
# C102: when everybody only calls

In a hand in which everybody only calls or checks nobody leaves the hand, nobody pays more than it takes to match the forced bets, and the
hand is over after at most one turn of everybody on every street.
-/

namespace Clubs

open Spec

variable {S : List Int} {d0 e d d' : Dealer} {k a : Nat} {rb rs : Bool} {shuf : Shuffle} {obs : Observation}

theorem callBet_round (d : Dealer) (a : Nat) : pyRound (callBet d a) = .ok (min (toCall d a) (stack d a)) := by
  show Except.ok (roundHalfEven _) = _
  rw [roundHalfEven_int]

theorem callBet_isNeg (h0 : 0 ≤ toCall d a) (hs0 : 0 ≤ stack d a) : (callBet d a).isNeg = false := by
  show decide _ = false
  rw [decide_eq_false_iff_not, not_lt]
  have : 0 ≤ min (toCall d a) (stack d a) := by omega
  exact_mod_cast this

theorem bet_call {c lo up : Int} (ha : d.action = some a) (hb : d.betSizes = .ok (c, lo, up)) : c = min (toCall d a) (stack d a) := by
  obtain ⟨rs, nr, -, -, h1, -⟩ := betSizes_spec hb
  rw [seat_some ha] at h1; exact h1

theorem toCall_nonneg (hd : Seated d) (h : a < d.cfg.numPlayers) : 0 ≤ toCall d a := by
  have : streetBet d a ≤ pyMax d.streetCommits := pyMax_getD (by rw [hd.streetCommits]; exact h)
  unfold toCall
  omega

/-- the hand is over when all have nothing left or the streets are played -/
theorem calling_over (hd0 : Seated d0) (hl : Live S e) (h : Calling S d0 e)
    (hend : e.cfg.numStreets ≤ e.street ∨ ∀ i < e.cfg.numPlayers, isIn e i → stack e i = 0) :
    ∀ i < e.cfg.numPlayers, isIn e i → contribution e i = answered S d0 i := by
  intro i hi hin
  by_cases hst : 1 ≤ e.street
  · exact ((h.later hst).2 i hi hin).2
  · rcases hend with hend | hend
    · have := hl.oneStreet; omega
    · obtain ⟨-, f2⟩ := h.first (by omega)
      rcases (f2 i hi hin).2 with f3 | f3
      · have h1 := hend i hi hin
        have h2 := hl.money i hi
        have h3 := toCall_nonneg hd0 (a := i) (by rw [← h.cfg]; exact hi)
        unfold answered
        omega
      · exact f3

/-- what holds as long as everybody calls -/
structure CalledOk (S : List Int) (d0 d : Dealer) : Prop where
  cfg : d.cfg = d0.cfg
  active : d.active = d0.active
  running : d.action ≠ none → Calling S d0 d
  over : d.action = none → (d.cfg.numStreets ≤ d.street ∨ ∀ i < d.cfg.numPlayers, isIn d i → contribution d i = S.getD i 0) ∧
    ∀ i < d.cfg.numPlayers, isIn d i → contribution d i = answered S d0 i

theorem calledOk_pays (h : CalledOk S d0 d) (hend : d.action = none ∨ 1 ≤ d.street) :
    ∀ i < d.cfg.numPlayers, isIn d i → contribution d i = answered S d0 i := by
  by_cases ha : d.action = none
  · exact (h.over ha).2
  · intro i hi hin
    exact (((h.running ha).later (hend.resolve_left ha)).2 i hi hin).2

/-! ## the pure-Python engine -/

theorem called_ok (hd : Seated d) (hs : IsShuffle shuf) (hr : d.reset rb rs shuf = (d0, .ok obs))
    (hn : NonNegative (startStacks d rs) d0.cfg) (hcov : Covers (startStacks d rs) d0.cfg) (h : Called d0 e k) :
    CalledOk (startStacks d rs) d0 e ∧ ∃ ms, HandTrace (startStacks d rs) e ms ∧ ms.length = k ∧ numRaised ms = 0 := by
  obtain ⟨hl0, hst0, hc2⟩ := dealt_live hd hr
  induction h with
  | start =>
    obtain ⟨a, ha, -⟩ := hl0.action
    exact ⟨⟨rfl, rfl, fun _ => calling_start (dealt_opt hd hr) hst0, fun h => by rw [ha] at h; simp at h⟩,
      [], .dealt hd hs hr, rfl, rfl⟩
  | @call d1 d2 k a out h ha hst ih =>
    obtain ⟨hok, ms, ht, hlen, hno⟩ := ih
    have hin := trace_inHand ht
    obtain ⟨hl, h2⟩ := live_of_action hin ha
    have halt := hl.seated.action a ha
    obtain ⟨-, -, hs0⟩ := covered_of_inHand hin (by rw [hok.cfg]; exact hn) (by rw [hok.cfg]; exact hcov) (by rw [ha]; simp)
    obtain ⟨b, c, lo, up, x, p, v⟩ := step_view hin ha hst
    have hc0 := toCall_nonneg hl.seated halt
    have hbc : b = c := by
      have h1 := v.round
      rw [callBet_round] at h1
      rw [bet_call ha v.sizes]
      simpa using h1.symm
    have hcc := bet_call ha v.sizes
    have hrun := view_running hl.seated v
    have hx := v.eq
    rw [callBet_isNeg hc0 (hs0 a halt), hbc, cleanBet_self (by rw [hcc]; have := hs0 a halt; omega)] at hx
    have key := afterBet_calling hl (h2 hrun) ha (hs0 a halt) hcc hrun (hok.running (by rw [ha]; simp))
    rw [← hx] at key
    have hlx := v.live
    have hcnt : ¬ countTrue x.active ≤ 1 := by rw [key.active]; omega
    refine ⟨⟨by rw [v.same.1, key.cfg], by rw [v.same.2.1, key.active], fun hne => ?_, fun hnone => ?_⟩, _, .step ht ha hst,
      by rw [List.length_append, hlen]; rfl, ?_⟩
    · rcases v.res with ⟨rfl, -⟩ | ⟨rfl, -⟩
      · exact key
      · exact absurd rfl hne
    · rcases v.res with ⟨rfl, -⟩ | ⟨rfl, hd, -⟩
      · obtain ⟨a', ha', -⟩ := hlx.action
        rw [ha'] at hnone; simp at hnone
      · have hd' := (done_all_iff hlx.seated).1 hd
        have hd2 : x.cfg.numStreets ≤ x.street ∨ ∀ i < x.cfg.numPlayers, isIn x i → stack x i = 0 := by
          rcases hd' with h | h | h
          · exact .inl h
          · exact absurd h hcnt
          · exact .inr h
        refine ⟨hd2.imp id fun h i hi hin => ?_, fun i hi hin => calling_over (e := x) hl0.seated hlx key hd2 i hi hin⟩
        have h1 := h i hi hin
        have h2 := hlx.money i hi
        show contribution x i = _
        omega
    · rw [show numRaised (ms ++ [_]) = numRaised ms + _ from List.countP_append, hno]
      have hm := v.moved hl.seated a halt
      have hbet : betOf (callBet d1 a).isNeg c (cleanBet b c lo up) = c := by
        rw [callBet_isNeg hc0 (hs0 a halt), hbc, cleanBet_self (by rw [hcc]; have := hs0 a halt; omega)]
        unfold betOf; rw [if_neg (by simp)]
      rw [hbet, seat_some ha, if_pos rfl] at hm
      rw [Nat.zero_add, List.countP_eq_zero]
      intro m hmem
      rw [List.mem_singleton] at hmem
      subst hmem
      intro hh
      have hh' : min (toCall d1 a) (stack d1 a) < moved d1 d2 a := of_decide_eq_true hh
      omega

/-- **C102**: nobody leaves the hand. -/
theorem C102_stays (hd : Seated d) (hs : IsShuffle shuf) (hr : d.reset rb rs shuf = (d0, .ok obs))
    (hn : NonNegative (startStacks d rs) d0.cfg) (hcov : Covers (startStacks d rs) d0.cfg) (h : Called d0 e k) : e.active = d0.active :=
  (called_ok hd hs hr hn hcov h).1.active

/-- **C102**: from the second street on everybody in the hand has matched the forced bets, or has put in everything, and nobody more. -/
theorem C102_pays (hd : Seated d) (hs : IsShuffle shuf) (hr : d.reset rb rs shuf = (d0, .ok obs))
    (hn : NonNegative (startStacks d rs) d0.cfg) (hcov : Covers (startStacks d rs) d0.cfg) (h : Called d0 e k)
    (hend : e.action = none ∨ 1 ≤ e.street) : ∀ i < e.cfg.numPlayers, isIn e i →
    contribution e i = min ((startStacks d rs).getD i 0) (contribution d0 i + toCall d0 i) :=
  calledOk_pays (called_ok hd hs hr hn hcov h).1 hend

/-- **C102**: at most one turn of everybody on every street. -/
theorem C102_length (hd : Seated d) (hs : IsShuffle shuf) (hr : d.reset rb rs shuf = (d0, .ok obs))
    (hn : NonNegative (startStacks d rs) d0.cfg) (hcov : Covers (startStacks d rs) d0.cfg) (h : Called d0 e k) :
    k ≤ d0.cfg.numPlayers * d0.cfg.numStreets := by
  obtain ⟨hok, ms, ht, rfl, hno⟩ := called_ok hd hs hr hn hcov h
  have := (C101_length ht (by rw [hok.cfg]; exact hn) (by rw [hok.cfg]; exact hcov)).1
  rw [hno, hok.cfg] at this
  simpa using this

/-- **C102**: the hand ends when all streets have been played or nobody has anything left. -/
theorem C102_end (hd : Seated d) (hs : IsShuffle shuf) (hr : d.reset rb rs shuf = (d0, .ok obs))
    (hn : NonNegative (startStacks d rs) d0.cfg) (hcov : Covers (startStacks d rs) d0.cfg) (h : Called d0 e k) (ha : e.action = none) :
    e.cfg.numStreets ≤ e.street ∨ ∀ i < e.cfg.numPlayers, isIn e i → contribution e i = (startStacks d rs).getD i 0 :=
  ((called_ok hd hs hr hn hcov h).1.over ha).1

/-- **C102**: calling on and on leads to the end of the hand, or to a showdown that raises an exception. -/
theorem C102_reaches (hd : Seated d) (hs : IsShuffle shuf) (hr : d.reset rb rs shuf = (d0, .ok obs))
    (hn : NonNegative (startStacks d rs) d0.cfg) (hcov : Covers (startStacks d rs) d0.cfg) :
    ∃ k e, Called d0 e k ∧ (e.action = none ∨ ∃ a x err, e.action = some a ∧ e.step (callBet e a) = (x, .error err) ∧ x.cfg.numStreets ≤ x.street) := by
  by_contra hcon
  push Not at hcon
  have key : ∀ k, ∃ e, Called d0 e k ∧ e.action ≠ none ∧ e.street < e.cfg.numStreets := by
    intro k
    induction k with
    | zero =>
      obtain ⟨hl0, hst0, -⟩ := dealt_live hd hr
      exact ⟨d0, .start, (hcon 0 d0 .start).1, by have := hl0.oneStreet; omega⟩
    | succ k ih =>
      obtain ⟨e, h1, h2, h3⟩ := ih
      obtain ⟨hok, ms, ht, -⟩ := called_ok hd hs hr hn hcov h1
      obtain ⟨a, ha⟩ := Option.ne_none_iff_exists'.1 h2
      have hin := trace_inHand ht
      obtain ⟨hl, -⟩ := live_of_action hin ha
      have step := hcon k e h1
      cases step_cases hin ha (callBet e a) with
      | refused err hst why =>
        exfalso
        rcases why with why | why
        · rw [callBet_round] at why; simp at why
        · obtain ⟨c, lo, hi, hb⟩ := betSizes_ok hl.seated h3
          rw [hb] at why; simp at why
      | stuck b c lo hi err x hb hs' hx hlx hp hst =>
        have := step.2 a x err ha hst
        exact absurd (payouts_error hp) (by omega)
      | ended b c lo hi p x obs' hb hs' hx hlx hp hdn ho hst =>
        exact absurd rfl (hcon (k + 1) _ (.call h1 ha hst)).1
      | goesOn b c lo hi p x obs' hb hs' hx hlx hp hdn ho hst =>
        refine ⟨x, .call h1 ha hst, (hcon (k + 1) _ (.call h1 ha hst)).1, ?_⟩
        by_contra hge
        rw [(done_all_iff hlx.seated).2 (.inl (by omega))] at hdn
        simp at hdn
  obtain ⟨e, h1, -⟩ := key (d0.cfg.numPlayers * d0.cfg.numStreets + 1)
  have := C102_length hd hs hr hn hcov h1
  omega

/-- the player to act calls, `k` times -/
def callOn : Nat → Dealer → Except Err Dealer
  | 0, d => .ok d
  | k + 1, d => match callOn k d with
    | .error e => .error e
    | .ok d => match d.action with
      | none => .error .typeError
      | some a => match d.step (callBet d a) with
        | (d', .ok _) => .ok d'
        | (_, .error e) => .error e

theorem callOn_called : ∀ {k : Nat} {d : Dealer}, callOn k d0 = .ok d → Called d0 d k
  | 0, d, h => by
    simp only [callOn, Except.ok.injEq] at h
    rw [← h]; exact .start
  | k + 1, d, h => by
    rw [callOn] at h
    split at h
    · simp at h
    · next d1 h1 =>
      split at h
      · simp at h
      · next a ha =>
        split at h
        · next d2 out hs =>
          simp only [Except.ok.injEq] at h
          rw [← h]
          exact .call (callOn_called h1) ha hs
        · simp at h

/-- a hand of calls, from a computation -/
theorem calls_exist (a : DealerArgs) (k : Nat) {P : List Int → Dealer → Dealer → Prop} [∀ S d e, Decidable (P S d e)]
    (h : (Dealer.new a id).bind (fun d => match d.reset true false id with
      | (d0, .ok _) => (callOn k d0).bind fun e => .ok (decide (P d.stacks d0 e))
      | (_, .error e) => .error e) = .ok true) :
    ∃ d d0 e obs, Seated d ∧ IsShuffle id ∧ d.reset true false id = (d0, .ok obs) ∧ Called d0 e k ∧ P (startStacks d false) d0 e := by
  cases hn : Dealer.new a id with
  | error e => rw [hn] at h; simp [Except.bind] at h
  | ok d =>
    rw [hn] at h
    simp only [Except.bind] at h
    split at h
    · next d0 obs hr =>
      cases ht : callOn k d0 with
      | error e => rw [ht] at h; simp at h
      | ok e =>
        rw [ht] at h
        simp only [Except.ok.injEq, decide_eq_true_eq] at h
        exact ⟨d, d0, e, obs, new_seated hn, isShuffle_id, hr, callOn_called ht, h⟩
    · simp at h

/-- Three players with 20, 20 and 20 chips, blinds 1 and 2, two streets: after six calls the hand is over and everybody has paid 2. -/
example : ∃ d d0 e obs, Seated d ∧ IsShuffle id ∧ d.reset true false id = (d0, .ok obs) ∧ Called d0 e 6 ∧
    NonNegative (startStacks d false) d0.cfg ∧ Covers (startStacks d false) d0.cfg ∧ e.action = none ∧ d0.cfg.numPlayers = 3 ∧
    d0.cfg.numStreets = 2 ∧ e.street = 2 ∧ d0.potCommits = [0, 1, 2] ∧ e.potCommits = [2, 2, 2] :=
  calls_exist (small 3 [1, 2, 0] 20) 6 (P := fun S d0 e => NonNegative S d0.cfg ∧ Covers S d0.cfg ∧ e.action = none ∧
    d0.cfg.numPlayers = 3 ∧ d0.cfg.numStreets = 2 ∧ e.street = 2 ∧ d0.potCommits = [0, 1, 2] ∧ e.potCommits = [2, 2, 2]) (by decide +kernel)

/-! ## the array engine -/

namespace Numpy

theorem cleanBet_self {c lo up : Int} (hc : 0 ≤ c) : cleanBet c c lo up = c := by
  have h := Clubs.cleanBet_self (lo := lo) (up := up) hc
  unfold Clubs.cleanBet at h
  rw [max_eq_right hc] at h
  exact h

theorem called_ok (hd : Seated (atSeat d)) (hs : IsShuffle shuf) (hr : reset d rb rs shuf = (d0, .ok obs))
    (hn : NonNegative (startStacks d rs) d0.cfg) (hz : SizesOk d0.cfg) (hcov : Covers (startStacks d rs) d0.cfg) (h : ArrayCalled d0 e k) :
    CalledOk (startStacks d rs) (atSeat d0) (atSeat e) ∧ (e.action = none → e.cfg.numStreets ≤ e.street) ∧
      ∃ ms, ArrayTrace (startStacks d rs) e ms ∧ ms.length = k ∧ numRaised ms = 0 := by
  have hr' := reset_ok_atSeat hd hr
  obtain ⟨hl0, hst0, hc2⟩ := dealt_live hd hr'
  induction h with
  | start =>
    obtain ⟨a, ha, -⟩ := hl0.action
    exact ⟨⟨rfl, rfl, fun _ => calling_start (dealt_opt hd hr') hst0, fun h => by rw [ha] at h; simp at h⟩,
      fun h => by rw [show d0.action = some a from ha] at h; simp at h, [], .dealt hd hs hr, rfl, rfl⟩
  | @call d1 d2 k a out h ha hst ih =>
    obtain ⟨hok, -, ms, ht, hlen, hno⟩ := ih
    have hin := trace_inArray ht
    have hcfg1 : d1.cfg = d0.cfg := hok.cfg
    obtain ⟨hl, h2⟩ := live_of_array hin ha
    have htwo : 2 ≤ d1.cfg.numPlayers := hl.seated.two
    have halt := hl.seated.action a ha
    have hs0 := array_covered hin (by rw [hcfg1]; exact hn) (by rw [hcfg1]; exact hz) (by rw [hcfg1]; exact hcov) (by rw [ha]; simp)
    have hc0 : 0 ≤ toCall d1 a := toCall_nonneg (d := atSeat d1) hl.seated halt
    have hsa : 0 ≤ stack d1 a := hs0 a halt
    have common : ∀ b c lo up x, pyRound (callBet d1 a) = .ok b → d1.betSizes = .ok (c, lo, up) →
        x = afterBet d1 (callBet d1 a).isNeg c (cleanBet b c lo up) → Calling (startStacks d rs) (atSeat d0) (atSeat x) ∧
          moved d1 x a = min (toCall d1 a) (stack d1 a) := by
      intro b c lo up x hb hsz hx
      have hcc : c = min (toCall d1 a) (stack d1 a) := bet_call ha hsz
      have hbc : b = c := by
        rw [callBet_round] at hb
        rw [hcc]
        simpa using hb.symm
      have hrun : (atSeat d1).street < (atSeat d1).cfg.numStreets := by
        by_contra hcon
        have h1 : (atSeat d1).betSizes = .ok (c, lo, up) := hsz
        rw [betSizes_error hl.seated (by omega)] at h1
        simp at h1
      rw [callBet_isNeg hc0 hsa, hbc, cleanBet_self (by omega)] at hx
      have key := afterBet_calling (d := atSeat d1) hl (h2 hrun) ha hsa hcc hrun (hok.running (by rw [show (atSeat d1).action = some a from ha]; simp))
      have hcon := (contribution_afterBet hl.seated false c c a halt).1
      have hbet : betOf false c c = c := by unfold betOf; rw [if_neg (by simp)]
      rw [seat_some (d := atSeat d1) ha, if_pos rfl, hbet] at hcon
      rw [← afterBet_atSeat (by omega), ← hx] at key hcon
      refine ⟨key, ?_⟩
      have h3 : contribution x a = contribution d1 a + min (stack d1 a) c := hcon
      unfold moved
      omega
    have hraise : moved d1 d2 a = min (toCall d1 a) (stack d1 a) →
        numRaised (ms ++ [⟨d1.street, a, min (toCall d1 a) (stack d1 a), moved d1 d2 a⟩]) = 0 := by
      intro hm
      rw [show numRaised (ms ++ [_]) = numRaised ms + _ from List.countP_append, hno, Nat.zero_add, List.countP_eq_zero]
      intro m hmem
      rw [List.mem_singleton] at hmem
      subst hmem
      intro hh
      have hh' : min (toCall d1 a) (stack d1 a) < moved d1 d2 a := of_decide_eq_true hh
      omega
    cases step_cases hin ha (callBet d1 a) with
    | refused e h => rw [hst] at h; simp at h
    | stuck b c lo hi e x hb hs' hx hlx hp h => rw [hst] at h; simp at h
    | goesOn b c lo hi p x obs' hb hs' hx hlx hp hdn ho h =>
      rw [hst] at h
      simp only [Prod.mk.injEq] at h
      obtain ⟨rfl, -⟩ := h
      obtain ⟨key, hm⟩ := common b c lo hi d2 hb hs' hx
      obtain ⟨a', ha', -⟩ := hlx.action
      refine ⟨⟨key.cfg, key.active, fun _ => key, fun h => by rw [ha'] at h; simp at h⟩,
        fun h => by rw [show d2.action = some a' from ha'] at h; simp at h, _, .step ht ha hst, by rw [List.length_append, hlen]; rfl, hraise hm⟩
    | ended b c lo hi p x obs' hb hs' hx hlx hp hdn ho h =>
      have h' := h
      rw [hst] at h'
      simp only [Prod.mk.injEq] at h'
      obtain ⟨rfl, -⟩ := h'
      obtain ⟨key, hm⟩ := common b c lo hi x hb hs' hx
      have hend : x.cfg.numStreets ≤ x.street := by
        rcases (done_all_iff x).1 hdn with h1 | h1
        · exact h1
        · have h2 : x.active = d0.active := key.active
          have h3 : 2 ≤ countTrue d0.active := hc2
          rw [h2] at h1
          omega
      refine ⟨⟨key.cfg, key.active, fun h => absurd rfl h, fun _ => ⟨.inl hend, fun i hi hin =>
        calling_over (e := atSeat x) hl0.seated hlx key (.inl hend) i hi hin⟩⟩, fun _ => hend, _, .step ht ha hst, by rw [List.length_append, hlen]; rfl, hraise hm⟩

/-- **C102** for the array engine: nobody leaves the hand -/
theorem C102_stays (hd : Seated (atSeat d)) (hs : IsShuffle shuf) (hr : reset d rb rs shuf = (d0, .ok obs))
    (hn : NonNegative (startStacks d rs) d0.cfg) (hz : SizesOk d0.cfg) (hcov : Covers (startStacks d rs) d0.cfg) (h : ArrayCalled d0 e k) :
    e.active = d0.active := (called_ok hd hs hr hn hz hcov h).1.active

/-- **C102** for the array engine: what everybody pays -/
theorem C102_pays (hd : Seated (atSeat d)) (hs : IsShuffle shuf) (hr : reset d rb rs shuf = (d0, .ok obs))
    (hn : NonNegative (startStacks d rs) d0.cfg) (hz : SizesOk d0.cfg) (hcov : Covers (startStacks d rs) d0.cfg) (h : ArrayCalled d0 e k)
    (hend : e.action = none ∨ 1 ≤ e.street) : ∀ i < e.cfg.numPlayers, isIn e i →
    contribution e i = min ((startStacks d rs).getD i 0) (contribution d0 i + toCall d0 i) :=
  calledOk_pays (d0 := atSeat d0) (d := atSeat e) (called_ok hd hs hr hn hz hcov h).1 hend

/-- **C102** for the array engine: at most one turn of everybody on every street -/
theorem C102_length (hd : Seated (atSeat d)) (hs : IsShuffle shuf) (hr : reset d rb rs shuf = (d0, .ok obs))
    (hn : NonNegative (startStacks d rs) d0.cfg) (hz : SizesOk d0.cfg) (hcov : Covers (startStacks d rs) d0.cfg) (h : ArrayCalled d0 e k) :
    k ≤ d0.cfg.numPlayers * d0.cfg.numStreets := by
  obtain ⟨hok, -, ms, ht, rfl, hno⟩ := called_ok hd hs hr hn hz hcov h
  have hcfg : e.cfg = d0.cfg := hok.cfg
  have := (C101_length ht (by rw [hcfg]; exact hn) (by rw [hcfg]; exact hz) (by rw [hcfg]; exact hcov)).1
  rw [hno, hcfg] at this
  simpa using this

/-- **C102** for the array engine: the hand ends when all streets have been played -/
theorem C102_end (hd : Seated (atSeat d)) (hs : IsShuffle shuf) (hr : reset d rb rs shuf = (d0, .ok obs))
    (hn : NonNegative (startStacks d rs) d0.cfg) (hz : SizesOk d0.cfg) (hcov : Covers (startStacks d rs) d0.cfg) (h : ArrayCalled d0 e k)
    (ha : e.action = none) : e.cfg.numStreets ≤ e.street := (called_ok hd hs hr hn hz hcov h).2.1 ha

/-- **C102** for the array engine: calling on and on leads to the end of the hand, or to a showdown that raises an exception -/
theorem C102_reaches (hd : Seated (atSeat d)) (hs : IsShuffle shuf) (hr : reset d rb rs shuf = (d0, .ok obs))
    (hn : NonNegative (startStacks d rs) d0.cfg) (hz : SizesOk d0.cfg) (hcov : Covers (startStacks d rs) d0.cfg) :
    ∃ k e, ArrayCalled d0 e k ∧ (e.action = none ∨
      ∃ a x err, e.action = some a ∧ step e (callBet e a) = (x, .error err) ∧ x.cfg.numStreets ≤ x.street) := by
  by_contra hcon
  push Not at hcon
  have key : ∀ k, ∃ e, ArrayCalled d0 e k ∧ e.action ≠ none ∧ e.street < e.cfg.numStreets := by
    intro k
    induction k with
    | zero =>
      obtain ⟨hl0, hst0, -⟩ := dealt_live hd (reset_ok_atSeat hd hr)
      exact ⟨d0, .start, (hcon 0 d0 .start).1, by
        have h1 : 1 ≤ d0.cfg.numStreets := hl0.oneStreet
        have h2 : d0.street = 0 := hst0
        omega⟩
    | succ k ih =>
      obtain ⟨e, h1, h2, h3⟩ := ih
      obtain ⟨hok, -, ms, ht, -⟩ := called_ok hd hs hr hn hz hcov h1
      obtain ⟨a, ha⟩ := Option.ne_none_iff_exists'.1 h2
      have hin := trace_inArray ht
      obtain ⟨hl, -⟩ := live_of_array hin ha
      have hstep := hcon k e h1
      cases step_cases hin ha (callBet e a) with
      | refused err hst why =>
        exfalso
        rcases why with why | why
        · rw [callBet_round] at why; simp at why
        · obtain ⟨c, lo, hi, hb⟩ := betSizes_ok hl.seated h3
          rw [show e.betSizes = (atSeat e).betSizes from rfl, hb] at why; simp at why
      | stuck b c lo hi err x hb hs' hx hlx hp hst =>
        have := hstep.2 a x err ha hst
        exact absurd (payouts_error hp).2.1 (by omega)
      | ended b c lo hi p x obs' hb hs' hx hlx hp hdn ho hst =>
        exact absurd rfl (hcon (k + 1) _ (.call h1 ha hst)).1
      | goesOn b c lo hi p x obs' hb hs' hx hlx hp hdn ho hst =>
        refine ⟨x, .call h1 ha hst, (hcon (k + 1) _ (.call h1 ha hst)).1, ?_⟩
        by_contra hge
        rw [(done_all_iff x).2 (.inl (by omega))] at hdn
        simp at hdn
  obtain ⟨e, h1, -⟩ := key (d0.cfg.numPlayers * d0.cfg.numStreets + 1)
  have := C102_length hd hs hr hn hz hcov h1
  omega

/-- the player to act calls, `k` times -/
def callOn : Nat → Dealer → Except Err Dealer
  | 0, d => .ok d
  | k + 1, d => match callOn k d with
    | .error e => .error e
    | .ok d => match d.action with
      | none => .error .typeError
      | some a => match step d (callBet d a) with
        | (d', .ok _) => .ok d'
        | (_, .error e) => .error e

theorem callOn_called : ∀ {k : Nat} {d : Dealer}, callOn k d0 = .ok d → ArrayCalled d0 d k
  | 0, d, h => by
    simp only [callOn, Except.ok.injEq] at h
    rw [← h]; exact .start
  | k + 1, d, h => by
    rw [callOn] at h
    split at h
    · simp at h
    · next d1 h1 =>
      split at h
      · simp at h
      · next a ha =>
        split at h
        · next d2 out hs =>
          simp only [Except.ok.injEq] at h
          rw [← h]
          exact .call (callOn_called h1) ha hs
        · simp at h

/-- a hand of calls, from a computation -/
theorem calls_exist (a : DealerArgs) (k : Nat) {P : List Int → Dealer → Dealer → Prop} [∀ S d e, Decidable (P S d e)]
    (h : (new a id).bind (fun d => match reset d true false id with
      | (d0, .ok _) => (callOn k d0).bind fun e => .ok (decide (P d.stacks d0 e))
      | (_, .error e) => .error e) = .ok true) :
    ∃ d d0 e obs, Seated (atSeat d) ∧ IsShuffle id ∧ reset d true false id = (d0, .ok obs) ∧ ArrayCalled d0 e k ∧ P (startStacks d false) d0 e := by
  cases hn : new a id with
  | error e => rw [hn] at h; simp [Except.bind] at h
  | ok d =>
    rw [hn] at h
    simp only [Except.bind] at h
    split at h
    · next d0 obs hr =>
      cases ht : callOn k d0 with
      | error e => rw [ht] at h; simp at h
      | ok e =>
        rw [ht] at h
        simp only [Except.ok.injEq, decide_eq_true_eq] at h
        exact ⟨d, d0, e, obs, new_atSeat hn, isShuffle_id, hr, callOn_called ht, h⟩
    · simp at h

/-- Three players with 20, 20 and 20 chips, blinds 1 and 2, two streets: after six calls the hand is over and everybody has paid 2. -/
example : ∃ d d0 e obs, Seated (atSeat d) ∧ IsShuffle id ∧ reset d true false id = (d0, .ok obs) ∧ ArrayCalled d0 e 6 ∧
    NonNegative (startStacks d false) d0.cfg ∧ SizesOk d0.cfg ∧ Covers (startStacks d false) d0.cfg ∧ e.action = none ∧ d0.cfg.numPlayers = 3 ∧
    d0.cfg.numStreets = 2 ∧ e.street = 2 ∧ d0.potCommits = [0, 1, 2] ∧ e.potCommits = [2, 2, 2] :=
  calls_exist (small 3 [1, 2, 0] 20) 6 (P := fun S d0 e => NonNegative S d0.cfg ∧ SizesOk d0.cfg ∧ Covers S d0.cfg ∧ e.action = none ∧
    d0.cfg.numPlayers = 3 ∧ d0.cfg.numStreets = 2 ∧ e.street = 2 ∧ d0.potCommits = [0, 1, 2] ∧ e.potCommits = [2, 2, 2]) (by decide +kernel)

end Numpy

end Clubs
