import Verif.Lemmas.Orbit
import Verif.Lemmas.Trace
import Verif.Lemmas.NumpyPlay
import Verif.Props.Account

/-!
# C101: nobody is asked twice without a reason

On a street every player is asked once, and again only after somebody else has raised. So a street takes at most one turn of everybody and
one more of everybody else for every raise, and the length of a hand is bounded by the chips on the table.
-/

namespace Clubs

open Spec

variable {S : List Int} {d d' : Dealer} {ms p q r : List Move} {m m' : Move} {a : Nat}

/-! ## helpers -/

theorem list_sum_le : ∀ {l l' : List Int}, l.length = l'.length → (∀ i < l.length, l.getD i 0 ≤ l'.getD i 0) → l.sum ≤ l'.sum
  | [], [], _, _ => le_refl _
  | x :: l, y :: l', hlen, h => by
    have h1 := list_sum_le (l := l) (l' := l') (by simpa using hlen) fun i hi => by
      have := h (i + 1) (by simpa using hi)
      simpa using this
    have h2 := h 0 (by simp)
    simp only [List.getD_cons_zero] at h2
    rw [List.sum_cons, List.sum_cons]
    omega

theorem live_sum (hl : Live S d) (h : ∀ i < d.cfg.numPlayers, 0 ≤ stack d i) : d.pot ≤ S.sum := by
  rw [hl.pot]
  apply list_sum_le
  · rw [hl.seated.potCommits, hl.startLen]
  · intro i hi
    rw [hl.seated.potCommits] at hi
    have h1 := hl.money i hi
    have h2 := h i hi
    unfold contribution at h1
    omega

theorem afterBet_stacks {fold : Bool} {c b : Int} (hd : Seated d) (h : ∀ i < d.cfg.numPlayers, 0 ≤ stack d i) :
    ∀ i < d.cfg.numPlayers, 0 ≤ stack (d.afterBet fold c b) i := by
  intro i hi
  rw [(contribution_afterBet hd fold c b i hi).2]
  have := h i hi
  split
  · next h4 => rw [h4]; have := min_le_left (stack d i) (betOf fold c b); omega
  · omega

/-- what is left of `Orbit` when the hand is over -/
structure Ledger (S : List Int) (d : Dealer) (ms : List Move) : Prop where
  each : ∀ st, movesOn st ms ≤ d.cfg.numPlayers + (d.cfg.numPlayers - 1) * raisesOn st ms
  total : ms.length ≤ d.cfg.numPlayers * d.cfg.numStreets + (d.cfg.numPlayers - 1) * numRaised ms
  chips : (numRaised ms : Int) ≤ S.sum
  two : 2 ≤ d.cfg.numPlayers
  history : d.history.length = ms.length

theorem orbit_ledger (hl : Live S d) (h : Orbit d ms) (hs : ∀ i < d.cfg.numPlayers, 0 ≤ stack d i) (hh : d.history.length = ms.length) :
    Ledger S d ms := ⟨h.each, h.total, h.chips.trans (live_sum hl hs), hl.seated.two, hh⟩

theorem afterBet_history (d : Dealer) (fold : Bool) (c b : Int) : (d.afterBet fold c b).history.length = d.history.length + 1 := by
  rcases afterBet_cases d fold c b with ⟨-, h2⟩ | ⟨-, h2⟩
  · rw [h2]
    exact List.length_append
  · rw [h2, (nextStreet_fields _).2.2.2.2.2.2.2.2.2.2.1]
    exact List.length_append

theorem ledger_bound (h : Ledger S d ms) :
    (d.history.length : Int) ≤ d.cfg.numPlayers * d.cfg.numStreets + (d.cfg.numPlayers - 1) * S.sum := by
  have htwo : 1 ≤ d.cfg.numPlayers := by have := h.two; omega
  have h3 : ((d.cfg.numPlayers - 1 : Nat) : Int) * numRaised ms ≤ ((d.cfg.numPlayers - 1 : Nat) : Int) * S.sum :=
    mul_le_mul_of_nonneg_left h.chips (by omega)
  have h4 : ((ms.length : Nat) : Int) ≤ ((d.cfg.numPlayers * d.cfg.numStreets + (d.cfg.numPlayers - 1) * numRaised ms : Nat) : Int) := by
    exact_mod_cast h.total
  rw [h.history]
  push_cast [Nat.cast_sub htwo] at h3 h4
  linarith

/-- the player to act has acted before on this street: somebody else has raised since -/
theorem orbit_turn (h : Orbit d ms) (ha : d.action = some a) (hm : ms = p ++ m :: q) (hst : m.street = d.street) (hs : m.seat = a) :
    ∃ x ∈ q, x.street = d.street ∧ IsRaise x ∧ x.seat ≠ a := by
  induction hl : q.length using Nat.strong_induction_on generalizing p m q with
  | _ l ih =>
    obtain ⟨s, k, hr, hpass, -⟩ := h.ring
    by_cases hno : ∀ x ∈ q, x.street = d.street → ¬ IsRaise x
    · exfalso
      obtain ⟨j, j1, j2⟩ := hpass p m q hm hst hno
      have h1 := hr.seat
      rw [seat_some ha, ← hs, j2] at h1
      have h4 : Nat.ModEq d.cfg.numPlayers (s + j) (s + k) := h1
      have h5 : j % d.cfg.numPlayers = k % d.cfg.numPlayers := Nat.ModEq.add_left_cancel' s h4
      have h6 := hr.lt
      rw [Nat.mod_eq_of_lt (by omega), Nat.mod_eq_of_lt h6] at h5
      omega
    · push Not at hno
      obtain ⟨x, hx, x1, x2⟩ := hno
      by_cases hxa : x.seat = a
      · obtain ⟨q1, q2, rfl⟩ := List.append_of_mem hx
        have hm2 : ms = (p ++ m :: q1) ++ x :: q2 := by rw [hm]; simp
        obtain ⟨y, hy, hy2⟩ := ih q2.length (by rw [← hl]; simp; omega) hm2 x1 hxa rfl
        exact ⟨y, by simp [hy], hy2⟩
      · exact ⟨x, hx, x1, x2, hxa⟩

/-- the player to act has no chips, has not acted on this street, or has something to call -/
theorem orbit_asked (hl : Live S d) (h : Orbit d ms) (ha : d.action = some a) :
    stack d a = 0 ∨ (∀ m ∈ ms, m.street = d.street → m.seat ≠ a) ∨ 0 < toCall d a := by
  by_cases h0 : stack d a = 0
  · exact .inl h0
  right
  by_cases hm : ∀ m ∈ ms, m.street = d.street → m.seat ≠ a
  · exact .inl hm
  right
  push Not at hm
  obtain ⟨m, m1, m2, m3⟩ := hm
  obtain ⟨s, k, hr, -⟩ := h.ring
  obtain ⟨a0, ha0, hin⟩ := hl.action
  obtain rfl : a = a0 := by rw [ha] at ha0; simpa using ha0
  have h1 : (s + k) % d.cfg.numPlayers = a := by rw [← hr.seat, seat_some ha]
  have h2 := hr.waiting k (le_refl _) hr.lt
  rw [h1] at h2
  rcases h2 hin h0 with h3 | h3
  · exact absurd (by rw [← m3]; exact h.opts m m1 m2 (by rw [m3]; exact hin)) h3
  · unfold toCall; omega

/-! ## the pure-Python engine -/

theorem trace_orbit (h : HandTrace S d ms) (hn : NonNegative S d.cfg) (hcov : Covers S d.cfg) :
    (d.action ≠ none → Orbit d ms) ∧ Ledger S d ms := by
  induction h with
  | @dealt d0 d' rb rs shuf obs hd hs hr =>
    have hl := (dealt_live hd hr).1
    have hp : 0 ≤ d'.pot := nn_pot hl (dealt_nn hd hr hn)
    have ho := dealt_orbit hd hr hp
    exact ⟨fun _ => ho, orbit_ledger hl ho (dealt_covered hd hr hn hcov) (by rw [(C41_clean hd hr).2.2.2.1]; rfl)⟩
  | @step S d d' ms a bet out ht ha hs ih =>
    have hin := trace_inHand ht
    obtain ⟨b, c, lo, up, x, pp, v⟩ := step_view hin ha hs
    rw [v.cfg] at hn hcov
    obtain ⟨hl, hc2⟩ := live_of_action hin ha
    have hst := view_running hl.seated v
    obtain ⟨nn, -, hs0⟩ := covered_of_inHand hin hn hcov (by rw [ha]; simp)
    obtain ⟨ho, hled0⟩ := ih hn hcov
    replace ho := ho (by rw [ha]; simp)
    have key := afterBet_orbit (fold := bet.isNeg) (b := b) hl (hc2 hst) (nn_pot hl nn) (optInv_of_inHand hin) ha (hs0 _ (hl.seated.action a ha)) v.sizes hst ho
    have hlx := v.live
    have hsx := afterBet_stacks (fold := bet.isNeg) (c := c) (b := cleanBet b c lo up) hl.seated hs0
    rw [← v.eq] at key hsx
    have hmv : moved d d' a = moved d x a := by
      unfold moved contribution
      rw [v.same.2.2.2.2.2.2.2.2.1]
    have hled := orbit_ledger hlx key (by rw [v.eq, afterBet_cfg, ← v.eq]; exact hsx)
      (by rw [List.length_append, List.length_singleton, ← hled0.history, v.eq, afterBet_history])
    rw [hmv]
    rcases v.res with ⟨rfl, -⟩ | ⟨rfl, -⟩
    · exact ⟨fun _ => key, hled⟩
    · exact ⟨fun h => absurd rfl h, ⟨hled.each, hled.total, hled.chips, hled.two, hled.history⟩⟩

theorem trace_prefix (h : HandTrace S d ms) (hm : ms = p ++ m :: q) :
    ∃ d0, HandTrace S d0 p ∧ d0.action = some m.seat ∧ d0.street = m.street ∧ d0.cfg = d.cfg := by
  induction h generalizing q with
  | dealt hd hs hr => simp at hm
  | @step S d d' ms a bet out ht ha hs ih =>
    have hcfg : d'.cfg = d.cfg := by have := step_cfg d bet; rwa [hs] at this
    rcases append_split hm with ⟨-, rfl, rfl⟩ | ⟨q', -, hq⟩
    · exact ⟨d, ht, ha, rfl, hcfg.symm⟩
    · obtain ⟨d0, h1, h2, h3, h4⟩ := ih hq
      exact ⟨d0, h1, h2, h3, by rw [h4, hcfg]⟩

/-- **C101**: the player to act has no chips, has not acted on this street yet, or has something to call. -/
theorem C101_asked (h : HandTrace S d ms) (hn : NonNegative S d.cfg) (hcov : Covers S d.cfg) (ha : d.action = some a) :
    stack d a = 0 ∨ (∀ m ∈ ms, m.street = d.street → m.seat ≠ a) ∨ 0 < toCall d a :=
  orbit_asked (live_of_action (trace_inHand h) ha).1 ((trace_orbit h hn hcov).1 (by rw [ha]; simp)) ha

/-- **C101**: if the player to act has acted before on this street, somebody else has raised since. -/
theorem C101_turn (h : HandTrace S d ms) (hn : NonNegative S d.cfg) (hcov : Covers S d.cfg) (ha : d.action = some a)
    (hm : ms = p ++ m :: q) (hst : m.street = d.street) (hs : m.seat = a) : ∃ x ∈ q, x.street = d.street ∧ IsRaise x ∧ x.seat ≠ a :=
  orbit_turn ((trace_orbit h hn hcov).1 (by rw [ha]; simp)) ha hm hst hs

/-- **C101**: between two actions of a player on a street somebody else has raised. -/
theorem C101_between (h : HandTrace S d ms) (hn : NonNegative S d.cfg) (hcov : Covers S d.cfg) (hm : ms = p ++ m :: (q ++ m' :: r))
    (hst : m.street = m'.street) (hs : m.seat = m'.seat) : ∃ x ∈ q, x.street = m.street ∧ IsRaise x ∧ x.seat ≠ m.seat := by
  obtain ⟨d0, h1, h2, h3, h4⟩ := trace_prefix (p := p ++ m :: q) (m := m') (q := r) h (by rw [hm]; simp)
  rw [← h4] at hn hcov
  have := C101_turn h1 hn hcov h2 rfl (by rw [hst, h3]) hs
  rw [h3, ← hst, ← hs] at this
  exact this

/-- **C101**: a street takes at most one turn of everybody and one more of everybody else for every raise. -/
theorem C101_street (h : HandTrace S d ms) (hn : NonNegative S d.cfg) (hcov : Covers S d.cfg) (street : Nat) :
    movesOn street ms ≤ d.cfg.numPlayers + (d.cfg.numPlayers - 1) * raisesOn street ms := (trace_orbit h hn hcov).2.each street

/-- **C101**: so does a hand, for every one of its streets; and no more raises are possible than there are chips. -/
theorem C101_length (h : HandTrace S d ms) (hn : NonNegative S d.cfg) (hcov : Covers S d.cfg) :
    ms.length ≤ d.cfg.numPlayers * d.cfg.numStreets + (d.cfg.numPlayers - 1) * numRaised ms ∧ (numRaised ms : Int) ≤ S.sum :=
  ⟨(trace_orbit h hn hcov).2.total, (trace_orbit h hn hcov).2.chips⟩

/-- **C101**: no hand has more actions than the number of players times the number of streets, and the chips of all players times the
number of the others. -/
theorem C101_bound (h : HandTrace S d ms) (hn : NonNegative S d.cfg) (hcov : Covers S d.cfg) :
    (d.history.length : Int) ≤ d.cfg.numPlayers * d.cfg.numStreets + (d.cfg.numPlayers - 1) * S.sum :=
  ledger_bound (trace_orbit h hn hcov).2

/-- Two calls, a raise by the last player, two calls: the street has taken all the turns it can take, and the first player acted twice. -/
example : ∃ d ms, HandTrace [20, 20, 20] d ms ∧ NonNegative [20, 20, 20] d.cfg ∧ Covers [20, 20, 20] d.cfg ∧ d.street = 1 ∧
    ms.map (fun m => (m.street, m.seat, m.call, m.chips)) = [(0, 0, 2, 2), (0, 1, 1, 1), (0, 2, 0, 4), (0, 0, 4, 4), (0, 1, 4, 4)] ∧
    raisesOn 0 ms = 1 ∧ movesOn 0 ms = d.cfg.numPlayers + (d.cfg.numPlayers - 1) * raisesOn 0 ms := by
  obtain ⟨d, ms, h1, h3⟩ := trace_exists (a := small 3 [1, 2, 0] 20) (bs := [2, 1, 4, 4, 4])
    (f := fun d ms => decide (NonNegative [20, 20, 20] d.cfg ∧ Covers [20, 20, 20] d.cfg ∧ d.street = 1 ∧
      ms.map (fun m => (m.street, m.seat, m.call, m.chips)) = [(0, 0, 2, 2), (0, 1, 1, 1), (0, 2, 0, 4), (0, 0, 4, 4), (0, 1, 4, 4)] ∧
      raisesOn 0 ms = 1 ∧ movesOn 0 ms = d.cfg.numPlayers + (d.cfg.numPlayers - 1) * raisesOn 0 ms)) (by decide +kernel)
  exact ⟨d, ms, h1, by simpa only [decide_eq_true_eq] using h3⟩

/-! ## the array engine -/

namespace Numpy

theorem trace_inArray (h : ArrayTrace S d ms) : ArrayInHand S d := by
  induction h with
  | dealt hd hs h => exact .dealt hd hs h
  | @step S d d' ms a bet out h ha hs ih =>
    have := ArrayInHand.step bet ih
    rw [hs] at this
    exact this

theorem trace_orbit (h : ArrayTrace S d ms) (hn : NonNegative S d.cfg) (hz : SizesOk d.cfg) (hcov : Covers S d.cfg) :
    (d.action ≠ none → Orbit (atSeat d) ms) ∧ Ledger S d ms := by
  induction h with
  | @dealt d0 d' rb rs shuf obs hd hs hr =>
    have hr' := reset_ok_atSeat hd hr
    have hl := (dealt_live hd hr').1
    have ho := dealt_orbit hd hr' (nn_pot hl (dealt_nn hd hr' hn))
    have hled := orbit_ledger hl ho (dealt_covered hd hr' hn hcov) (by rw [(C41_clean hd hr').2.2.2.1]; rfl)
    exact ⟨fun _ => ho, ⟨hled.each, hled.total, hled.chips, hled.two, hled.history⟩⟩
  | @step S d d' ms a bet out ht ha hs ih =>
    have hin := trace_inArray ht
    have hcfg : d'.cfg = d.cfg := by have := step_cfg d bet; rwa [hs] at this
    rw [hcfg] at hn hz hcov
    obtain ⟨hso, hl, hc2⟩ := sound_of_action hin hn hz ha
    have hs0 := array_covered hin hn hz hcov (by rw [ha]; simp)
    obtain ⟨ho, hled0⟩ := ih hn hz hcov
    replace ho := ho (by rw [ha]; simp)
    have hp : 0 ≤ (atSeat d).pot := nn_pot hl hso.nn
    have htwo : 2 ≤ d.cfg.numPlayers := hl.seated.two
    rcases step_some ha bet with ⟨e, -, he⟩ | ⟨b, e, -, -, he⟩ | ⟨b, c, lo, up, hb, hsz, he⟩
    · rw [hs] at he; simp at he
    · rw [hs] at he; simp at he
    · have hst : (atSeat d).street < (atSeat d).cfg.numStreets := by
        by_contra hcon
        have h1 : (atSeat d).betSizes = .ok (c, lo, up) := hsz
        rw [betSizes_error hl.seated (by omega)] at h1
        simp at h1
      have key := afterBet_orbit (d := atSeat d) (fold := bet.isNeg) (b := b) hl (hc2 hst) hp hso.opt ha (hs0 _ (hl.seated.action a ha)) hsz hst ho
      have hlx := afterBet_live hl hst (hc2 hst) bet.isNeg c (Clubs.cleanBet b c lo up)
      have hsx := afterBet_stacks (d := atSeat d) (fold := bet.isNeg) (c := c) (b := Clubs.cleanBet b c lo up) hl.seated hs0
      have hhx := Clubs.afterBet_history (atSeat d) bet.isNeg c (Clubs.cleanBet b c lo up)
      have hled := orbit_ledger hlx key (by rw [Clubs.afterBet_cfg]; exact hsx)
        (by rw [List.length_append, List.length_singleton, ← hled0.history, hhx]; rfl)
      rw [← afterBet_atSeat (by omega)] at key hled
      rw [afterBet_congr (clean_same hl.seated hp hz hsz (isNeg_of_round hb))] at he
      generalize afterBet d bet.isNeg c (Clubs.cleanBet b c lo up) = e at *
      rw [hs] at he
      rcases finish_cases e with ⟨e', -, hx⟩ | ⟨p, -, -, hx, -⟩ | ⟨p, -, -, hx, -⟩
      · rw [hx] at he; simp at he
      · have hd' : d' = e.settle p := by rw [← hx, ← he]
        subst hd'
        exact ⟨fun h => absurd rfl h, ⟨hled.each, hled.total, hled.chips, hled.two, hled.history⟩⟩
      · have hd' : d' = e := by rw [← hx, ← he]
        subst hd'
        exact ⟨fun _ => key, ⟨hled.each, hled.total, hled.chips, hled.two, hled.history⟩⟩

theorem trace_prefix (h : ArrayTrace S d ms) (hm : ms = p ++ m :: q) :
    ∃ d0, ArrayTrace S d0 p ∧ d0.action = some m.seat ∧ d0.street = m.street ∧ d0.cfg = d.cfg := by
  induction h generalizing q with
  | dealt hd hs hr => simp at hm
  | @step S d d' ms a bet out ht ha hs ih =>
    have hcfg : d'.cfg = d.cfg := by have := step_cfg d bet; rwa [hs] at this
    rcases append_split hm with ⟨-, rfl, rfl⟩ | ⟨q', -, hq⟩
    · exact ⟨d, ht, ha, rfl, hcfg.symm⟩
    · obtain ⟨d0, h1, h2, h3, h4⟩ := ih hq
      exact ⟨d0, h1, h2, h3, by rw [h4, hcfg]⟩

/-- **C101** for the array engine -/
theorem C101_asked (h : ArrayTrace S d ms) (hn : NonNegative S d.cfg) (hz : SizesOk d.cfg) (hcov : Covers S d.cfg) (ha : d.action = some a) :
    stack d a = 0 ∨ (∀ m ∈ ms, m.street = d.street → m.seat ≠ a) ∨ 0 < toCall d a :=
  orbit_asked (d := atSeat d) (live_of_array (trace_inArray h) ha).1 ((trace_orbit h hn hz hcov).1 (by rw [ha]; simp)) ha

theorem C101_turn (h : ArrayTrace S d ms) (hn : NonNegative S d.cfg) (hz : SizesOk d.cfg) (hcov : Covers S d.cfg) (ha : d.action = some a)
    (hm : ms = p ++ m :: q) (hst : m.street = d.street) (hs : m.seat = a) : ∃ x ∈ q, x.street = d.street ∧ IsRaise x ∧ x.seat ≠ a :=
  orbit_turn (d := atSeat d) ((trace_orbit h hn hz hcov).1 (by rw [ha]; simp)) ha hm hst hs

theorem C101_between (h : ArrayTrace S d ms) (hn : NonNegative S d.cfg) (hz : SizesOk d.cfg) (hcov : Covers S d.cfg)
    (hm : ms = p ++ m :: (q ++ m' :: r)) (hst : m.street = m'.street) (hs : m.seat = m'.seat) :
    ∃ x ∈ q, x.street = m.street ∧ IsRaise x ∧ x.seat ≠ m.seat := by
  obtain ⟨d0, h1, h2, h3, h4⟩ := trace_prefix (p := p ++ m :: q) (m := m') (q := r) h (by rw [hm]; simp)
  rw [← h4] at hn hz hcov
  have := C101_turn h1 hn hz hcov h2 rfl (by rw [hst, h3]) hs
  rw [h3, ← hst, ← hs] at this
  exact this

theorem C101_street (h : ArrayTrace S d ms) (hn : NonNegative S d.cfg) (hz : SizesOk d.cfg) (hcov : Covers S d.cfg) (street : Nat) :
    movesOn street ms ≤ d.cfg.numPlayers + (d.cfg.numPlayers - 1) * raisesOn street ms := (trace_orbit h hn hz hcov).2.each street

theorem C101_length (h : ArrayTrace S d ms) (hn : NonNegative S d.cfg) (hz : SizesOk d.cfg) (hcov : Covers S d.cfg) :
    ms.length ≤ d.cfg.numPlayers * d.cfg.numStreets + (d.cfg.numPlayers - 1) * numRaised ms ∧ (numRaised ms : Int) ≤ S.sum :=
  ⟨(trace_orbit h hn hz hcov).2.total, (trace_orbit h hn hz hcov).2.chips⟩

theorem C101_bound (h : ArrayTrace S d ms) (hn : NonNegative S d.cfg) (hz : SizesOk d.cfg) (hcov : Covers S d.cfg) :
    (d.history.length : Int) ≤ d.cfg.numPlayers * d.cfg.numStreets + (d.cfg.numPlayers - 1) * S.sum :=
  ledger_bound (trace_orbit h hn hz hcov).2

/-- the actions of a hand, from a computation -/
def traceFrom (d : Dealer) (ms : List Move) : List Int → Except Err (Dealer × List Move)
  | [] => .ok (d, ms)
  | b :: bs => match d.action with
    | none => .error .typeError
    | some a => match step d (.fin b) with
      | (d', .ok _) => traceFrom d' (ms ++ [⟨d.street, a, min (toCall d a) (stack d a), moved d d' a⟩]) bs
      | (_, .error e) => .error e

theorem traceFrom_ok {bs : List Int} {ms' : List Move} (h : ArrayTrace S d ms) (hf : traceFrom d ms bs = .ok (d', ms')) : ArrayTrace S d' ms' := by
  induction bs generalizing d ms with
  | nil =>
    simp only [traceFrom, Except.ok.injEq, Prod.mk.injEq] at hf
    obtain ⟨rfl, rfl⟩ := hf
    exact h
  | cons b bs ih =>
    rw [traceFrom] at hf
    split at hf
    · simp at hf
    · next a ha =>
      split at hf
      · next d1 out hs => exact ih (ArrayTrace.step h ha hs) hf
      · simp at hf

theorem trace_exists {a : DealerArgs} {bs : List Int} {f : List Int → Dealer → List Move → Bool}
    (h : (new a id).bind (fun d => match reset d true false id with
      | (d', .ok _) => (traceFrom d' [] bs).bind fun r => .ok (f d.stacks r.1 r.2)
      | (_, .error e) => .error e) = .ok true) :
    ∃ S d ms, ArrayTrace S d ms ∧ f S d ms = true := by
  cases hn : new a id with
  | error e => rw [hn] at h; simp [Except.bind] at h
  | ok d0 =>
    rw [hn] at h
    simp only [Except.bind] at h
    split at h
    · next d1 obs1 hr =>
      have h1 := ArrayTrace.dealt (rs := false) (new_atSeat hn) (fun l => List.Perm.refl l) hr
      cases ht : traceFrom d1 [] bs with
      | error e => rw [ht] at h; simp at h
      | ok r =>
        rw [ht] at h
        simp only [Except.ok.injEq] at h
        exact ⟨_, r.1, r.2, traceFrom_ok h1 ht, h⟩
    · simp at h

/-- The same hand with the array engine. -/
example : ∃ S d ms, ArrayTrace S d ms ∧ NonNegative S d.cfg ∧ SizesOk d.cfg ∧ Covers S d.cfg ∧ d.street = 1 ∧
    ms.map (fun m => (m.street, m.seat, m.call, m.chips)) = [(0, 0, 2, 2), (0, 1, 1, 1), (0, 2, 0, 4), (0, 0, 4, 4), (0, 1, 4, 4)] ∧
    raisesOn 0 ms = 1 ∧ movesOn 0 ms = d.cfg.numPlayers + (d.cfg.numPlayers - 1) * raisesOn 0 ms := by
  obtain ⟨S, d, ms, h1, h3⟩ := trace_exists (a := small 3 [1, 2, 0] 20) (bs := [2, 1, 4, 4, 4])
    (f := fun S d ms => decide (NonNegative S d.cfg ∧ SizesOk d.cfg ∧ Covers S d.cfg ∧ d.street = 1 ∧
      ms.map (fun m => (m.street, m.seat, m.call, m.chips)) = [(0, 0, 2, 2), (0, 1, 1, 1), (0, 2, 0, 4), (0, 0, 4, 4), (0, 1, 4, 4)] ∧
      raisesOn 0 ms = 1 ∧ movesOn 0 ms = d.cfg.numPlayers + (d.cfg.numPlayers - 1) * raisesOn 0 ms)) (by decide +kernel)
  exact ⟨S, d, ms, h1, by simpa only [decide_eq_true_eq] using h3⟩

end Numpy

end Clubs
