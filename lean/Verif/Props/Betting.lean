import Verif.Lemmas.Trace
import Mathlib.Tactic.NormNum

/-!
# Bet sizes: C29–C33
-/

namespace Clubs

open Spec

/-! ## C29 -/

/-- `_clean_bet` picks the nearest legal size if raises are larger than the call, or have one size only -/
theorem cleanBet_nearest {b c lo hi : Int} (hc : 0 ≤ c) (h : (c < lo ∧ lo ≤ hi) ∨ (c ≤ lo ∧ lo = hi) ∨ (lo = 0 ∧ hi = 0))
    (v : Int) (hv : v = 0 ∨ v = c ∨ (lo ≤ v ∧ v ≤ hi)) :
    |cleanBet b c lo hi - b| < |v - b| ∨ (|cleanBet b c lo hi - b| = |v - b| ∧ cleanBet b c lo hi ≤ v) := by
  have hcases := cleanBet_cases b c lo hi
  generalize cleanBet b c lo hi = x at hcases ⊢
  simp only [abs_eq_max_neg] at hcases ⊢
  rcases hcases with ⟨h1, h2, h3, rfl⟩ | ⟨h1, h2, h3, rfl⟩ | ⟨h1, h2, h3, rfl⟩ | ⟨h1, h2, h3, rfl⟩ <;>
    rcases hv with rfl | rfl | hv <;> rcases h with h | h | h <;> omega

theorem cleanBet_legal {b c lo hi : Int} (h : lo ≤ hi) :
    cleanBet b c lo hi = 0 ∨ cleanBet b c lo hi = c ∨ (lo ≤ cleanBet b c lo hi ∧ cleanBet b c lo hi ≤ hi) := by
  rcases cleanBet_cases b c lo hi with ⟨-, -, -, e⟩ | ⟨-, -, -, e⟩ | ⟨-, -, -, e⟩ | ⟨-, -, -, e⟩ <;> rw [e] <;> omega

theorem cleanBet_neg {b c lo hi : Int} (h : b ≤ 0) : cleanBet b c lo hi = 0 := by
  have h0 : max 0 b = 0 := by omega
  have := cleanBet_cases b c lo hi
  rw [h0] at this
  simp only [sub_zero, abs_zero] at this
  rcases this with h1 | h1 | h1 | h1
  · exact h1.2.2.2
  · exact absurd h1.1 (not_lt.2 (abs_nonneg _))
  · exact absurd h1.1 (not_lt.2 (abs_nonneg _))
  · exact absurd h1.1 (not_lt.2 (abs_nonneg _))

theorem roundHalfEven_int (b : Int) : roundHalfEven (b : Rat) = b := by
  unfold roundHalfEven
  simp only [Rat.floor_intCast, sub_self]
  rw [if_pos (by norm_num)]

theorem roundHalfEven_rounded (q : Rat) : Rounded q (roundHalfEven q) := by
  have h1 : (q.floor : Rat) ≤ q := Rat.floor_le q
  have h2 : q < (q.floor : Rat) + 1 := by exact_mod_cast Rat.lt_floor_add_one q
  unfold Rounded roundHalfEven
  simp only []
  generalize hf : q.floor = f at h1 h2
  split
  · next h =>
    rw [abs_of_nonneg (by linarith)]
    exact ⟨by linarith, fun h3 => by linarith⟩
  · split
    · push_cast
      rw [abs_of_nonpos (by linarith)]
      exact ⟨by linarith, fun h3 => by linarith⟩
    · have h3 : q - f = 1 / 2 := by linarith
      split
      · rw [h3]
        exact ⟨by norm_num, fun _ => by omega⟩
      · push_cast
        rw [show q - ((f : Rat) + 1) = -(1 / 2) by linarith]
        exact ⟨by norm_num, fun _ => by omega⟩

/-- there is only one way to round -/
theorem rounded_unique {q : Rat} {b c : Int} (hb : Rounded q b) (hc : Rounded q c) : b = c := by
  obtain ⟨h1, h2⟩ := hb
  obtain ⟨h3, h4⟩ := hc
  have h5 := abs_le.1 h1
  have h6 := abs_le.1 h3
  have h7 : ((b - c : Int) : Rat) ≤ 1 ∧ (-1 : Rat) ≤ ((b - c : Int) : Rat) := by
    push_cast
    constructor <;> linarith [h5.1, h5.2, h6.1, h6.2]
  have h8 : b - c ≤ 1 ∧ -1 ≤ b - c := ⟨by exact_mod_cast h7.1, by exact_mod_cast h7.2⟩
  by_contra hne
  have key : ∀ {x y : Int}, x = y + 1 → (-(1 / 2) ≤ q - x ∧ q - x ≤ 1 / 2) → (-(1 / 2) ≤ q - y ∧ q - y ≤ 1 / 2) →
      |q - x| = 1 / 2 ∧ |q - y| = 1 / 2 := by
    intro x y hxy hx hy
    have : (x : Rat) = y + 1 := by exact_mod_cast hxy
    have h9 : q - y = 1 / 2 := by linarith
    have h10 : q - x = -(1 / 2) := by linarith
    rw [h9, h10]
    constructor <;> norm_num
  rcases (by omega : b = c + 1 ∨ c = b + 1) with h | h
  · obtain ⟨k1, k2⟩ := key h h5 h6
    have := h2 k1
    have := h4 k2
    omega
  · obtain ⟨k1, k2⟩ := key h h6 h5
    have := h2 k2
    have := h4 k1
    omega

theorem roundHalfEven_neg {q : Rat} (h : q < 0) : roundHalfEven q ≤ 0 := by
  have h1 : q.floor < 0 := by
    rw [← not_le]
    intro h2
    rw [Rat.le_floor_iff] at h2
    exact absurd h (not_lt.2 (by simpa using h2))
  unfold roundHalfEven
  simp only []
  split
  · omega
  · split
    · omega
    · split <;> omega

/-- the bet sizes while the acting player is not in debt -/
theorem sizes_order {S : List Int} {d : Dealer} {obs : Observation} {a : Nat} (h : InHand S d) (ha : d.action = some a)
    (hsh : Shows d obs) (hs0 : 0 ≤ stack d a) (hb : 0 ≤ d.cfg.bigBlind) (hr : RaisesOk d.cfg) :
    0 ≤ obs.call ∧ obs.call = min (toCall d a) (stack d a) ∧ 0 ≤ obs.minRaise ∧ obs.minRaise ≤ stack d a ∧
    obs.maxRaise ≤ stack d a ∧
    ((obs.minRaise = 0 ∧ obs.maxRaise = 0) ∨ (obs.call ≤ obs.minRaise ∧ obs.minRaise = obs.maxRaise) ∨
      (obs.call ≤ obs.minRaise ∧ (0 < d.cfg.bigBlind → obs.call < obs.minRaise ∨ obs.minRaise = stack d a))) := by
  have hsz := shows_sizes hsh ha
  have hl := (live_of_action h ha).1
  have hseat := seat_some ha
  obtain ⟨rs, nr, hrs, -, h1, h2, h3⟩ := betSizes_spec hsz
  have hle := betSizes_le hsz
  have hc0 := call_nonneg hl.seated
  have hlr := raise_ge_of_inHand h
  rw [hseat] at *
  have hrs' : ∀ n, rs = .int n → 0 ≤ n := fun n hn => hr n (by
    rw [← hn]; exact List.mem_of_getElem? hrs)
  unfold toCall
  generalize pyMax d.streetCommits - streetBet d a = t at *
  by_cases hcap : nr.reached d.streetRaises = true ∨ (d.streetRaises ≠ 0 ∧ t < d.largestRaise)
  · have := h2 hcap
    omega
  · have h4 := h3 hcap
    cases rs with
    | int n =>
      have := hrs' n rfl
      simp only [] at h4
      omega
    | pot => simp only [] at h4; omega
    | inf => simp only [] at h4; omega

/-- **C29** (part): the chips a step moves are the offered size nearest to the bet rounded to an integer (halves to the even one),
ties to the smaller size, provided that the player is not in debt, there is a big blind and `min_raise <= max_raise`.
Missing: bets that are not integers are rounded first; with a big blind of 0 the statement is false (`C29_false_zero`). -/
theorem C29_nearest_partial {S : List Int} {d d' : Dealer} {obs : Observation} {a : Nat} {q : Rat} {out : StepOut}
    (h : InHand S d) (ha : d.action = some a) (hsh : Shows d obs) (hs0 : 0 ≤ stack d a)
    (hb : 0 < d.cfg.bigBlind) (hr : RaisesOk d.cfg) (hmm : obs.minRaise ≤ obs.maxRaise)
    (hs : d.step (.fin q) = (d', .ok out)) : ∃ b, Rounded q b ∧ NearestLegal obs b (moved d d' a) := by
  refine ⟨roundHalfEven q, roundHalfEven_rounded q, ?_⟩
  obtain ⟨o1, o2, o3, o4, o5, o6⟩ := sizes_order h ha hsh hs0 (by omega) hr
  obtain ⟨b, c, lo, hi, x, p, v⟩ := step_view h ha hs
  have hl := (live_of_action h ha).1
  have hsz := shows_sizes hsh ha
  rw [v.sizes] at hsz
  simp only [Except.ok.injEq, Prod.mk.injEq] at hsz
  obtain ⟨rfl, rfl, rfl⟩ := hsz
  have hb' : b = roundHalfEven q := by
    have := v.round
    simp only [pyRound, Except.ok.injEq] at this
    exact this.symm
  have hnear := cleanBet_nearest (b := b) o1 (lo := obs.minRaise) (hi := obs.maxRaise) (by omega)
  have hlegal := cleanBet_legal (b := b) (c := obs.call) hmm
  have hle := cleanBet_le v.sizes b
  have hx0 := cleanBet_nonneg (b := b) (c := obs.call) (lo := obs.minRaise) (hi := obs.maxRaise) (by omega)
  have hneg : (PyNum.fin q).isNeg = true → cleanBet b obs.call obs.minRaise obs.maxRaise = 0 := by
    intro hq
    apply cleanBet_neg
    rw [hb']
    exact roundHalfEven_neg (by simpa [PyNum.isNeg] using hq)
  have hmv := v.moved hl.seated a (hl.seated.action a ha)
  rw [seat_some ha, if_pos rfl] at hmv
  rw [seat_some ha] at hle
  have hbet : betOf (PyNum.fin q).isNeg obs.call (cleanBet b obs.call obs.minRaise obs.maxRaise) =
      cleanBet b obs.call obs.minRaise obs.maxRaise := by
    unfold betOf
    split
    · next hf =>
      rcases hf.2 with h1 | h1
      · omega
      · exact (hneg h1).symm
    · rfl
  rw [hbet, min_eq_right (by omega)] at hmv
  rw [hmv, ← hb']
  refine ⟨hlegal, fun v' hv' => ?_⟩
  have := hnear v' hv'
  generalize cleanBet b obs.call obs.minRaise obs.maxRaise = y at this
  rw [← Int.cast_sub, ← Int.cast_sub, ← Int.cast_abs, ← Int.cast_abs, Int.cast_lt, Int.cast_inj]
  exact this

/-- **C29** for integer bets -/
theorem C29_integer {S : List Int} {d d' : Dealer} {obs : Observation} {a : Nat} {b : Int} {out : StepOut}
    (h : InHand S d) (ha : d.action = some a) (hsh : Shows d obs) (hs0 : 0 ≤ stack d a)
    (hb : 0 < d.cfg.bigBlind) (hr : RaisesOk d.cfg) (hmm : obs.minRaise ≤ obs.maxRaise)
    (hs : d.step (.fin b) = (d', .ok out)) : NearestLegal obs b (moved d d' a) := by
  obtain ⟨b', h1, h2⟩ := C29_nearest_partial h ha hsh hs0 hb hr hmm hs
  rwa [rounded_unique h1 (c := b) (by unfold Rounded; simp)] at h2

/-- a hand and a bet of 7 in it -/
example : ∃ S d obs, InHand S d ∧ d.action = some 1 ∧ Shows d obs ∧ 0 ≤ stack d 1 ∧ 0 < d.cfg.bigBlind ∧ RaisesOk d.cfg ∧
    obs.minRaise ≤ obs.maxRaise ∧ ∃ d' out, d.step (.fin 7) = (d', .ok out) ∧ moved d d' 1 = 7 := by
  obtain ⟨d, obs, h1, -, h2, h3⟩ := show_exists (a := small 3 [1, 2, 0] 20) (bs := [4])
    (f := fun d obs => decide (d.action = some 1) && (decide (0 ≤ stack d 1) && (decide (0 < d.cfg.bigBlind) &&
      (decide (d.cfg.raiseSizes = [.inf, .inf]) && (decide (obs.minRaise ≤ obs.maxRaise) &&
        (match d.step (.fin 7) with
          | (d', .ok _) => decide (moved d d' 1 = 7)
          | (_, .error _) => false)))))) (by decide +kernel)
  simp only [Bool.and_eq_true, decide_eq_true_eq] at h3
  obtain ⟨a1, a2, a3, a4, a5, a6⟩ := h3
  refine ⟨_, d, obs, h1, a1, h2, a2, a3, ?_, a5, ?_⟩
  · intro n hn; rw [a4] at hn; simp at hn
  · split at a6
    · next d' out hs => exact ⟨d', out, hs, by simpa using a6⟩
    · simp at a6

/-- **C29** is false for bets that are not integers: a bet of 3.5 is rounded to 4 although 3 is as near and smaller. -/
theorem C29_false_half : ∃ S d obs d' out, InHand S d ∧ NonNegative S d.cfg ∧ d.action = some 0 ∧ Shows d obs ∧
    0 < d.cfg.bigBlind ∧ d.step (.fin (7 / 2)) = (d', .ok out) ∧ moved d d' 0 = 4 ∧ Legal obs 3 := by
  obtain ⟨d, obs, h1, -, h2, h3⟩ := show_exists (a := small 2 [1, 2] 20) (bs := [])
    (f := fun d obs => nonNegB [20, 20] d && (decide (d.action = some 0) && (decide (0 < d.cfg.bigBlind) &&
      (decide (obs.minRaise ≤ 3 ∧ 3 ≤ obs.maxRaise) && (match d.step (.fin (7 / 2)) with
          | (d', .ok _) => decide (moved d d' 0 = 4)
          | (_, .error _) => false))))) (by decide +kernel)
  simp only [Bool.and_eq_true, decide_eq_true_eq] at h3
  obtain ⟨a0, a1, a2, a3, a4⟩ := h3
  split at a4
  · next d' out hs => exact ⟨_, d, obs, d', out, h1, nonNegB_iff a0, a1, h2, a2, hs, by simpa using a4, .inr (.inr a3)⟩
  · simp at a4

/-- **C29** is false if there is no big blind: in a no-limit game without blinds a bet of 7 out of 20 chips moves nothing,
although 7 is an offered size. -/
theorem C29_false_zero : ∃ S d obs d' out, InHand S d ∧ NonNegative S d.cfg ∧ d.action = some 0 ∧ Shows d obs ∧
    d.step (.fin 7) = (d', .ok out) ∧ moved d d' 0 = 0 ∧ Legal obs 7 := by
  obtain ⟨d, obs, h1, -, h2, h3⟩ := show_exists (a := small 2 [0, 0] 20) (bs := [])
    (f := fun d obs => nonNegB [20, 20] d && (decide (d.action = some 0) &&
      (decide (obs.minRaise ≤ 7 ∧ 7 ≤ obs.maxRaise) && (match d.step (.fin 7) with
          | (d', .ok _) => decide (moved d d' 0 = 0)
          | (_, .error _) => false)))) (by decide +kernel)
  simp only [Bool.and_eq_true, decide_eq_true_eq] at h3
  obtain ⟨a0, a1, a3, a4⟩ := h3
  split at a4
  · next d' out hs => exact ⟨_, d, obs, d', out, h1, nonNegB_iff a0, a1, h2, hs, by simpa using a4, .inr (.inr a3)⟩
  · simp at a4

/-! ## C30 -/

/-- **C30** (part): the offered sizes of a running hand, for a player who is not in debt. Missing: `min_raise <= max_raise`
in pot-limit games (next theorem). -/
theorem C30_sizes_partial {S : List Int} {d : Dealer} {obs : Observation} {a : Nat}
    (h : InHand S d) (hn : NonNegative S d.cfg) (ha : d.action = some a) (hsh : Shows d obs) (hs0 : 0 ≤ stack d a)
    (hb : 0 ≤ d.cfg.bigBlind) (hr : RaisesOk d.cfg) :
    0 ≤ obs.call ∧ obs.call ≤ stack d a ∧ 0 ≤ obs.minRaise ∧ obs.minRaise ≤ stack d a ∧
    0 ≤ obs.maxRaise ∧ obs.maxRaise ≤ stack d a ∧
    (obs.maxRaise ≠ 0 → obs.call ≤ obs.minRaise) ∧
    (d.cfg.raiseSizes[d.street]? ≠ some .pot → obs.minRaise ≤ obs.maxRaise) := by
  obtain ⟨o1, o2, o3, o4, o5, o6⟩ := sizes_order h ha hsh hs0 hb hr
  have hsz := shows_sizes hsh ha
  have hl := (live_of_action h ha).1
  have hmax := betSizes_lo_hi hl.seated (nn_pot hl (nn_of_action h hn ha)) hsz o3
  refine ⟨o1, by omega, o3, o4, hmax, o5, by omega, ?_⟩
  intro hrs
  obtain ⟨rs, nr, hrs', -, h1, h2, h3⟩ := betSizes_spec hsz
  rw [hrs'] at hrs
  by_cases hcap : nr.reached d.streetRaises = true ∨
      (d.streetRaises ≠ 0 ∧ pyMax d.streetCommits - streetBet d d.seat < d.largestRaise)
  · have := h2 hcap; omega
  · have h4 := h3 hcap
    rw [seat_some ha] at *
    cases rs with
    | int n => simp only [] at h4; omega
    | pot => exact absurd rfl hrs
    | inf => simp only [] at h4; omega

/-- **C30** (part), pot-limit: `min_raise <= max_raise` if the stacks cover the blinds and the pot holds a big blind. -/
theorem C30_pot_partial {S : List Int} {d : Dealer} {obs : Observation} {a : Nat}
    (h : InHand S d) (hn : NonNegative S d.cfg) (hcov : Covers S d.cfg) (ha : d.action = some a) (hsh : Shows d obs)
    (hp : d.cfg.bigBlind ≤ d.pot) : obs.minRaise ≤ obs.maxRaise := by
  obtain ⟨hnn, hri, hs0⟩ := covered_of_inHand h hn hcov (by rw [ha]; simp)
  have hsz := shows_sizes hsh ha
  have hl := (live_of_action h ha).1
  have hc0 := call_nonneg hl.seated
  have hst := hs0 d.seat (seat_lt hl.seated)
  unfold RaiseInv at hri
  obtain ⟨rs, nr, hrs', -, h1, h2, h3⟩ := betSizes_spec hsz
  generalize pyMax d.streetCommits - streetBet d d.seat = t at *
  by_cases hcap : nr.reached d.streetRaises = true ∨ (d.streetRaises ≠ 0 ∧ t < d.largestRaise)
  · have := h2 hcap; omega
  · have h4 := h3 hcap
    cases rs with
    | int n => simp only [] at h4; omega
    | pot => simp only [] at h4; omega
    | inf => simp only [] at h4; omega

/-- a pot-limit hand that meets the hypotheses -/
example : ∃ S d obs, InHand S d ∧ NonNegative S d.cfg ∧ Covers S d.cfg ∧ d.action = some 1 ∧ Shows d obs ∧ 0 ≤ stack d 1 ∧
    RaisesOk d.cfg ∧ d.cfg.bigBlind ≤ d.pot ∧ obs.call = 6 ∧ obs.minRaise = 11 ∧ obs.maxRaise = 22 := by
  obtain ⟨S, d, obs, h1, -, h2, h3⟩ := played_exists (a := limit 3 [1, 2, 0] 40 (.scalar .pot) (.scalar .inf)) (cs := [.bet 7])
    (f := fun S d obs => nonNegB S d && (decide (∀ i < d.cfg.numPlayers, S.getD i 0 = 0 ∨
      ∀ j < d.cfg.numPlayers, d.cfg.antes.getD j 0 + d.cfg.blinds.getD j 0 ≤ S.getD i 0) && (decide (d.action = some 1) &&
      (decide (0 ≤ stack d 1) && (decide (d.cfg.raiseSizes = [.pot, .pot]) && (decide (d.cfg.bigBlind ≤ d.pot) &&
      (decide (obs.call = 6) && (decide (obs.minRaise = 11) && decide (obs.maxRaise = 22))))))))) (by decide +kernel)
  simp only [Bool.and_eq_true, decide_eq_true_eq] at h3
  obtain ⟨a0, a1, a2, a3, a4, a5, a6, a7, a8⟩ := h3
  refine ⟨S, d, obs, h1, nonNegB_iff a0, a1, a2, h2, a3, ?_, a5, a6, a7, a8⟩
  intro n hn; rw [a4] at hn; simp at hn

/-- **C30** is false in pot-limit games: if the seat that should post the big blind is out of chips, `min_raise` exceeds
`max_raise`. -/
theorem C30_false : ∃ S d obs, InHand S d ∧ Reachable d ∧ NonNegative S d.cfg ∧ d.action = some 2 ∧ Shows d obs ∧ 0 ≤ stack d 2 ∧
    RaisesOk d.cfg ∧ obs.minRaise = 9 ∧ obs.maxRaise = 1 := by
  obtain ⟨S, d, obs, h1, h0, h2, h3⟩ := played_exists (a := limit 3 [1, 10, 0] 20 (.scalar .pot) (.scalar .inf))
    (cs := [.bet 20, .bet 19, .bet (-1), .deal])
    (f := fun S d obs => nonNegB S d && (decide (d.action = some 2) &&
      (decide (0 ≤ stack d 2) && (decide (d.cfg.raiseSizes = [.pot, .pot]) &&
      (decide (obs.minRaise = 9) && decide (obs.maxRaise = 1)))))) (by decide +kernel)
  simp only [Bool.and_eq_true, decide_eq_true_eq] at h3
  obtain ⟨a0, a1, a2, a3, a4, a5⟩ := h3
  refine ⟨S, d, obs, h1, h0, nonNegB_iff a0, a1, h2, a2, ?_, a4, a5⟩
  intro n hn; rw [a3] at hn; simp at hn

/-! ## C31 -/

/-- the most a bet may be on a street with this raise rule -/
def cap (d : Dealer) (a : Nat) : RaiseSize → Int
  | .inf => stack d a
  | .pot => d.pot + 2 * toCall d a
  | .int n => toCall d a + n

/-- **C31**: no step moves more than the cap of the street's raise rule, and never more than the acting player's stack. -/
theorem C31_cap {S : List Int} {d d' : Dealer} {a : Nat} {bet : PyNum} {out : StepOut} {r : RaiseSize}
    (h : InHand S d) (hn : NonNegative S d.cfg) (hr : RaisesOk d.cfg) (ha : d.action = some a)
    (hrs : d.cfg.raiseSizes[d.street]? = some r) (hs : d.step bet = (d', .ok out)) :
    moved d d' a ≤ cap d a r ∧ moved d d' a ≤ stack d a := by
  obtain ⟨b, c, lo, hi, x, p, v⟩ := step_view h ha hs
  have hl := (live_of_action h ha).1
  have hmv := v.moved hl.seated a (hl.seated.action a ha)
  have hp := nn_pot hl (nn_of_action h hn ha)
  have hc0 := call_nonneg hl.seated
  obtain ⟨rs, nr, hrs', -, h1, h2, h3⟩ := betSizes_spec v.sizes
  rw [hrs] at hrs'
  obtain rfl : r = rs := by simpa using hrs'
  have hrs' : ∀ n, r = .int n → 0 ≤ n := fun n hn => hr n (by
    rw [← hn]; exact List.mem_of_getElem? hrs)
  rw [seat_some ha, if_pos rfl] at hmv
  rw [seat_some ha] at h1 h2 h3 hc0
  have hle : cleanBet b c lo hi ≤ max 0 (max c hi) := by
    rcases cleanBet_cases b c lo hi with ⟨-, -, -, e⟩ | ⟨-, -, -, e⟩ | ⟨-, -, -, e⟩ | ⟨-, -, -, e⟩ <;> rw [e] <;> omega
  have hbo : betOf bet.isNeg c (cleanBet b c lo hi) ≤ max 0 (cleanBet b c lo hi) := by unfold betOf; split <;> omega
  refine ⟨?_, by omega⟩
  unfold cap toCall
  generalize pyMax d.streetCommits - streetBet d a = t at *
  have hct : c ≤ t := by rw [h1]; exact min_le_left _ _
  have hcs : c ≤ stack d a := by rw [h1]; exact min_le_right _ _
  have hmle : moved d d' a ≤ max 0 (max c hi) := by
    rw [hmv]; exact (min_le_right _ _).trans (hbo.trans (max_le (le_max_left _ _) hle))
  have hms : moved d d' a ≤ stack d a := by rw [hmv]; exact min_le_left _ _
  by_cases hcap : nr.reached d.streetRaises = true ∨ (d.streetRaises ≠ 0 ∧ t < d.largestRaise)
  · have h5 : hi ≤ 0 := by rw [(h2 hcap).2]; exact min_le_left _ _
    clear h1 h2 h3 hmv hle hbo hcap
    cases r with
    | int n => have := hrs' n rfl; simp only []; omega
    | pot => simp only []; omega
    | inf => simp only []; omega
  · have h4 := h3 hcap
    clear h1 h2 h3 hmv hle hbo hcap
    cases r with
    | int n =>
      have := hrs' n rfl
      simp only [] at h4 ⊢
      have : hi ≤ n + t := by rw [h4.2, h4.1]; exact min_le_left _ _
      clear h4
      omega
    | pot =>
      simp only [] at h4 ⊢
      have : hi ≤ d.pot + t * 2 := by rw [h4.2]; exact min_le_left _ _
      clear h4
      omega
    | inf => exact hms

/-- in a pot-limit hand a bet of 1000 moves the cap -/
example : ∃ S d d' out, InHand S d ∧ NonNegative S d.cfg ∧ RaisesOk d.cfg ∧ d.action = some 1 ∧
    d.cfg.raiseSizes[d.street]? = some .pot ∧ d.step (.fin 1000) = (d', .ok out) ∧ moved d d' 1 = 22 ∧ cap d 1 .pot = 22 := by
  obtain ⟨S, d, obs, h1, -, h2, h3⟩ := played_exists (a := limit 3 [1, 2, 0] 40 (.scalar .pot) (.scalar .inf)) (cs := [.bet 7])
    (f := fun S d obs => nonNegB S d && (decide (d.action = some 1) && (decide (d.cfg.raiseSizes = [.pot, .pot]) &&
      (decide (d.street = 0) && (decide (d.pot + 2 * toCall d 1 = 22) && (match d.step (.fin 1000) with
          | (d', .ok _) => decide (moved d d' 1 = 22)
          | (_, .error _) => false)))))) (by decide +kernel)
  simp only [Bool.and_eq_true, decide_eq_true_eq] at h3
  obtain ⟨a0, a1, a2, a3, a4, a5⟩ := h3
  split at a5
  · next d' out hs =>
    refine ⟨S, d, d', out, h1, nonNegB_iff a0, ?_, a1, ?_, hs, by simpa using a5, a4⟩
    · intro n hn; rw [a2] at hn; simp at hn
    · rw [a2, a3]; rfl
  · simp at a5

/-! ## C32 -/

/-- the last raise allowed has been made: nothing but folding, checking and calling -/
theorem capped_bet {S : List Int} {d d' : Dealer} {a : Nat} {bet : PyNum} {out : StepOut} {b c lo hi : Int} {x : Dealer} {p : List Int}
    (hl : Live S d) (ha : d.action = some a) (v : View S d d' bet out b c lo hi x p) (hlo : lo = min 0 (stack d a))
    (hhi : hi = min 0 (stack d a)) : moved d d' a = 0 ∨ moved d d' a = min (toCall d a) (stack d a) := by
  have hmv := v.moved hl.seated a (hl.seated.action a ha)
  have hcc : c = min (toCall d d.seat) (stack d d.seat) := by
    obtain ⟨rs, nr, -, -, h1, -⟩ := betSizes_spec v.sizes
    exact h1
  have hc0 : 0 ≤ toCall d d.seat := call_nonneg hl.seated
  rw [seat_some ha] at *
  rw [if_pos rfl] at hmv
  have h3 : betOf bet.isNeg c (cleanBet b c lo hi) = 0 ∨ betOf bet.isNeg c (cleanBet b c lo hi) = cleanBet b c lo hi := by
    unfold betOf; split
    · exact .inl rfl
    · exact .inr rfl
  have hcb : cleanBet b c lo hi = 0 ∨ cleanBet b c lo hi = c := by
    have hcs := cleanBet_cases b c lo hi
    simp only [abs_eq_max_neg] at hcs
    rcases hcs with h1 | h1 | h1 | h1
    · exact .inl h1.2.2.2
    · exact .inr h1.2.2.2
    · exfalso; omega
    · exfalso; omega
  rw [hmv]
  generalize betOf bet.isNeg c (cleanBet b c lo hi) = y at *
  omega

/-- **C32** (part): on a street with `num_raises = m` at most `m` full raises are made, if there is a big blind.
Full raises are those of at least the largest raise of the hand so far; smaller ones are not counted (`C32_false`). -/
theorem C32_full_partial {S : List Int} {d : Dealer} {ms : List Move} {m : Int} (h : HandTrace S d ms) (hn : NonNegative S d.cfg)
    (hb : 0 < d.cfg.bigBlind) {s : Nat} (hm : d.cfg.numRaises[s]? = some (.fin m)) (hm0 : 0 ≤ m) :
    ((raises d.cfg.bigBlind s ms).2 : Int) ≤ m := by
  induction h with
  | dealt hd hs hr => simpa [raises] using hm0
  | @step S d d' ms a bet out ht ha hs ih =>
    have hin := trace_inHand ht
    obtain ⟨b, c, lo, hi, x, p, v⟩ := step_view hin ha hs
    rw [v.cfg] at hn hb hm ⊢
    have ih := ih hn hb hm
    obtain ⟨hl, -⟩ := live_of_action hin ha
    have hst : d.street < d.cfg.numStreets := by
      by_contra hcon
      have := v.sizes
      rw [betSizes_error hl.seated (by omega)] at this
      simp at this
    obtain ⟨t1, t2, t3⟩ := trace_raises ht hn
    have hlr := raise_ge_of_inHand hin
    rw [raises_snoc]
    by_cases hf : isFull (raises d.cfg.bigBlind s ms).1 ⟨d.street, a, min (toCall d a) (stack d a), moved d d' a⟩ = true
    · rw [if_pos hf]
      simp only []
      by_cases hs : d.street = s
      · subst hs
        rw [if_pos rfl]
        have t3 := t3 hst
        by_contra hcon
        have hreached : ((raises d.cfg.bigBlind d.street ms).2 : Int) = m := by push_cast at hcon; omega
        obtain ⟨rs, nr, -, hnr, -, h2, -⟩ := betSizes_spec v.sizes
        rw [hm] at hnr
        obtain rfl : NumRaises.fin m = nr := by simpa using hnr
        have h2 := h2 (.inl (by simp only [NumRaises.reached, decide_eq_true_eq]; omega))
        rw [seat_some ha] at h2
        have := capped_bet hl ha v h2.1 h2.2
        unfold isFull at hf
        simp only [decide_eq_true_eq] at hf
        rw [t2] at hf
        have : 0 ≤ toCall d a := by have := call_nonneg hl.seated; rw [seat_some ha] at this; exact this
        omega
      · rw [if_neg hs]; exact ih
    · rw [if_neg hf]; exact ih

/-- **C32** (part): once `m` full raises were made on the current street, every step moves nothing or the call amount. -/
theorem C32_then_call {S : List Int} {d d' : Dealer} {ms : List Move} {m : Int} {a : Nat} {bet : PyNum} {out : StepOut}
    (h : HandTrace S d ms) (hn : NonNegative S d.cfg) (hm : d.cfg.numRaises[d.street]? = some (.fin m))
    (hr : m ≤ ((raises d.cfg.bigBlind d.street ms).2 : Int)) (ha : d.action = some a) (hs : d.step bet = (d', .ok out)) :
    moved d d' a = 0 ∨ moved d d' a = min (toCall d a) (stack d a) := by
  have hin := trace_inHand h
  obtain ⟨b, c, lo, hi, x, p, v⟩ := step_view hin ha hs
  obtain ⟨hl, -⟩ := live_of_action hin ha
  have hst : d.street < d.cfg.numStreets := by
    by_contra hcon
    have := v.sizes
    rw [betSizes_error hl.seated (by omega)] at this
    simp at this
  obtain ⟨t1, t2, t3⟩ := trace_raises h hn
  have t3 := t3 hst
  obtain ⟨rs, nr, -, hnr, -, h2, -⟩ := betSizes_spec v.sizes
  rw [hm] at hnr
  obtain rfl : NumRaises.fin m = nr := by simpa using hnr
  have h2 := h2 (.inl (by simp only [NumRaises.reached, decide_eq_true_eq]; omega))
  rw [seat_some ha] at h2
  exact capped_bet hl ha v h2.1 h2.2

/-- **C32** (part): a raise by a player who keeps chips is a full raise (and so is counted), if `min_raise <= max_raise` and,
in fixed-limit games, the raise size of the street is at least the largest raise of the hand so far. -/
theorem C32_counted {S : List Int} {d d' : Dealer} {ms : List Move} {a : Nat} {bet : PyNum} {out : StepOut} {obs : Observation}
    (h : HandTrace S d ms) (hn : NonNegative S d.cfg) (ha : d.action = some a) (hs : d.step bet = (d', .ok out))
    (hsh : Shows d obs) (hmm : obs.minRaise ≤ obs.maxRaise)
    (hfix : ∀ n, d.cfg.raiseSizes[d.street]? = some (.int n) → (raises d.cfg.bigBlind d.street ms).1 ≤ n)
    (hraise : min (toCall d a) (stack d a) < moved d d' a) (hkeep : moved d d' a < stack d a) :
    isFull (raises d.cfg.bigBlind d.street ms).1 ⟨d.street, a, min (toCall d a) (stack d a), moved d d' a⟩ = true := by
  have hin := trace_inHand h
  obtain ⟨b, c, lo, hi, x, p, v⟩ := step_view hin ha hs
  obtain ⟨hl, -⟩ := live_of_action hin ha
  obtain ⟨t1, t2, -⟩ := trace_raises h hn
  have hsz := shows_sizes hsh ha
  rw [v.sizes] at hsz
  simp only [Except.ok.injEq, Prod.mk.injEq] at hsz
  obtain ⟨hc, rfl, rfl⟩ := hsz
  have hc0 : 0 ≤ toCall d a := by have := call_nonneg hl.seated; rw [seat_some ha] at this; exact this
  obtain ⟨rs, nr, hrs, hnr, hcc, h2, h3⟩ := betSizes_spec v.sizes
  have hmv := v.moved hl.seated a (hl.seated.action a ha)
  rw [seat_some ha] at *
  rw [if_pos rfl] at hmv
  have hcap : ¬ (nr.reached d.streetRaises = true ∨
      (d.streetRaises ≠ 0 ∧ pyMax d.streetCommits - streetBet d a < d.largestRaise)) := by
    intro hcap
    have := h2 hcap
    have := capped_bet hl ha v this.1 this.2
    omega
  have h3 := h3 hcap
  rw [t2] at hfix ⊢
  have hx0 := betOf_nonneg (b := b) hl.seated (nn_pot hl (nn_of_action hin hn ha)) v.sizes bet.isNeg
  have h4 : betOf bet.isNeg c (cleanBet b c obs.minRaise obs.maxRaise) = 0 ∨
      betOf bet.isNeg c (cleanBet b c obs.minRaise obs.maxRaise) = cleanBet b c obs.minRaise obs.maxRaise := by
    unfold betOf; split
    · exact .inl rfl
    · exact .inr rfl
  have hleg := cleanBet_legal (b := b) (c := c) hmm
  have hlo : obs.minRaise ≤ moved d d' a := by
    change c = min (toCall d a) (stack d a) at hcc
    generalize betOf bet.isNeg c (cleanBet b c obs.minRaise obs.maxRaise) = y at *
    generalize cleanBet b c obs.minRaise obs.maxRaise = z at *
    clear h2 h3
    omega
  unfold isFull
  simp only [decide_eq_true_eq]
  change _ ∧ d.largestRaise ≤ moved d d' a - min (toCall d a) (stack d a)
  have hm1 : 0 < moved d d' a := by omega
  refine ⟨hm1, ?_⟩
  have hT : pyMax d.streetCommits - streetBet d a = toCall d a := rfl
  rw [hT] at h3
  clear hmv h4 hleg hx0 h2 hcap hcc
  cases rs with
  | int n => simp only [] at h3; have := hfix n hrs; omega
  | pot => simp only [] at h3; omega
  | inf => simp only [] at h3; omega

/-- two raises of 4 were made, a third attempt (100) only calls -/
example : ∃ S d ms d' out, HandTrace S d ms ∧ NonNegative S d.cfg ∧ 0 < d.cfg.bigBlind ∧ d.cfg.numRaises[d.street]? = some (.fin 2) ∧
    (raises d.cfg.bigBlind d.street ms).2 = 2 ∧ d.action = some 2 ∧ d.step (.fin 100) = (d', .ok out) ∧ moved d d' 2 = 8 := by
  obtain ⟨d, ms, h1, h3⟩ := trace_exists (a := limit 3 [1, 2, 0] 100 (.scalar (.int 4)) (.scalar (.fin 2))) (bs := [6, 9])
    (f := fun d ms => nonNegB [100, 100, 100] d && (decide (0 < d.cfg.bigBlind) &&
      (decide (d.cfg.numRaises[d.street]? = some (.fin 2)) && (decide ((raises d.cfg.bigBlind d.street ms).2 = 2) &&
      (decide (d.action = some 2) && (match d.step (.fin 100) with
          | (d', .ok _) => decide (moved d d' 2 = 8)
          | (_, .error _) => false)))))) (by decide +kernel)
  simp only [Bool.and_eq_true, decide_eq_true_eq] at h3
  obtain ⟨a0, a1, a2, a3, a4, a5⟩ := h3
  split at a5
  · next d' out hs => exact ⟨_, d, ms, d', out, h1, nonNegB_iff a0, a1, a2, a3, a4, hs, by simpa using a5⟩
  · simp at a5

/-- a raise that is counted -/
example : ∃ S d ms d' out obs, HandTrace S d ms ∧ NonNegative S d.cfg ∧ d.action = some 1 ∧ d.step (.fin 9) = (d', .ok out) ∧
    Shows d obs ∧ obs.minRaise ≤ obs.maxRaise ∧ d.cfg.raiseSizes[d.street]? = some (.int 4) ∧
    (raises d.cfg.bigBlind d.street ms).1 ≤ 4 ∧ min (toCall d 1) (stack d 1) < moved d d' 1 ∧ moved d d' 1 < stack d 1 := by
  obtain ⟨d0, ms, h1, h3⟩ := trace_exists (a := limit 3 [1, 2, 0] 100 (.scalar (.int 4)) (.scalar (.fin 2))) (bs := [])
    (f := fun d0 ms => nonNegB [100, 100, 100] d0 && (decide (d0.action = some 0) && (match d0.step (.fin 6) with
      | (d, .ok (obs, _, _)) => decide (d.action = some 1) && (decide (obs.minRaise ≤ obs.maxRaise) &&
        (decide (d.cfg.raiseSizes[d.street]? = some (.int 4)) && (decide ((raises d.cfg.bigBlind d.street
          (ms ++ [⟨d0.street, 0, min (toCall d0 0) (stack d0 0), moved d0 d 0⟩])).1 ≤ 4) && (match d.step (.fin 9) with
          | (d', .ok _) => decide (min (toCall d 1) (stack d 1) < moved d d' 1) && decide (moved d d' 1 < stack d 1)
          | (_, .error _) => false))))
      | (_, .error _) => false))) (by decide +kernel)
  simp only [Bool.and_eq_true, decide_eq_true_eq] at h3
  obtain ⟨a0, a1, h4⟩ := h3
  split at h4
  · next d obs p dn hs0 =>
    simp only [Bool.and_eq_true, decide_eq_true_eq] at h4
    obtain ⟨b1, b2, b3, b4, b5⟩ := h4
    split at b5
    · next d' out hs =>
      simp only [Bool.and_eq_true, decide_eq_true_eq] at b5
      have hcfg : d.cfg = d0.cfg := by have := step_cfg d0 (.fin 6); rw [hs0] at this; exact this
      exact ⟨_, d, _, d', out, obs, HandTrace.step h1 a1 hs0, by rw [hcfg]; exact nonNegB_iff a0, b1, hs,
        .inr ⟨d0, _, _, _, hs0⟩, b2, b3, b4, b5.1, b5.2⟩
    · simp at b5
  · simp at h4

/-- **C32** is false: with raise sizes 4 and 2 and one raise per street, four bets and raises are made on the second street
by players who are not all-in. -/
theorem C32_false : ∃ S d ms, HandTrace S d ms ∧ NonNegative S d.cfg ∧ 0 < d.cfg.bigBlind ∧ d.cfg.numRaises = [.fin 1, .fin 1] ∧
    d.stacks = [86, 88] ∧ (ms.filter fun m => decide (m.street = 1 ∧ m.call < m.chips)).length = 4 := by
  obtain ⟨d, ms, h1, h3⟩ := trace_exists (a := limit 2 [1, 2] 100 (.list [.int 4, .int 2]) (.scalar (.fin 1)))
    (bs := [5, 4, 2, 4, 4, 4])
    (f := fun d ms => nonNegB [100, 100] d && (decide (0 < d.cfg.bigBlind) && (decide (d.cfg.numRaises = [.fin 1, .fin 1]) &&
      (decide (d.stacks = [86, 88]) && decide ((ms.filter fun m => decide (m.street = 1 ∧ m.call < m.chips)).length = 4)))))
      (by decide +kernel)
  simp only [Bool.and_eq_true, decide_eq_true_eq] at h3
  obtain ⟨a0, a1, a2, a3, a4⟩ := h3
  exact ⟨_, d, ms, h1, nonNegB_iff a0, a1, a2, a3, a4⟩

/-! ## C33 -/

/-- **C33**: if there was a full raise on this street and the amount to call is less than the last full raise, the acting
player can only fold, check or call. -/
theorem C33_no_reopen {S : List Int} {d d' : Dealer} {ms : List Move} {a : Nat} {bet : PyNum} {out : StepOut}
    (h : HandTrace S d ms) (hn : NonNegative S d.cfg) (ha : d.action = some a) (hs : d.step bet = (d', .ok out))
    (hr : (raises d.cfg.bigBlind d.street ms).2 ≠ 0) (hc : toCall d a < (raises d.cfg.bigBlind d.street ms).1) :
    moved d d' a = 0 ∨ moved d d' a = min (toCall d a) (stack d a) := by
  have hin := trace_inHand h
  obtain ⟨b, c, lo, hi, x, p, v⟩ := step_view hin ha hs
  obtain ⟨hl, -⟩ := live_of_action hin ha
  have hst : d.street < d.cfg.numStreets := by
    by_contra hcon
    have := v.sizes
    rw [betSizes_error hl.seated (by omega)] at this
    simp at this
  obtain ⟨t1, t2, t3⟩ := trace_raises h hn
  have t3 := t3 hst
  obtain ⟨rs, nr, -, hnr, -, h2, -⟩ := betSizes_spec v.sizes
  rw [seat_some ha] at h2
  have h2 := h2 (.inr ⟨by omega, by rw [← t2]; exact hc⟩)
  exact capped_bet hl ha v h2.1 h2.2

/-- **C33**, as reported: both raise sizes are 0. -/
theorem C33_reported {S : List Int} {d : Dealer} {ms : List Move} {a : Nat} {obs : Observation}
    (h : HandTrace S d ms) (hn : NonNegative S d.cfg) (ha : d.action = some a) (hsh : Shows d obs) (hs0 : 0 ≤ stack d a)
    (hr : (raises d.cfg.bigBlind d.street ms).2 ≠ 0) (hc : toCall d a < (raises d.cfg.bigBlind d.street ms).1) :
    obs.minRaise = 0 ∧ obs.maxRaise = 0 := by
  have hsz := shows_sizes hsh ha
  have hl := (live_of_action (trace_inHand h) ha).1
  have hst : d.street < d.cfg.numStreets := by
    by_contra hcon
    rw [betSizes_error hl.seated (by omega)] at hsz
    simp at hsz
  obtain ⟨t1, t2, t3⟩ := trace_raises h hn
  have t3 := t3 hst
  obtain ⟨rs, nr, -, hnr, -, h2, -⟩ := betSizes_spec hsz
  rw [seat_some ha] at h2
  have h2 := h2 (.inr ⟨by omega, by rw [← t2]; exact hc⟩)
  omega

/-- A raise from 2 to 12, a call, an all-in raise to 14: the next player cannot raise any more, a bet of 7 moves 2. -/
example : ∃ S d ms d' out, HandTrace S d ms ∧ NonNegative S d.cfg ∧ d.action = some 1 ∧ d.step (.fin 7) = (d', .ok out) ∧
    0 ≤ stack d 1 ∧ (raises d.cfg.bigBlind d.street ms).2 ≠ 0 ∧ toCall d 1 < (raises d.cfg.bigBlind d.street ms).1 ∧
    moved d d' 1 = 2 := by
  obtain ⟨S, d, ms, h1, -, h3⟩ := trace_exists2 (a := small 3 [1, 2, 0] 20)
    (cs := [.bet 6, .bet (-1), .bet 4, .bet 0, .bet 0]) (bs := [12, 11, 12])
    (f := fun S d ms => nonNegB S d && (decide (d.action = some 1) && (decide (0 ≤ stack d 1) &&
      (decide ((raises d.cfg.bigBlind d.street ms).2 ≠ 0) && (decide (toCall d 1 < (raises d.cfg.bigBlind d.street ms).1) &&
      (match d.step (.fin 7) with
          | (d', .ok _) => decide (moved d d' 1 = 2)
          | (_, .error _) => false)))))) (by decide +kernel)
  simp only [Bool.and_eq_true, decide_eq_true_eq] at h3
  obtain ⟨a0, a1, a2, a3, a4, a5⟩ := h3
  split at a5
  · next d' out hs => exact ⟨S, d, ms, d', out, h1, nonNegB_iff a0, a1, hs, a2, a3, a4, by simpa using a5⟩
  · simp at a5

end Clubs
