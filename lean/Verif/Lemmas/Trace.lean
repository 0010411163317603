import Verif.Lemmas.View
import Verif.Lemmas.Play

/-! # The actions of a hand -/

namespace Clubs

open Spec

theorem trace_inHand {S : List Int} {d : Dealer} {ms : List Move} (h : HandTrace S d ms) : InHand S d := by
  induction h with
  | dealt hd hs h => exact .dealt hd hs h
  | @step S d d' ms a bet out h ha hs ih =>
    have := InHand.step bet ih
    rw [hs] at this
    exact this

theorem raises_snoc (bb : Int) (s : Nat) (ms : List Move) (m : Move) :
    raises bb s (ms ++ [m]) = if isFull (raises bb s ms).1 m then
      (m.chips - m.call, if m.street = s then (raises bb s ms).2 + 1 else (raises bb s ms).2) else raises bb s ms := by
  unfold raises
  rw [List.foldl_append]
  rfl

theorem raises_fst (bb : Int) (s t : Nat) (ms : List Move) : (raises bb s ms).1 = (raises bb t ms).1 := by
  induction ms using List.reverseRecOn with
  | nil => rfl
  | append_singleton ms m ih =>
    rw [raises_snoc, raises_snoc, ih]
    split
    · rfl
    · exact ih

/-- no raises on a street that was not reached -/
theorem raises_zero (bb : Int) (s : Nat) (ms : List Move) (h : ∀ m ∈ ms, m.street ≠ s) : (raises bb s ms).2 = 0 := by
  induction ms using List.reverseRecOn with
  | nil => rfl
  | append_singleton ms m ih =>
    have h1 := ih fun m hm => h m (by simp [hm])
    rw [raises_snoc]
    split
    · rw [if_neg (h m (by simp))]; exact h1
    · exact h1

/-- whether an action counts as full raise -/
theorem full_iff {S : List Int} {d d' : Dealer} {a : Nat} {bet : PyNum} {out : StepOut} {b c lo hi : Int} {x : Dealer} {p : List Int}
    (hl : Live S d) (hn : NN d) (ha : d.action = some a) (v : View S d d' bet out b c lo hi x p) (L : Int) (s : Nat) :
    isFull L ⟨s, a, min (toCall d a) (stack d a), moved d d' a⟩ = true ↔
      (betOf bet.isNeg c (cleanBet b c lo hi) ≠ 0 ∧ betOf bet.isNeg c (cleanBet b c lo hi) - c ≥ L) := by
  have hmv := v.moved hl.seated a (hl.seated.action a ha)
  have hx0 := betOf_nonneg (b := b) hl.seated (nn_pot hl hn) v.sizes bet.isNeg
  have hx := cleanBet_le v.sizes b
  have hc : c = min (toCall d d.seat) (stack d d.seat) := by
    obtain ⟨rs, nr, -, -, h1, -⟩ := betSizes_spec v.sizes
    exact h1
  have h3 : betOf bet.isNeg c (cleanBet b c lo hi) ≤ max 0 (cleanBet b c lo hi) := by unfold betOf; split <;> omega
  rw [seat_some ha] at *
  rw [if_pos rfl] at hmv
  unfold isFull
  simp only [decide_eq_true_eq]
  rw [hmv, ← hc]
  generalize betOf bet.isNeg c (cleanBet b c lo hi) = y at *
  omega

/-- the street never goes back, and it is the current one unless the round is over -/
theorem afterBet_street {d : Dealer} (hst : d.street < d.cfg.numStreets) (fold : Bool)
    (c x : Int) :
    ((d.afterBet fold c x).street = d.street ∧ (d.afterBet fold c x).streetRaises = (d.acted fold c x).streetRaises) ∨
    (d.street < (d.afterBet fold c x).street ∧ (d.afterBet fold c x).streetRaises = 0) := by
  rcases afterBet_cases d fold c x with ⟨-, h⟩ | ⟨-, h⟩
  · rw [h]; exact .inl ⟨rfl, rfl⟩
  · right
    rw [h]
    refine ⟨?_, (nextStreet_fields _).2.2.1⟩
    rw [nextStreet_street (d := (d.acted fold c x).moveAction) hst]
    split
    · exact hst
    · exact Nat.lt_succ_self _

theorem trace_raises {S : List Int} {d : Dealer} {ms : List Move} (h : HandTrace S d ms) (hn : NonNegative S d.cfg) :
    (∀ m ∈ ms, m.street ≤ d.street) ∧ (raises d.cfg.bigBlind d.street ms).1 = d.largestRaise ∧
    (d.street < d.cfg.numStreets → ((raises d.cfg.bigBlind d.street ms).2 : Int) = d.streetRaises) := by
  induction h with
  | dealt hd hs hr =>
    refine ⟨by simp, (dealt_raise hr).symm, ?_⟩
    intro _
    obtain ⟨-, -, rfl, -⟩ := reset_ok hr
    show (0 : Int) = (Dealer.blindStart _ _ _ _).streetRaises
    unfold Dealer.blindStart
    split <;> rfl
  | @step S d d' ms a bet out ht ha hs ih =>
    have hin := trace_inHand ht
    obtain ⟨b, c, lo, hi, x, p, v⟩ := step_view hin ha hs
    rw [v.cfg] at hn ⊢
    obtain ⟨i1, i2, i3⟩ := ih hn
    obtain ⟨hl, -⟩ := live_of_action hin ha
    have hst : d.street < d.cfg.numStreets := by
      by_contra hcon
      have := v.sizes
      rw [betSizes_error hl.seated (by omega)] at this
      simp at this
    have i3 := i3 hst
    have hfull := full_iff hl (nn_of_action hin hn ha) ha v d.largestRaise d.street
    obtain ⟨-, -, -, -, -, -, -, s8, -, s10, -, -, s13⟩ := v.same
    have hL : d'.largestRaise = (d.acted bet.isNeg c (cleanBet b c lo hi)).largestRaise := by
      rw [s8, v.eq, (afterBet_fields _ _ _ _).2.2.2.2.2.1]
    have hL' : (d.acted bet.isNeg c (cleanBet b c lo hi)).largestRaise =
      if betOf bet.isNeg c (cleanBet b c lo hi) ≠ 0 ∧ betOf bet.isNeg c (cleanBet b c lo hi) - c ≥ d.largestRaise then
        betOf bet.isNeg c (cleanBet b c lo hi) - c else d.largestRaise := rfl
    have hR' : (d.acted bet.isNeg c (cleanBet b c lo hi)).streetRaises =
      if betOf bet.isNeg c (cleanBet b c lo hi) ≠ 0 ∧ betOf bet.isNeg c (cleanBet b c lo hi) - c ≥ d.largestRaise then
        d.streetRaises + 1 else d.streetRaises := rfl
    have hstr : ((d'.street = d.street ∧ d'.streetRaises = (d.acted bet.isNeg c (cleanBet b c lo hi)).streetRaises) ∨
        (d.street < d'.street ∧ d'.streetRaises = 0)) := by
      rw [s10, s13, v.eq]
      exact afterBet_street hst _ _ _
    have hmv := v.moved hl.seated a (hl.seated.action a ha)
    have hx0 := betOf_nonneg (b := b) hl.seated (nn_pot hl (nn_of_action hin hn ha)) v.sizes bet.isNeg
    have hx := cleanBet_le v.sizes b
    have hcc : c = min (toCall d d.seat) (stack d d.seat) := by
      obtain ⟨rs, nr, -, -, h1, -⟩ := betSizes_spec v.sizes
      exact h1
    have h3 : betOf bet.isNeg c (cleanBet b c lo hi) ≤ max 0 (cleanBet b c lo hi) := by unfold betOf; split <;> omega
    refine ⟨?_, ?_, ?_⟩
    · intro m hm
      rw [List.mem_append, List.mem_singleton] at hm
      rcases hm with hm | rfl
      · have := i1 m hm; omega
      · show d.street ≤ d'.street; omega
    · rw [raises_snoc, raises_fst _ _ d.street, i2, hL, hL']
      by_cases hf : betOf bet.isNeg c (cleanBet b c lo hi) ≠ 0 ∧ betOf bet.isNeg c (cleanBet b c lo hi) - c ≥ d.largestRaise
      · rw [if_pos (hfull.2 hf), if_pos hf]
        show moved d d' a - min (toCall d a) (stack d a) = _
        rw [hmv]
        rw [seat_some ha] at *
        rw [if_pos rfl, ← hcc]
        omega
      · rw [if_neg (fun h => hf (hfull.1 h)), if_neg hf]
        rw [raises_fst _ _ d.street, i2]
    · intro _
      rcases hstr with ⟨h4, h5⟩ | ⟨h4, h5⟩
      · rw [raises_snoc, h4, i2, h5, hR']
        by_cases hf : betOf bet.isNeg c (cleanBet b c lo hi) ≠ 0 ∧ betOf bet.isNeg c (cleanBet b c lo hi) - c ≥ d.largestRaise
        · rw [if_pos (hfull.2 hf), if_pos hf]
          show (((if d.street = d.street then _ else _ : Nat)) : Int) = _
          rw [if_pos rfl, ← i3]
          push_cast
          rfl
        · rw [if_neg (fun h => hf (hfull.1 h)), if_neg hf]
          exact i3
      · rw [h5, raises_zero]
        · rfl
        · intro m hm
          rw [List.mem_append, List.mem_singleton] at hm
          rcases hm with hm | rfl
          · have := i1 m hm; omega
          · show d.street ≠ d'.street; omega

theorem view_running {S : List Int} {d d' : Dealer} {bet : PyNum} {out : StepOut} {b c lo hi : Int} {x : Dealer} {p : List Int}
    (hd : Seated d) (v : View S d d' bet out b c lo hi x p) : d.street < d.cfg.numStreets := by
  by_contra hcon
  have := v.sizes
  rw [betSizes_error hd (by omega)] at this
  simp at this

theorem trace_street {S : List Int} {d : Dealer} {ms : List Move} (h : HandTrace S d ms) : ∀ m ∈ ms, m.street ≤ d.street := by
  induction h with
  | dealt hd hs hr => simp
  | @step S d d' ms a bet out ht ha hs ih =>
    have hin := trace_inHand ht
    obtain ⟨b, c, lo, hi, x, p, v⟩ := step_view hin ha hs
    obtain ⟨hl, -⟩ := live_of_action hin ha
    have hstr := afterBet_street (view_running hl.seated v) bet.isNeg c (cleanBet b c lo hi)
    obtain ⟨-, -, -, -, -, -, -, -, -, s10, -⟩ := v.same
    rw [v.eq] at s10
    intro m hm
    rw [List.mem_append, List.mem_singleton] at hm
    rcases hm with hm | rfl
    · have := ih m hm; omega
    · show d.street ≤ d'.street; omega

/-- A player who is in has had a turn on this street iff the trace has an action of theirs on it. -/
theorem trace_opt {S : List Int} {d : Dealer} {ms : List Move} (h : HandTrace S d ms) (i : Nat) (hi : i < d.cfg.numPlayers)
    (hin : isIn d i) : opt d i ↔ ∃ m ∈ ms, m.street = d.street ∧ m.seat = i := by
  induction h with
  | dealt hd hs hr =>
    constructor
    · intro h1; exact absurd h1 (dealt_opt hd hr i hi hin)
    · simp
  | @step S d d' ms a bet out ht ha hs ih =>
    have hinH := trace_inHand ht
    obtain ⟨b, c, lo, up, x, p, v⟩ := step_view hinH ha hs
    obtain ⟨hl, hc2⟩ := live_of_action hinH ha
    have hst := view_running hl.seated v
    have hd := hl.seated
    rw [v.cfg] at hi
    obtain ⟨-, s2, -, -, -, -, -, -, -, s10, -, s12, -⟩ := v.same
    obtain ⟨a0, ha0, hain⟩ := hl.action
    have hsd := acted_seated hd bet.isNeg c (cleanBet b c lo up)
    have hcnt := acted_count hd ha0 hain (hc2 hst) bet.isNeg c (cleanBet b c lo up)
    obtain ⟨a2, hmv⟩ := moveAction_spec (d := d.acted bet.isNeg c (cleanBet b c lo up)) hsd.active hcnt
    have hin2 : isIn (d.acted bet.isNeg c (cleanBet b c lo up)) i := by
      unfold isIn at hin ⊢
      rw [s2, v.eq, (afterBet_fields _ _ _ _).2.1] at hin
      exact hin
    have hin3 : isIn d i := ((acted_isIn hd _ _ _ i hi).1 hin2).1
    have hoptd : opt d' i ↔ opt x i := by unfold opt; rw [s12]
    rw [hoptd, s10, v.eq]
    rcases afterBet_cases d bet.isNeg c (cleanBet b c lo up) with ⟨-, h4⟩ | ⟨-, h4⟩
    · rw [h4]
      have hstr : (d.acted bet.isNeg c (cleanBet b c lo up)).moveAction.street = d.street := rfl
      rw [hstr]
      unfold opt
      rw [moved_option hmv (by rw [hsd.streetOption]; exact hi) hin2, (acted_nums hd _ _ _ i hi).2.2.2, seat_some ha]
      by_cases hai : a = i
      · subst hai
        simp
      · rw [if_neg hai]
        have ih := ih hi hin3
        unfold opt at ih
        rw [ih]
        constructor
        · rintro ⟨m, h1, h2⟩; exact ⟨m, by simp [h1], h2⟩
        · rintro ⟨m, h1, h2⟩
          rw [List.mem_append, List.mem_singleton] at h1
          rcases h1 with h1 | rfl
          · exact ⟨m, h1, h2⟩
          · exact absurd h2.2 hai
    · rw [h4, nextStreet_opt (moveAction_seated hsd) i hi]
      constructor
      · intro h5; exact absurd hin2 h5
      · rintro ⟨m, h1, h2, -⟩
        exfalso
        rw [nextStreet_street (d := (d.acted bet.isNeg c (cleanBet b c lo up)).moveAction) hst] at h2
        have h5 : m.street ≤ d.street := by
          rw [List.mem_append, List.mem_singleton] at h1
          rcases h1 with h1 | rfl
          · exact trace_street ht m h1
          · exact le_refl _
        rw [h2] at h5
        split at h5
        · exact absurd h5 (Nat.not_le.2 hst)
        · exact absurd h5 (Nat.not_succ_le_self _)

/-- play some bets, keeping the trace -/
def traceFrom (d : Dealer) (ms : List Move) : List Int → Except Err (Dealer × List Move)
  | [] => .ok (d, ms)
  | b :: bs =>
    match d.action with
    | none => .error .assertionError
    | some a =>
      match d.step (.fin b) with
      | (d', .ok _) => traceFrom d' (ms ++ [⟨d.street, a, min (toCall d a) (stack d a), moved d d' a⟩]) bs
      | (_, .error e) => .error e

theorem traceFrom_ok {S : List Int} {d d' : Dealer} {ms ms' : List Move} {bs : List Int} (h : HandTrace S d ms)
    (hf : traceFrom d ms bs = .ok (d', ms')) : HandTrace S d' ms' := by
  induction bs generalizing d ms with
  | nil =>
    simp only [traceFrom, Except.ok.injEq, Prod.mk.injEq] at hf
    obtain ⟨rfl, rfl⟩ := hf
    exact h
  | cons b bs ih =>
    rw [traceFrom] at hf
    split at hf
    · simp at hf
    · next a ha =>
      split at hf
      · next d1 out hs => exact ih (HandTrace.step h ha hs) hf
      · simp at hf

theorem traceFrom_reachable {d d' : Dealer} {ms ms' : List Move} {bs : List Int} (h : Reachable d)
    (hf : traceFrom d ms bs = .ok (d', ms')) : Reachable d' := by
  induction bs generalizing d ms with
  | nil =>
    simp only [traceFrom, Except.ok.injEq, Prod.mk.injEq] at hf
    obtain ⟨rfl, rfl⟩ := hf
    exact h
  | cons b bs ih =>
    rw [traceFrom] at hf
    split at hf
    · simp at hf
    · next a ha =>
      split at hf
      · next d1 out hs =>
        have := Reachable.step (PyNum.fin b) h
        rw [hs] at this
        exact ih this hf
      · simp at hf

/-- From a computation to a state of a hand with its actions. -/
theorem trace_exists {a : DealerArgs} {bs : List Int} {f : Dealer → List Move → Bool}
    (h : (Dealer.new a id).bind (fun d => match d.reset true false id with
      | (d', .ok _) => (traceFrom d' [] bs).bind fun r => .ok (f r.1 r.2)
      | (_, .error e) => .error e) = .ok true) :
    ∃ d ms, HandTrace (List.replicate a.numPlayers.toNat a.startStack) d ms ∧ f d ms = true := by
  cases hn : Dealer.new a id with
  | error e => rw [hn] at h; simp [Except.bind] at h
  | ok d0 =>
    rw [hn] at h
    simp only [Except.bind] at h
    split at h
    · next d1 obs1 hr =>
      have h1 := HandTrace.dealt (rs := false) (new_seated hn) (fun l => List.Perm.refl l) hr
      rw [show startStacks d0 false = d0.stacks from rfl, (new_stacks hn).1] at h1
      cases ht : traceFrom d1 [] bs with
      | error e => rw [ht] at h; simp at h
      | ok r =>
        rw [ht] at h
        simp only [Except.ok.injEq] at h
        exact ⟨r.1, r.2, traceFrom_ok h1 ht, h⟩
    · simp at h

/-- The same for a hand that is not the first one. -/
theorem trace_exists2 {a : DealerArgs} {cs : List Cmd} {bs : List Int} {f : List Int → Dealer → List Move → Bool}
    (h : (playTable a cs).bind (fun r => match r.2.1.reset false false id with
      | (d', .ok _) => (traceFrom d' [] bs).bind fun q => .ok (f r.2.1.stacks q.1 q.2)
      | (_, .error e) => .error e) = .ok true) :
    ∃ S d ms, HandTrace S d ms ∧ Reachable d ∧ f S d ms = true := by
  cases hp : playTable a cs with
  | error e => rw [hp] at h; simp [Except.bind] at h
  | ok r =>
    rw [hp] at h
    simp only [Except.bind] at h
    have hr := (playTable_ok hp).2.1
    split at h
    · next d1 obs1 hrs =>
      have h1 := HandTrace.dealt (rs := false) (reachable_seated hr) isShuffle_id hrs
      have h2 := Reachable.reset false false isShuffle_id hr
      rw [hrs] at h2
      cases ht : traceFrom d1 [] bs with
      | error e => rw [ht] at h; simp at h
      | ok q =>
        rw [ht] at h
        simp only [Except.ok.injEq] at h
        exact ⟨_, q.1, q.2, traceFrom_ok h1 ht, traceFrom_reachable h2 ht, h⟩
    · simp at h

/-- A step of a hand and the actions before it, from a computation. -/
theorem trace_step (a : DealerArgs) (cs : List Cmd) (bs : List Int) (bet : PyNum)
    {P : List Int → Dealer → List Move → Dealer → StepOut → Prop} [∀ S d ms d' out, Decidable (P S d ms d' out)]
    (h : (playTable a cs).bind (fun r => match r.2.1.reset false false id with
      | (d, .ok _) => (traceFrom d [] bs).bind fun q => match q.1.step bet with
        | (d', .ok out) => .ok (decide (P r.2.1.stacks q.1 q.2 d' out))
        | (_, .error e) => .error e
      | (_, .error e) => .error e) = .ok true) :
    ∃ S d ms d' out, HandTrace S d ms ∧ Reachable d ∧ d.step bet = (d', .ok out) ∧ P S d ms d' out := by
  cases hp : playTable a cs with
  | error e => rw [hp] at h; simp [Except.bind] at h
  | ok r =>
    rw [hp] at h
    simp only [Except.bind] at h
    have hr := (playTable_ok hp).2.1
    split at h
    · next d1 obs1 hrs =>
      have h1 := HandTrace.dealt (rs := false) (reachable_seated hr) isShuffle_id hrs
      have h2 := Reachable.reset false false isShuffle_id hr
      rw [hrs] at h2
      cases ht : traceFrom d1 [] bs with
      | error e => rw [ht] at h; simp at h
      | ok q =>
        rw [ht] at h
        simp only at h
        split at h
        · next d' out hs =>
          simp only [Except.ok.injEq, decide_eq_true_eq] at h
          exact ⟨_, q.1, q.2, d', out, traceFrom_ok h1 ht, traceFrom_reachable h2 ht, hs, h⟩
        · simp at h
    · simp at h

end Clubs
