import Verif.Lemmas.Terminate

/-!
# The course of a hand: C34–C38
-/

namespace Clubs

open Spec

/-! ## C34 -/

/-- what the acting player can call with -/
def callAmount (d : Dealer) (a : Nat) : Int := min (toCall d a) (stack d a)

variable {S : List Int} {d d' : Dealer} {a : Nat} {bet : PyNum} {out : StepOut}

theorem view_call {b c lo hi : Int} {x : Dealer} {p : List Int} (ha : d.action = some a)
    (v : View S d d' bet out b c lo hi x p) : c = callAmount d a := by
  obtain ⟨rs, nr, -, -, h1, -⟩ := betSizes_spec v.sizes
  rw [seat_some ha] at h1
  exact h1

theorem view_isIn {b c lo hi : Int} {x : Dealer} {p : List Int} (hd : Seated d) (v : View S d d' bet out b c lo hi x p)
    (i : Nat) (hi' : i < d.cfg.numPlayers) :
    isIn d' i ↔ isIn d i ∧ ¬ (d.seat = i ∧ c ≠ 0 ∧ (cleanBet b c lo hi < c ∨ bet.isNeg = true)) := by
  rw [← acted_isIn hd bet.isNeg c (cleanBet b c lo hi) i hi']
  unfold isIn
  rw [v.same.2.1, v.eq, (afterBet_fields _ _ _ _).2.1]

/-- **C34**: a step folds the acting player if and only if it puts in less than the call amount. (Players in debt aside.) -/
theorem C34_fold_iff (h : InHand S d) (hn : NonNegative S d.cfg) (ha : d.action = some a) (hs0 : 0 ≤ stack d a)
    (hs : d.step bet = (d', .ok out)) : ¬ isIn d' a ↔ moved d d' a < callAmount d a := by
  obtain ⟨b, c, lo, hi, x, p, v⟩ := step_view h ha hs
  have hl := (live_of_action h ha).1
  have hlt := hl.seated.action a ha
  have hin : isIn d a := by
    obtain ⟨a', h1, h2⟩ := hl.action
    rw [ha] at h1
    obtain rfl : a = a' := by simpa using h1
    exact h2
  have hc := view_call ha v
  have hmv := v.moved hl.seated a hlt
  rw [view_isIn hl.seated v a hlt]
  have hx := cleanBet_le v.sizes b
  have hx0 := betOf_nonneg (b := b) hl.seated (nn_pot hl (nn_of_action h hn ha)) v.sizes bet.isNeg
  have hc0 : 0 ≤ toCall d a := by have := call_nonneg hl.seated; rw [seat_some ha] at this; exact this
  rw [seat_some ha] at *
  rw [if_pos rfl] at hmv
  have hca : callAmount d a = min (toCall d a) (stack d a) := rfl
  simp only [hin, true_and, not_not]
  rw [← hc]
  unfold betOf at hmv hx0
  split at hmv
  · next hf =>
    rw [hmv]
    constructor
    · intro _; omega
    · intro _; exact hf
  · next hf =>
    rw [if_neg hf] at hx0
    rw [hmv]
    constructor
    · intro h1; exact absurd h1 hf
    · intro h1
      exact ⟨by omega, .inl (by omega)⟩

theorem isNeg_iff (bet : PyNum) : bet.isNeg = true ↔ BelowZero bet := by
  cases bet <;> simp [PyNum.isNeg, BelowZero]

/-- **C34**: a player who faces a bet and bets a negative number is folded and puts in nothing. -/
theorem C34_negative (h : InHand S d) (ha : d.action = some a) (hs : d.step bet = (d', .ok out)) (hneg : BelowZero bet)
    (hcall : 0 < callAmount d a) : ¬ isIn d' a ∧ moved d d' a = 0 := by
  obtain ⟨b, c, lo, hi, x, p, v⟩ := step_view h ha hs
  have hl := (live_of_action h ha).1
  have hlt := hl.seated.action a ha
  have hc := view_call ha v
  have hmv := v.moved hl.seated a hlt
  rw [view_isIn hl.seated v a hlt]
  have hf : c ≠ 0 ∧ (cleanBet b c lo hi < c ∨ bet.isNeg = true) := ⟨by omega, .inr ((isNeg_iff bet).2 hneg)⟩
  refine ⟨fun h1 => h1.2 ⟨seat_some ha, hf⟩, ?_⟩
  rw [if_pos (seat_some ha)] at hmv
  unfold betOf at hmv
  rw [if_pos hf, seat_some ha] at hmv
  have hca : callAmount d a = min (toCall d a) (stack d a) := rfl
  omega

/-- **C34**: a player in debt is folded by negative bets only. -/
theorem C34_debt (h : InHand S d) (ha : d.action = some a) (hs0 : stack d a < 0) (hs : d.step bet = (d', .ok out)) :
    ¬ isIn d' a ↔ BelowZero bet := by
  rw [← isNeg_iff]
  obtain ⟨b, c, lo, hi, x, p, v⟩ := step_view h ha hs
  have hl := (live_of_action h ha).1
  have hlt := hl.seated.action a ha
  have hc := view_call ha v
  obtain ⟨-, hle2, hle3⟩ := betSizes_le v.sizes
  have hin : isIn d a := by
    obtain ⟨a', h1, h2⟩ := hl.action
    rw [ha] at h1
    obtain rfl : a = a' := by simpa using h1
    exact h2
  rw [view_isIn hl.seated v a hlt]
  rw [seat_some ha] at *
  have hca : callAmount d a = min (toCall d a) (stack d a) := rfl
  have hc0 : c < 0 := by omega
  have hx : cleanBet b c lo hi = 0 := by
    have hB : 0 ≤ max 0 b := le_max_left _ _
    have key : ∀ v : Int, v < 0 → ¬ |v - max 0 b| < |0 - max 0 b| := by
      intro v hv
      rw [abs_of_neg (by omega), abs_of_nonpos (by omega)]
      omega
    rcases cleanBet_cases b c lo hi with ⟨-, -, -, e⟩ | ⟨e, -⟩ | ⟨e, -⟩ | ⟨e, -⟩
    · exact e
    · exact absurd e (key _ hc0)
    · exact absurd e (key _ (by omega))
    · exact absurd e (key _ (by omega))
  rw [hx]
  constructor
  · intro h1
    by_contra h2
    refine h1 ⟨hin, ?_⟩
    rintro ⟨-, -, h3 | h3⟩
    · omega
    · exact h2 h3
  · intro h1 h2
    exact h2.2 ⟨rfl, by omega, .inr h1⟩

/-- **C34**: a player who can check, or is all-in, is not folded by any bet. -/
theorem C34_check (h : InHand S d) (ha : d.action = some a) (hs : d.step bet = (d', .ok out))
    (hcall : toCall d a = 0 ∧ 0 ≤ stack d a ∨ stack d a = 0) : isIn d' a := by
  obtain ⟨b, c, lo, hi, x, p, v⟩ := step_view h ha hs
  have hl := (live_of_action h ha).1
  have hlt := hl.seated.action a ha
  have hc := view_call ha v
  have hc0 : 0 ≤ toCall d a := by have := call_nonneg hl.seated; rw [seat_some ha] at this; exact this
  have hin : isIn d a := by
    obtain ⟨a', h1, h2⟩ := hl.action
    rw [ha] at h1
    obtain rfl : a = a' := by simpa using h1
    exact h2
  rw [view_isIn hl.seated v a hlt]
  refine ⟨hin, fun h1 => h1.2.1 ?_⟩
  have hca : callAmount d a = min (toCall d a) (stack d a) := rfl
  omega

/-- **C34**: no step changes whether another player is in. -/
theorem C34_others (h : InHand S d) (ha : d.action = some a) (hs : d.step bet = (d', .ok out)) {i : Nat}
    (hi : i < d.cfg.numPlayers) (hia : i ≠ a) : isIn d' i ↔ isIn d i := by
  obtain ⟨b, c, lo, up, x, p, v⟩ := step_view h ha hs
  rw [view_isIn (live_of_action h ha).1.seated v i hi]
  constructor
  · exact fun h1 => h1.1
  · intro h1
    refine ⟨h1, fun h2 => hia ?_⟩
    rw [← h2.1, seat_some ha]

/-- **C34**: nobody comes back before the next `reset`, whatever the steps do, exceptions included. -/
theorem C34_permanent (h : InHand S d) (bet : PyNum) {i : Nat} (hi : i < d.cfg.numPlayers) (hin : isIn (d.step bet).1 i) :
    isIn d i := by
  cases ha : d.action with
  | none => rwa [step_none ha] at hin
  | some a =>
    have hd := (live_of_action h ha).1.seated
    have key : ∀ (c y : Int) (x : Dealer), x = d.afterBet bet.isNeg c y → isIn x i → isIn d i := by
      intro c y x hx h1
      have : isIn (d.acted bet.isNeg c y) i := by
        unfold isIn at *
        rw [hx, (afterBet_fields _ _ _ _).2.1] at h1
        exact h1
      exact ((acted_isIn hd _ _ _ i hi).1 this).1
    cases step_cases h ha bet with
    | refused e h => rwa [h] at hin
    | stuck b c lo hi e x hb hs hx hlx hp h => rw [h] at hin; exact key _ _ x hx hin
    | goesOn b c lo hi p x obs hb hs hx hlx hp hd ho h => rw [h] at hin; exact key _ _ x hx hin
    | ended b c lo hi p x obs hb hs hx hlx hp hd ho h => rw [h] at hin; exact key _ _ x hx hin

/-- a player who faces a bet, folds by betting too little -/
example : ∃ S d d' out, InHand S d ∧ Reachable d ∧ d.step (.fin 1) = (d', .ok out) ∧ NonNegative S d.cfg ∧ d.action = some 1 ∧
    0 ≤ stack d 1 ∧ callAmount d 1 = 5 ∧ isIn d 1 ∧ ¬ isIn d' 1 ∧ moved d d' 1 = 0 ∧ isIn d' 0 ∧ isIn d' 2 := by
  unfold callAmount
  exact step_exists (small 3 [1, 2, 0] 20) [.bet 6] (.fin 1) (by decide +kernel)

/-- one who bets enough does not, nor one who can check, whatever they bet -/
example : (∃ S d d' out, InHand S d ∧ Reachable d ∧ d.step (.fin 4) = (d', .ok out) ∧ NonNegative S d.cfg ∧ d.action = some 1 ∧
    0 ≤ stack d 1 ∧ toCall d 1 = 5 ∧ isIn d' 1 ∧ moved d d' 1 = 5) ∧
    ∃ S d d' out, InHand S d ∧ Reachable d ∧ d.step (.fin (-3)) = (d', .ok out) ∧ d.action = some 2 ∧ toCall d 2 = 0 ∧
      0 ≤ stack d 2 ∧ isIn d' 2 :=
  ⟨step_exists (small 3 [1, 2, 0] 20) [.bet 6] (.fin 4) (by decide +kernel),
    step_exists (small 3 [1, 2, 0] 20) [.bet 2, .bet 1] (.fin (-3)) (by decide +kernel)⟩

/-! ## C35 -/

/-- **C35**: the seat to act is in. -/
theorem C35_isIn (h : InHand S d) (ha : d.action = some a) : a < d.cfg.numPlayers ∧ isIn d a := by
  have hl := (live_of_action h ha).1
  obtain ⟨a', h1, h2⟩ := hl.action
  rw [ha] at h1
  obtain rfl : a = a' := by simpa using h1
  exact ⟨hl.seated.action a ha, h2⟩

/-- **C35**: after a step on the same street it is the turn of the next seat clockwise that is in; on a new street, of the
first seat after the button that is in. -/
theorem C35_next (h : InHand S d) (ha : d.action = some a) (hs : d.step bet = (d', .ok out)) {a' : Nat}
    (ha' : d'.action = some a') :
    d'.button = d.button ∧ FirstAfter d.cfg.numPlayers (isIn d') (if d'.street = d.street then a else d.button) a' := by
  obtain ⟨b, c, lo, hi, x, p, v⟩ := step_view h ha hs
  obtain ⟨hl, h2⟩ := live_of_action h ha
  have hst : d.street < d.cfg.numStreets := by
    by_contra hcon
    have := v.sizes
    rw [betSizes_error hl.seated (by omega)] at this
    simp at this
  have hbtn : d'.button = d.button := by rw [v.same.2.2.1, v.eq, (afterBet_fields _ _ _ _).2.2.1]
  refine ⟨hbtn, ?_⟩
  rcases v.res with ⟨rfl, -⟩ | ⟨rfl, -⟩
  · have hd := hl.seated
    obtain ⟨a0, ha0, hain⟩ := hl.action
    have hs := acted_seated hd bet.isNeg c (cleanBet b c lo hi)
    have hcnt := acted_count hd ha0 hain (h2 hst) bet.isNeg c (cleanBet b c lo hi)
    obtain ⟨a2, hmv⟩ := moveAction_spec (d := d.acted bet.isNeg c (cleanBet b c lo hi)) hs.active hcnt
    have heq := v.eq
    rcases afterBet_cases d bet.isNeg c (cleanBet b c lo hi) with ⟨-, h4⟩ | ⟨-, h4⟩
    · rw [h4] at heq
      have hsame : d'.street = d.street := by rw [heq]; rfl
      rw [if_pos hsame]
      have h5 := hmv.first
      have h6 : d'.action = some a2 := by rw [heq, hmv.eq]
      rw [ha'] at h6
      obtain rfl : a' = a2 := by simpa using h6
      rw [acted_seat, seat_some ha] at h5
      have : isIn d' = isIn (d.acted bet.isNeg c (cleanBet b c lo hi)) := by
        funext i; unfold isIn; rw [heq]; rfl
      rw [this]; exact h5
    · rw [h4] at heq
      have hdiff : d'.street ≠ d.street := by
        rw [heq, nextStreet_street (d := (d.acted bet.isNeg c (cleanBet b c lo hi)).moveAction) hst]
        split
        · exact Nat.ne_of_gt hst
        · exact Nat.succ_ne_self _
      rw [if_neg hdiff]
      generalize hg : (d.acted bet.isNeg c (cleanBet b c lo hi)).moveAction = g at heq
      have hg1 : g.active = (d.acted bet.isNeg c (cleanBet b c lo hi)).active := by rw [← hg]; rfl
      have hg2 : g.cfg = d.cfg := by rw [← hg]; rfl
      have hg3 : g.button = d.button := by rw [← hg]; rfl
      obtain ⟨a3, hmv3⟩ := moveAction_spec (d := { g with action := some g.button })
        (by show g.active.length = _; rw [hg1, hg2]; exact hs.active) (by show 1 ≤ countTrue g.active; rw [hg1]; exact hcnt)
      have h6 : d'.action = some a3 := by
        rw [heq]
        unfold Dealer.nextStreet
        simp only []
        rw [dealStreets_fields]
        simp only []
        rw [hmv3.eq]
      rw [ha'] at h6
      obtain rfl : a' = a3 := by simpa using h6
      have h5 := hmv3.first
      have h7 : ({ g with action := some g.button } : Dealer).seat = d.button := by
        show g.button = _; exact hg3
      rw [h7] at h5
      have : isIn d' = isIn ({ g with action := some g.button } : Dealer) := by
        funext i
        unfold isIn
        rw [heq, (nextStreet_fields g).2.2.2.2.1]
      rw [this, ← hg2]
      exact h5
  · simp [Dealer.settle] at ha'

/-- the action skips a seat that folded, and on the next street starts after the button -/
example : (∃ S d d' out, InHand S d ∧ Reachable d ∧ d.step (.fin 16) = (d', .ok out) ∧ d.action = some 3 ∧
    ¬ isIn d 0 ∧ d'.action = some 1 ∧ d'.street = d.street) ∧
    ∃ S d d' out, InHand S d ∧ Reachable d ∧ d.step (.fin 0) = (d', .ok out) ∧ d.action = some 2 ∧
      d.button = 0 ∧ ¬ isIn d 1 ∧ d'.action = some 2 ∧ d'.street ≠ d.street :=
  ⟨step_exists (small 4 [1, 2, 0, 0] 20) [.bet 4, .bet (-1), .bet 9, .bet (-1)] (.fin 16) (by decide +kernel),
    step_exists (small 3 [1, 2, 0] 20) [.bet 2, .bet (-1)] (.fin 0) (by decide +kernel)⟩

/-! ## C36 -/

/-- chips in front of a seat and its bet on the street right after the acting seat has put in its chips -/
def stackThen (d d' : Dealer) (i : Nat) : Int := stack d i - moved d d' i
def betThen (d d' : Dealer) (i : Nat) : Int := streetBet d i + moved d d' i

theorem pyMax_eq_iff {l : List Int} {i : Nat} (hi : i < l.length) :
    l.getD i 0 = pyMax l ↔ ∀ j < l.length, l.getD j 0 ≤ l.getD i 0 := by
  constructor
  · intro h j hj; rw [h]; exact pyMax_getD hj
  · intro h
    apply le_antisymm (pyMax_getD hi)
    have hne : l ≠ [] := by intro h; rw [h] at hi; simp at hi
    obtain ⟨j, hj, e⟩ := (mem_getD 0).1 (pyMax_mem hne)
    rw [← e]; exact h j hj

/-- **C36**: the street ends with a step if and only if every player who is in has acted on it and every one of them who
has chips left has put in as much as everybody else. -/
theorem C36_street_ends {ms : List Move} (h : HandTrace S d ms) (ha : d.action = some a) (hs : d.step bet = (d', .ok out)) :
    d'.street ≠ d.street ↔
      (∀ i < d.cfg.numPlayers, isIn d' i → i = a ∨ ∃ m ∈ ms, m.street = d.street ∧ m.seat = i) ∧
      ∀ i < d.cfg.numPlayers, isIn d' i → stackThen d d' i ≠ 0 → ∀ j < d.cfg.numPlayers, betThen d d' j ≤ betThen d d' i := by
  have hinH := trace_inHand h
  obtain ⟨b, c, lo, up, x, p, v⟩ := step_view hinH ha hs
  obtain ⟨hl, hc2⟩ := live_of_action hinH ha
  have hst := view_running hl.seated v
  have hd := hl.seated
  obtain ⟨-, s2, -, -, -, -, -, -, -, s10, -, s12, -⟩ := v.same
  obtain ⟨a0, ha0, hain⟩ := hl.action
  have hsd := acted_seated hd bet.isNeg c (cleanBet b c lo up)
  have hcnt := acted_count hd ha0 hain (hc2 hst) bet.isNeg c (cleanBet b c lo up)
  obtain ⟨a2, hmv⟩ := moveAction_spec (d := d.acted bet.isNeg c (cleanBet b c lo up)) hsd.active hcnt
  have hopti := afterBet_optInv (fold := bet.isNeg) (c := c) (x := cleanBet b c lo up) hl (hc2 hst) (optInv_of_inHand hinH)
  have hisIn : ∀ i, isIn d' i ↔ isIn (d.acted bet.isNeg c (cleanBet b c lo up)).moveAction i := by
    intro i
    unfold isIn
    rw [s2, v.eq, (afterBet_fields _ _ _ _).2.1]
    rfl
  have hnum : ∀ i < d.cfg.numPlayers,
      stack (d.acted bet.isNeg c (cleanBet b c lo up)).moveAction i = stackThen d d' i ∧
      streetBet (d.acted bet.isNeg c (cleanBet b c lo up)).moveAction i = betThen d d' i := by
    intro i hi
    have hm := v.moved hd i hi
    obtain ⟨n1, -, n3, -⟩ := acted_nums hd bet.isNeg c (cleanBet b c lo up) i hi
    unfold stackThen betThen
    rw [hm]
    exact ⟨n1, n3⟩
  have hagree : (d.acted bet.isNeg c (cleanBet b c lo up)).moveAction.allAgreed = true ↔
      (∀ i < d.cfg.numPlayers, isIn d' i → i = a ∨ ∃ m ∈ ms, m.street = d.street ∧ m.seat = i) ∧
      ∀ i < d.cfg.numPlayers, isIn d' i → stackThen d d' i ≠ 0 → ∀ j < d.cfg.numPlayers, betThen d d' j ≤ betThen d d' i := by
    rw [allAgreed_iff (moveAction_seated hsd)]
    apply and_congr
    · have hopt : ∀ i < d.cfg.numPlayers, isIn d' i →
          (opt (d.acted bet.isNeg c (cleanBet b c lo up)).moveAction i ↔
            (i = a ∨ ∃ m ∈ ms, m.street = d.street ∧ m.seat = i)) := by
        intro i hi hin
        have hin2 := (hisIn i).1 hin
        have hin3 : isIn d i := ((acted_isIn hd _ _ _ i hi).1 hin2).1
        unfold opt
        rw [moved_option hmv (by rw [hsd.streetOption]; exact hi) hin2, (acted_nums hd _ _ _ i hi).2.2.2, seat_some ha]
        have := trace_opt h i hi hin3
        unfold opt at this
        by_cases hai : a = i
        · rw [if_pos hai]; simp [hai]
        · rw [if_neg hai, this]
          constructor
          · exact .inr
          · rintro (h1 | h1)
            · exact absurd h1.symm hai
            · exact h1
      constructor
      · intro h1 i hi hin
        exact (hopt i hi hin).1 (h1 i hi)
      · intro h1
        apply options_all (moveAction_seated hsd) hcnt
        · exact moved_optInv hsd hmv fun p hp hps ho =>
            acted_optInv hd (optInv_of_inHand hinH) bet.isNeg c (cleanBet b c lo up) p hp hps ho
        · intro i hi hin
          exact (hopt i hi ((hisIn i).2 hin)).2 (h1 i hi ((hisIn i).2 hin))
    · constructor
      · intro h1 i hi hin hne j hj
        have h2 := h1 i hi ((hisIn i).1 hin) (by rw [(hnum i hi).1]; exact hne)
        have hlen := (moveAction_seated hsd).streetCommits
        have h3 := (pyMax_eq_iff (by rw [hlen]; exact hi)).1 h2 j (by rw [hlen]; exact hj)
        rw [← (hnum i hi).2, ← (hnum j hj).2]
        exact h3
      · intro h1 i hi hin hne
        rw [(hnum i hi).1] at hne
        have hlen := (moveAction_seated hsd).streetCommits
        apply (pyMax_eq_iff (by rw [hlen]; exact hi)).2
        intro j hj
        rw [hlen] at hj
        have h2 := h1 i hi ((hisIn i).2 hin) hne j hj
        rw [← (hnum i hi).2, ← (hnum j hj).2] at h2
        exact h2
  rw [← hagree, s10, v.eq]
  rcases afterBet_cases d bet.isNeg c (cleanBet b c lo up) with ⟨h3, h4⟩ | ⟨h3, h4⟩
  · rw [h4, h3]
    constructor
    · intro h5; exact absurd rfl h5
    · intro h5; simp at h5
  · rw [h4, h3]
    simp only [iff_true]
    rw [nextStreet_street (d := (d.acted bet.isNeg c (cleanBet b c lo up)).moveAction) hst]
    split
    · exact Nat.ne_of_gt hst
    · exact Nat.succ_ne_self _

theorem allAllIn_iff {d : Dealer} (h : Seated d) : d.allAllIn = true ↔
    ∀ i < d.cfg.numPlayers, ∀ j < d.cfg.numPlayers, isIn d i → isIn d j → stack d i ≠ 0 → stack d j ≠ 0 → i = j := by
  have key : ∀ (act : List Bool) (st : List Int), act.length = st.length →
      (countTrue act : Int) - countTrue (List.zipWith (fun (a : Bool) s => a && s == 0) act st) =
      countTrue (List.zipWith (fun (a : Bool) (s : Int) => a && !(s == 0)) act st) := by
    intro act
    induction act with
    | nil => intro st _; simp [countTrue]
    | cons x act ih =>
      intro st hst
      cases st with
      | nil => simp at hst
      | cons s st =>
        have := ih st (by simpa using hst)
        unfold countTrue at this ⊢
        rw [List.zipWith_cons_cons, List.zipWith_cons_cons, List.count_cons, List.count_cons, List.count_cons]
        cases x <;> by_cases hs : s = 0 <;> simp [hs] <;> omega
  unfold Dealer.allAllIn
  simp only [decide_eq_true_eq]
  rw [key _ _ (by rw [h.active, h.stacks])]
  have hlen : (List.zipWith (fun (a : Bool) (s : Int) => a && !(s == 0)) d.active d.stacks).length = d.cfg.numPlayers := by
    simp [h.active, h.stacks]
  have hget : ∀ i < d.cfg.numPlayers, (List.zipWith (fun (a : Bool) (s : Int) => a && !(s == 0)) d.active d.stacks).getD i false = true ↔
      isIn d i ∧ stack d i ≠ 0 := by
    intro i hi
    rw [getD_zipWith _ _ _ _ false 0 _ (by rw [h.active]; exact hi) (by rw [h.stacks]; exact hi)]
    unfold isIn stack
    simp
  constructor
  · intro h1 i hi j hj i1 j1 i2 j2
    by_contra hij
    have := two_countTrue (l := List.zipWith (fun (a : Bool) (s : Int) => a && !(s == 0)) d.active d.stacks)
      (by rw [hlen]; exact hi) (by rw [hlen]; exact hj) hij ((hget i hi).2 ⟨i1, i2⟩) ((hget j hj).2 ⟨j1, j2⟩)
    omega
  · intro h1
    by_contra hcon
    have h2 : 2 ≤ countTrue (List.zipWith (fun (a : Bool) (s : Int) => a && !(s == 0)) d.active d.stacks) := by omega
    obtain ⟨j, hj, hj2⟩ := countTrue_pos.1 (show 1 ≤ countTrue (List.zipWith (fun (a : Bool) (s : Int) => a && !(s == 0)) d.active d.stacks) by omega)
    obtain ⟨i, hi, hij, hi2⟩ := countTrue_two h2 j
    rw [hlen] at hi hj
    exact hij (h1 i hi j hj ((hget i hi).1 hi2).1 ((hget j hj).1 hj2).1 ((hget i hi).1 hi2).2 ((hget j hj).1 hj2).2)

open Classical in
/-- **C36**: when the street ends, the next one begins; but if at most one of the players who are in has chips left, all
remaining streets are over at once. -/
theorem C36_next_street (h : InHand S d) (ha : d.action = some a) (hs : d.step bet = (d', .ok out))
    (hne : d'.street ≠ d.street) :
    d'.street = if ∀ i < d.cfg.numPlayers, ∀ j < d.cfg.numPlayers, isIn d' i → isIn d' j →
        stackThen d d' i ≠ 0 → stackThen d d' j ≠ 0 → i = j then d.cfg.numStreets else d.street + 1 := by
  obtain ⟨b, c, lo, up, x, p, v⟩ := step_view h ha hs
  obtain ⟨hl, -⟩ := live_of_action h ha
  have hst := view_running hl.seated v
  have hd := hl.seated
  obtain ⟨-, s2, -, -, -, -, -, -, -, s10, -, s12, -⟩ := v.same
  have hsd := acted_seated hd bet.isNeg c (cleanBet b c lo up)
  rw [v.eq] at s10
  rcases afterBet_cases d bet.isNeg c (cleanBet b c lo up) with ⟨-, h4⟩ | ⟨-, h4⟩
  · rw [h4] at s10
    exact absurd s10 hne
  · rw [s10, h4, nextStreet_street (d := (d.acted bet.isNeg c (cleanBet b c lo up)).moveAction) hst]
    have hiff := allAllIn_iff (moveAction_seated hsd)
    have e1 : ∀ i, isIn d' i ↔ isIn (d.acted bet.isNeg c (cleanBet b c lo up)).moveAction i := by
      intro i
      unfold isIn
      rw [s2, v.eq, (afterBet_fields _ _ _ _).2.1]
      rfl
    have e2 : ∀ i < d.cfg.numPlayers, stack (d.acted bet.isNeg c (cleanBet b c lo up)).moveAction i = stackThen d d' i := by
      intro i hi
      unfold stackThen
      rw [v.moved hd i hi]
      exact (acted_nums hd bet.isNeg c (cleanBet b c lo up) i hi).1
    have hiff2 : (d.acted bet.isNeg c (cleanBet b c lo up)).moveAction.allAllIn = true ↔
        ∀ i < d.cfg.numPlayers, ∀ j < d.cfg.numPlayers, isIn d' i → isIn d' j →
        stackThen d d' i ≠ 0 → stackThen d d' j ≠ 0 → i = j := by
      rw [hiff]
      constructor
      · intro h1 i hi j hj i1 j1 i2 j2
        exact h1 i hi j hj ((e1 i).1 i1) ((e1 j).1 j1) (by rw [e2 i hi]; exact i2) (by rw [e2 j hj]; exact j2)
      · intro h1 i hi j hj i1 j1 i2 j2
        exact h1 i hi j hj ((e1 i).2 i1) ((e1 j).2 j1) (by rw [← e2 i hi]; exact i2) (by rw [← e2 j hj]; exact j2)
    by_cases hc : (d.acted bet.isNeg c (cleanBet b c lo up)).moveAction.allAllIn = true
    · rw [if_pos hc, if_pos (hiff2.1 hc)]; rfl
    · rw [if_neg hc, if_neg (fun h1 => hc (hiff2.2 h1))]; rfl

/-- a street that ends, one that does not although all bets are equal, and one that is the last since only one player has
chips -/
example : (∃ S d ms d' out, HandTrace S d ms ∧ Reachable d ∧ d.step (.fin 0) = (d', .ok out) ∧
      d.action = some 0 ∧ ms.length = 2 ∧ d'.street = d.street + 1) ∧
    (∃ S d ms d' out, HandTrace S d ms ∧ Reachable d ∧ d.step (.fin 1) = (d', .ok out) ∧
      d.action = some 2 ∧ ms.length = 1 ∧ betThen d d' 0 = 2 ∧ betThen d d' 1 = 2 ∧ betThen d d' 2 = 2 ∧ d'.street = d.street) ∧
    ∃ S d ms d' out, HandTrace S d ms ∧ Reachable d ∧ d.step (.fin (-1)) = (d', .ok out) ∧
      d.action = some 0 ∧ d.street = 0 ∧ stackThen d d' 2 = 4 ∧ stackThen d d' 1 = 0 ∧ d'.street = d.cfg.numStreets := by
  unfold betThen stackThen
  exact ⟨trace_step (small 3 [1, 2, 0] 20) [.bet (-1), .bet (-1)] [2, 1] (.fin 0) (by decide +kernel),
    trace_step (small 3 [1, 2, 0] 20) [.bet (-1), .bet (-1)] [2] (.fin 1) (by decide +kernel),
    trace_step (small 3 [1, 2, 0] 20) [.bet 2, .bet (-1), .bet 0, .bet 0, .bet 0] [20, 18] (.fin (-1)) (by decide +kernel)⟩

/-! ## C37 -/

/-- the table after `k` of the bets -/
def afterBets (d : Dealer) (bets : Nat → Rat) : Nat → Dealer
  | 0 => d
  | k + 1 => ((afterBets d bets k).step (.fin (bets k))).1

/-- The hand is over: nobody is to act, or all streets have been dealt and comparing the hands raises an exception. -/
def Over (d : Dealer) : Prop := d.action = none ∨ (d.cfg.numStreets ≤ d.street ∧ ∃ e, d.payouts = .error e)

theorem afterBets_inHand (h : InHand S d) (bets : Nat → Rat) (k : Nat) : InHand S (afterBets d bets k) := by
  induction k with
  | zero => exact h
  | succ k ih => exact InHand.step _ ih

theorem afterBets_cfg (d : Dealer) (bets : Nat → Rat) (k : Nat) : (afterBets d bets k).cfg = d.cfg := by
  induction k with
  | zero => rfl
  | succ k ih => exact (step_cfg _ _).trans ih

theorem payouts_error {d : Dealer} {e : Err} (h : d.payouts = .error e) : d.cfg.numStreets ≤ d.street := by
  unfold Dealer.payouts at h
  simp only [] at h
  split at h
  · simp at h
  · split at h
    · next h2 => exact h2
    · simp at h

/-- a hand that is over stays as it is -/
theorem step_over (h : InHand S d) (ho : Over d) (bet : PyNum) : (d.step bet).1 = d := by
  rcases ho with ho | ⟨h1, -⟩
  · exact step_none ho bet
  · cases ha : d.action with
    | none => exact step_none ha bet
    | some a =>
      obtain ⟨hl, -⟩ := live_of_action h ha
      rcases step_some ha bet with ⟨e, -, he⟩ | ⟨b, e, -, -, he⟩ | ⟨b, c, lo, hi, -, hb, he⟩
      · rw [he]
      · rw [he]
      · rw [betSizes_error hl.seated h1] at hb; simp at hb

/-- a hand that is not over has a street to play -/
theorem street_or_over (h : InHand S d) : Over d ∨ ∃ a, d.action = some a ∧ d.street < d.cfg.numStreets := by
  induction h with
  | dealt hd hsh hr =>
    obtain ⟨hl, hst, -⟩ := dealt_live hd hr
    obtain ⟨a, ha, -⟩ := hl.action
    exact .inr ⟨a, ha, by rw [hst]; exact hl.oneStreet⟩
  | @step S d bet h ih =>
    rcases ih with ho | ⟨a, ha, hst⟩
    · rw [step_over h ho]; exact .inl ho
    · cases step_cases h ha bet with
      | refused e he => rw [he]; exact .inr ⟨a, ha, hst⟩
      | stuck b c lo hi e x hb hs hx hlx hp he => rw [he]; exact .inl (.inr ⟨payouts_error hp, e, hp⟩)
      | ended b c lo hi p x obs hb hs hx hlx hp hd ho he => rw [he]; exact .inl (.inl rfl)
      | goesOn b c lo hi p x obs hb hs hx hlx hp hd ho he =>
        rw [he]
        right
        obtain ⟨a', ha', -⟩ := hlx.action
        refine ⟨a', ha', ?_⟩
        show x.street < x.cfg.numStreets
        by_contra hcon
        have := (done_all_iff hlx.seated).2 (.inl (by omega))
        rw [hd] at this; simp at this

/-- Every step of a hand makes progress or ends it. -/
theorem step_less (h : InHand S d) (hn : NonNegative S d.cfg) (ha : d.action = some a) (hst : d.street < d.cfg.numStreets)
    (q : Rat) : Over (d.step (.fin q)).1 ∨ Less (progressOf (d.step (.fin q)).1) (progressOf d) := by
  have key : ∀ (b c lo hi : Int), d.betSizes = .ok (c, lo, hi) →
      Less (progressOf (d.afterBet (PyNum.fin q).isNeg c (cleanBet b c lo hi))) (progressOf d) := by
    intro b c lo hi hb
    rcases afterBet_cases d (PyNum.fin q).isNeg c (cleanBet b c lo hi) with ⟨-, h4⟩ | ⟨-, h4⟩
    · rw [h4]
      exact acted_less h hn ha hst hb
    · apply less_of
      left
      unfold streetsLeft
      rw [afterBet_cfg, h4, nextStreet_street (d := (d.acted (PyNum.fin q).isNeg c (cleanBet b c lo hi)).moveAction) hst]
      split
      · rw [show (d.acted (PyNum.fin q).isNeg c (cleanBet b c lo hi)).moveAction.cfg = d.cfg from rfl]; omega
      · rw [show (d.acted (PyNum.fin q).isNeg c (cleanBet b c lo hi)).moveAction.street = d.street from rfl]; omega
  cases step_cases h ha (.fin q) with
  | refused e he why =>
    exfalso
    obtain ⟨hl, -⟩ := live_of_action h ha
    obtain ⟨c, lo, hi, hb⟩ := betSizes_ok hl.seated hst
    rcases why with hr | hr
    · simp [pyRound] at hr
    · rw [hb] at hr; simp at hr
  | stuck b c lo hi e x hb hs hx hlx hp he => rw [he]; exact .inl (.inr ⟨payouts_error hp, e, hp⟩)
  | ended b c lo hi p x obs hb hs hx hlx hp hd ho he => rw [he]; exact .inl (.inl rfl)
  | goesOn b c lo hi p x obs hb hs hx hlx hp hd ho he => rw [he]; right; rw [hx]; exact key b c lo hi hs

/-- **C37**: whatever is bet, from every state of a hand, after finitely many steps the hand is over for good: either
nobody is to act any more, or comparing the hands raised an exception. -/
theorem C37_ends_partial (h : InHand S d) (hn : NonNegative S d.cfg) (bets : Nat → Rat) :
    ∃ k, ∀ j ≥ k, Over (afterBets d bets j) := by
  have stay : ∀ k, Over (afterBets d bets k) → ∀ j ≥ k, Over (afterBets d bets j) := by
    intro k hk j hj
    induction j, hj using Nat.le_induction with
    | base => exact hk
    | succ j hj ih =>
      show Over ((afterBets d bets j).step _).1
      rw [step_over (afterBets_inHand h bets j) ih]
      exact ih
  have main : ∀ (p : Nat × Nat × Nat × Nat × Nat) (k : Nat), progressOf (afterBets d bets k) = p →
      ∃ k', Over (afterBets d bets k') := by
    intro p
    induction p using less_wf.induction with
    | _ p ih =>
      intro k hk
      have hin := afterBets_inHand h bets k
      rcases street_or_over hin with ho | ⟨a, ha, hst⟩
      · exact ⟨k, ho⟩
      · rcases step_less hin (by rw [afterBets_cfg]; exact hn) ha hst (bets k) with ho | hl
        · exact ⟨k + 1, ho⟩
        · rw [hk] at hl
          exact ih _ hl (k + 1) rfl
  obtain ⟨k, hk⟩ := main _ 0 rfl
  exact ⟨k, stay k hk⟩

/-- **C37** is false: a hand can get stuck. At this table with three players seats 0 and 1 share a pot of five chips; the
division of the odd chip raises an exception, and every further step raises one, too. -/
theorem C37_false : ∃ S d, InHand S d ∧ Reachable d ∧ NonNegative S d.cfg ∧ ∀ bets k, (afterBets d bets k).action = some 0 := by
  obtain ⟨S, d, h1, h2, h3, h4, h5, h6⟩ := hand_exists (ties 3 [1, 2, 0] 10)
    [.bet (-1), .bet (-1), .deal, .bet 2, .bet (-1), .bet 0, .bet 0]
    (P := fun S d => NonNegative S d.cfg ∧ (d.step (.fin 0)).1.action = some 0 ∧
      (d.step (.fin 0)).1.cfg.numStreets ≤ (d.step (.fin 0)).1.street ∧
      (match (d.step (.fin 0)).1.payouts with | .error .indexError => true | _ => false) = true) (by decide +kernel)
  have hin := InHand.step (.fin 0) h1
  refine ⟨S, (d.step (.fin 0)).1, hin, Reachable.step _ h2, by rw [step_cfg]; exact h3, ?_⟩
  intro bets k
  have ho : Over (d.step (.fin 0)).1 := .inr ⟨h5, by
    split at h6
    · next h => exact ⟨_, h⟩
    · simp at h6⟩
  have : afterBets (d.step (.fin 0)).1 bets k = (d.step (.fin 0)).1 := by
    induction k with
    | zero => rfl
    | succ k ih =>
      show ((afterBets _ bets k).step _).1 = _
      rw [ih]; exact step_over hin ho _
  rw [this]; exact h4

/-- a hand that has just begun, with chips to play for -/
example : ∃ S d, InHand S d ∧ Reachable d ∧ NonNegative S d.cfg ∧ d.action = some 0 ∧ ¬ d.action = none ∧
    d.street < d.cfg.numStreets ∧ 0 < stack d 0 ∧ 0 < stack d 1 ∧ 0 < stack d 2 :=
  hand_exists (small 3 [1, 2, 0] 20) [] (by decide +kernel)

/-! ## C38 -/

/-- **C38**: every step appends to the history one entry with the acting seat and the chips it put in. The flag says
whether the bet was negative. -/
theorem C38_history_partial (h : InHand S d) (ha : d.action = some a) (hs0 : 0 ≤ stack d a)
    (hs : d.step bet = (d', .ok out)) :
    ∃ flag, d'.history = d.history ++ [(a, moved d d' a, flag)] ∧ (flag = true ↔ BelowZero bet) := by
  refine ⟨bet.isNeg, ?_, isNeg_iff bet⟩
  obtain ⟨b, c, lo, up, x, p, v⟩ := step_view h ha hs
  have hl := (live_of_action h ha).1
  have hlt := hl.seated.action a ha
  have hmv := v.moved hl.seated a hlt
  have hle := cleanBet_le v.sizes b
  rw [seat_some ha] at hmv hle
  rw [if_pos rfl] at hmv
  have hmin : min (stack d a) (betOf bet.isNeg c (cleanBet b c lo up)) = betOf bet.isNeg c (cleanBet b c lo up) := by
    unfold betOf
    split <;> omega
  rw [hmin] at hmv
  have h6 : d'.history = (d.acted bet.isNeg c (cleanBet b c lo up)).history := by
    rw [v.same.2.2.2.2.2.1, v.eq]
    rcases afterBet_cases d bet.isNeg c (cleanBet b c lo up) with ⟨-, h4⟩ | ⟨-, h4⟩
    · rw [h4]; rfl
    · rw [h4, (nextStreet_fields _).2.2.2.2.2.2.2.2.2.2.1]; rfl
  rw [h6, hmv]
  show d.history ++ [(d.seat, betOf bet.isNeg c (cleanBet b c lo up), bet.isNeg)] = _
  rw [seat_some ha]

/-- **C38**: the history starts empty. -/
theorem C38_empty {rb rs : Bool} {shuf : Shuffle} {obs : Observation} (hr : d.reset rb rs shuf = (d', .ok obs)) :
    d'.history = [] := by
  obtain ⟨-, -, rfl, -⟩ := reset_ok hr
  show (d.blindStart rb rs shuf).history = []
  unfold Dealer.blindStart
  split <;> rfl

/-- **C38** is false: a player who folds by betting 0 is recorded with the flag false, and a player who can check and
bets −1 with the flag true, although they have not folded. -/
theorem C38_false : (∃ S d d' out, InHand S d ∧ Reachable d ∧ d.step (.fin 0) = (d', .ok out) ∧ d.action = some 0 ∧
      isIn d 0 ∧ ¬ isIn d' 0 ∧ d'.history = d.history ++ [(0, 0, false)]) ∧
    ∃ S d d' out, InHand S d ∧ Reachable d ∧ d.step (.fin (-1)) = (d', .ok out) ∧ d.action = some 2 ∧
      isIn d' 2 ∧ d'.history = d.history ++ [(2, 0, true)] :=
  ⟨step_exists (small 3 [1, 2, 0] 20) [] (.fin 0) (by decide +kernel),
    step_exists (small 3 [1, 2, 0] 20) [.bet 2, .bet 1] (.fin (-1)) (by decide +kernel)⟩

/-- a raise -/
example : ∃ S d d' out, InHand S d ∧ Reachable d ∧ d.step (.fin 9) = (d', .ok out) ∧ d.action = some 1 ∧ 0 ≤ stack d 1 ∧
    moved d d' 1 = 9 ∧ d'.history = [(0, 6, false), (1, 9, false)] :=
  step_exists (small 3 [1, 2, 0] 20) [.bet 6] (.fin 9) (by decide +kernel)

end Clubs
