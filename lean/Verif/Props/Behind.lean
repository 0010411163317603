import Verif.Props.Betting
import Verif.Props.Limits
import Verif.Lemmas.Calls
import Verif.Lemmas.Replay
import Verif.Lemmas.Play
import Verif.Lemmas.NumpyPlay

/-!
# Property C109: chips that nobody puts at risk change nothing

A hand in which every bet is of a size on offer and nobody bets the last chip goes on in the same way, with the same payouts, whatever else the
players have in front of them.
-/

namespace Clubs

open Spec

/-! ## statement -/

/-- the same table with more chips in front of the players -/
def Spec.behind (K : List Int) (d : Dealer) : Dealer := { d with «stacks» := List.zipWith (· + ·) d.stacks K }

/-- the same observation with more chips in front of the players -/
def Spec.behindObs (K : List Int) (o : Observation) : Observation := { o with «stacks» := List.zipWith (· + ·) o.stacks K }

/-- an observation without the three sizes of bets on offer, which depend on the chips of the player to act -/
def Spec.sansSizes (o : Observation) : Observation := { o with call := 0, minRaise := 0, maxRaise := 0 }

/-- no player in the hand has bet the last chip -/
def Spec.NobodyAllIn (d : Dealer) : Prop := ∀ i, isIn d i → 0 < stack d i

/-- more chips, none taken away, for every seat -/
def Spec.Extra (K : List Int) (d : Dealer) : Prop := K.length = d.cfg.numPlayers ∧ ∀ k ∈ K, 0 ≤ k

/-- a bet of `b` chips is nothing at all or a size on offer that is not all that the player has -/
def Spec.Careful (obs : Observation) (s b : Int) : Prop :=
  b ≤ 0 ∨ (b < s ∧ (b = obs.call ∨ (obs.call < obs.minRaise ∧ obs.minRaise ≤ b ∧ b ≤ obs.maxRaise)))

/-- the player to act bets carefully, seeing what the table shows -/
def Spec.CarefulBet (d : Dealer) (q : Rat) : Prop :=
  ∃ obs a b, Shows d obs ∧ d.action = some a ∧ Rounded q b ∧ Careful obs (stack d a) b

instance (K : List Int) (d : Dealer) : Decidable (Extra K d) := inferInstanceAs (Decidable (_ ∧ _))

instance (obs : Observation) (s b : Int) : Decidable (Careful obs s b) := inferInstanceAs (Decidable (_ ∨ _))

/-! ## helpers -/

variable {S K : List Int} {d d' : Dealer}

theorem zip_add_swap (s K p : List Int) :
    List.zipWith (· + ·) (List.zipWith (· + ·) s K) p = List.zipWith (· + ·) (List.zipWith (· + ·) s p) K := by
  induction s generalizing K p with
  | nil => simp
  | cons a s ih =>
    cases K with
    | nil => simp
    | cons k K =>
      cases p with
      | nil => simp
      | cons x p =>
        simp only [List.zipWith_cons_cons, ih, List.cons.injEq, and_true]
        omega

theorem zip_sub_swap (s K p : List Int) :
    List.zipWith (· - ·) (List.zipWith (· + ·) s K) p = List.zipWith (· + ·) (List.zipWith (· - ·) s p) K := by
  induction s generalizing K p with
  | nil => simp
  | cons a s ih =>
    cases K with
    | nil => simp
    | cons k K =>
      cases p with
      | nil => simp
      | cons x p =>
        simp only [List.zipWith_cons_cons, ih, List.cons.injEq, and_true]
        omega

/-- the lists have the right lengths, and nobody is all-in -/
structure Roomy (K : List Int) (d : Dealer) : Prop where
  active : d.active.length = d.cfg.numPlayers
  stackLen : d.stacks.length = d.cfg.numPlayers
  extra : Extra K d
  pos : NobodyAllIn d

theorem stack_behind (h1 : d.stacks.length = d.cfg.numPlayers) (h2 : Extra K d) {i : Nat} (hi : i < d.cfg.numPlayers) :
    stack (behind K d) i = stack d i + K.getD i 0 :=
  getD_zipWith _ _ _ _ 0 0 _ (by rw [h1]; exact hi) (by rw [h2.1]; exact hi)

theorem extra_nonneg (h : Extra K d) (i : Nat) : 0 ≤ K.getD i 0 := list_getD_nonneg h.2 i

/-- the same players are all-in, namely none -/
theorem zero_behind (h : Roomy K d) {i : Nat} (hi : i < d.cfg.numPlayers) (hin : isIn d i) :
    ((List.zipWith (· + ·) d.stacks K).getD i 0 == 0) = (d.stacks.getD i 0 == 0) := by
  have h1 := stack_behind h.stackLen h.extra hi
  have h2 := h.pos i hin
  have h3 := extra_nonneg h.extra i
  unfold stack behind at h1
  unfold stack at h2
  simp only at h1
  rw [Bool.eq_iff_iff, beq_iff_eq, beq_iff_eq]
  omega

theorem or3_congr (A Z Z' N : List Bool) (hl : Z.length = Z'.length)
    (h : ∀ i < N.length, i < Z.length → N.getD i false = false → Z.getD i false = Z'.getD i false) :
    List.zipWith (· || ·) (List.zipWith (· || ·) A Z) N = List.zipWith (· || ·) (List.zipWith (· || ·) A Z') N := by
  refine ext_getD false (by simp [hl]) fun i hi => ?_
  simp only [List.length_zipWith] at hi
  have h1 : i < (List.zipWith (· || ·) A Z).length := by simp only [List.length_zipWith]; omega
  have h2 : i < (List.zipWith (· || ·) A Z').length := by simp only [List.length_zipWith]; omega
  rw [getD_zipWith _ _ _ _ false false _ h1 (by omega), getD_zipWith _ _ _ _ false false _ h2 (by omega),
    getD_zipWith _ A Z _ false false _ (by omega) (by omega), getD_zipWith _ A Z' _ false false _ (by omega) (by omega)]
  cases hx : N.getD i false with
  | true => simp
  | false => rw [h i (by omega) (by omega) hx]

theorem allAgreed_behind (h : Roomy K d) : (behind K d).allAgreed = d.allAgreed := by
  have hK := h.extra.1
  have ha := h.active
  have hs := h.stackLen
  have key := or3_congr (d.streetCommits.map fun c => c == pyMax d.streetCommits) ((List.zipWith (· + ·) d.stacks K).map fun s => s == 0)
    (d.stacks.map fun s => s == 0) (d.active.map fun a => !a) (by simp [hK, hs]) fun i hi hi2 hx => by
      simp only [List.length_map, ha] at hi
      rw [getD_map _ _ _ 0 _ (by rw [List.length_zipWith, hK, hs]; omega), getD_map _ d.stacks _ 0 _ (by omega)]
      rw [getD_map _ d.active _ false _ (by omega)] at hx
      exact zero_behind h hi (by unfold isIn; simpa using hx)
  unfold Dealer.allAgreed behind
  simp only []
  rw [key]

theorem allAllIn_behind (h : Roomy K d) : (behind K d).allAllIn = d.allAllIn := by
  have hK := h.extra.1
  have ha := h.active
  have hs := h.stackLen
  have key : List.zipWith (fun (active : Bool) (stack : Int) => active && stack == 0) d.active (List.zipWith (· + ·) d.stacks K) =
      List.zipWith (fun (active : Bool) (stack : Int) => active && stack == 0) d.active d.stacks := by
    refine ext_getD false (by simp [hK, hs]) fun i hi => ?_
    simp only [List.length_zipWith, hK, hs, ha] at hi
    rw [getD_zipWith _ _ _ _ false 0 _ (by omega) (by simp [hK, hs]; omega), getD_zipWith _ _ _ _ false 0 _ (by omega) (by omega)]
    cases hx : d.active.getD i false with
    | false => simp
    | true => rw [zero_behind h (by omega) hx]
  unfold Dealer.allAllIn behind
  simp only []
  rw [key]

theorem done_behind (h : Roomy K d) : (behind K d).done = d.done := by
  have hK := h.extra.1
  have ha := h.active
  have hs := h.stackLen
  have key : List.zipWith (fun (active : Bool) (stack : Int) => !active || stack == 0) d.active (List.zipWith (· + ·) d.stacks K) =
      List.zipWith (fun (active : Bool) (stack : Int) => !active || stack == 0) d.active d.stacks := by
    refine ext_getD false (by simp [hK, hs]) fun i hi => ?_
    simp only [List.length_zipWith, hK, hs, ha] at hi
    rw [getD_zipWith _ _ _ _ false 0 _ (by omega) (by simp [hK, hs]; omega), getD_zipWith _ _ _ _ false 0 _ (by omega) (by omega)]
    cases hx : d.active.getD i false with
    | false => simp
    | true => rw [zero_behind h (by omega) hx]
  unfold Dealer.done behind
  simp only []
  rw [key]

theorem dealStreets_behind (fuel : Nat) (d : Dealer) (h : Roomy K d) : dealStreets fuel (behind K d) = behind K (dealStreets fuel d) := by
  induction fuel generalizing d with
  | zero => rfl
  | succ fuel ih =>
    unfold dealStreets
    simp only []
    by_cases hc : d.street + 1 ≥ d.cfg.numStreets
    · rw [if_pos hc, if_pos (show (behind K d).street + 1 ≥ (behind K d).cfg.numStreets from hc)]
      rfl
    · rw [if_neg hc, if_neg (show ¬ (behind K d).street + 1 ≥ (behind K d).cfg.numStreets from hc)]
      generalize hx : ({ d with
        street := d.street + 1
        communityCards := d.communityCards ++ (d.deck.draw (d.cfg.numCommunityCards.getD (d.street + 1) 0)).1
        deck := (d.deck.draw (d.cfg.numCommunityCards.getD (d.street + 1) 0)).2 } : Dealer) = x
      have hy : ({ behind K d with
        street := (behind K d).street + 1
        communityCards := (behind K d).communityCards ++
          ((behind K d).deck.draw ((behind K d).cfg.numCommunityCards.getD ((behind K d).street + 1) 0)).1
        deck := ((behind K d).deck.draw ((behind K d).cfg.numCommunityCards.getD ((behind K d).street + 1) 0)).2 } : Dealer) =
          behind K x := by rw [← hx]; rfl
      have hrx : Roomy K x := by rw [← hx]; exact ⟨h.active, h.stackLen, h.extra, h.pos⟩
      rw [hy, allAllIn_behind hrx]
      split
      · rfl
      · exact ih x hrx

theorem nextStreet_behind (h : Roomy K d) : (behind K d).nextStreet = behind K d.nextStreet := by
  unfold Dealer.nextStreet
  simp only []
  have h1 : ({ behind K d with action := some (behind K d).button } : Dealer).moveAction =
      behind K ({ d with action := some d.button } : Dealer).moveAction := rfl
  rw [h1]
  have hr : Roomy K ({ d with action := some d.button } : Dealer).moveAction := ⟨h.active, h.stackLen, h.extra, h.pos⟩
  generalize ({ d with action := some d.button } : Dealer).moveAction = x at hr ⊢
  have h2 : (behind K x).cfg.numStreets = x.cfg.numStreets := rfl
  rw [h2, dealStreets_behind _ _ hr]
  rfl

theorem modify_behind (s K : List Int) (i : Nat) (m : Int) :
    (List.zipWith (· + ·) s K).modify i (· - m) = List.zipWith (· + ·) (s.modify i (· - m)) K := by
  induction s generalizing K i with
  | nil => simp
  | cons a s ih =>
    cases K with
    | nil => cases i <;> simp
    | cons k K =>
      cases i with
      | zero =>
        simp only [List.zipWith_cons_cons, List.modify_zero_cons, List.cons.injEq, and_true]
        omega
      | succ i => simp [ih]

/-- the size of the bet is the same at both tables: the player folds at both, or bets less than there is at both -/
def SameAct (s : Int) (c c' x x' : Int) : Prop := (0 < c ∧ 0 < c' ∧ x = 0 ∧ x' = 0) ∨ (c = c' ∧ x = x' ∧ x < s)

theorem acted_behind (hs : d.stacks.length = d.cfg.numPlayers) (hK : Extra K d) (hi : d.seat < d.cfg.numPlayers) (h0 : 0 < stack d d.seat)
    {fold : Bool} {c c' x x' : Int} (h : SameAct (stack d d.seat) c c' x x') :
    (behind K d).acted fold c' x' = behind K (d.acted fold c x) := by
  have h1 := stack_behind hs hK hi
  have h2 := extra_nonneg hK d.seat
  have hst : (behind K d).seat = d.seat := rfl
  have key : ∀ (y : Int), y < stack d d.seat →
      min ((List.zipWith (· + ·) d.stacks K).getD d.seat 0) y = y ∧ min (d.stacks.getD d.seat 0) y = y := by
    intro y hy
    have e : (List.zipWith (· + ·) d.stacks K).getD d.seat 0 = stack d d.seat + K.getD d.seat 0 := h1
    rw [e]
    exact ⟨min_eq_right (by omega), min_eq_right (show y ≤ stack d d.seat by omega)⟩
  rcases h with ⟨c1, c2, rfl, rfl⟩ | ⟨rfl, rfl, hx⟩
  · have f1 : c ≠ 0 ∧ ((0 : Int) < c ∨ fold = true) := ⟨by omega, .inl c1⟩
    have f2 : c' ≠ 0 ∧ ((0 : Int) < c' ∨ fold = true) := ⟨by omega, .inl c2⟩
    obtain ⟨k1, k2⟩ := key 0 h0
    unfold Dealer.acted
    simp only [if_pos f1, if_pos f2, ne_eq, not_true_eq_false, false_and, if_false]
    unfold behind
    simp only [Dealer.seat] at k1 k2 ⊢
    rw [k1, k2, modify_behind]
  · by_cases f : c ≠ 0 ∧ (x < c ∨ fold = true)
    · obtain ⟨k1, k2⟩ := key 0 h0
      unfold Dealer.acted
      simp only [if_pos f, ne_eq, not_true_eq_false, false_and, if_false]
      unfold behind
      simp only [Dealer.seat] at k1 k2 ⊢
      rw [k1, k2, modify_behind]
    · obtain ⟨k1, k2⟩ := key x hx
      unfold Dealer.acted
      simp only [if_neg f]
      unfold behind
      simp only [Dealer.seat] at k1 k2 ⊢
      rw [k1, k2, modify_behind]

/-- nobody is all-in afterwards -/
theorem acted_roomy (h : Roomy K d) (hi : d.seat < d.cfg.numPlayers) (hin : isIn d d.seat) {fold : Bool} {c c' x x' : Int}
    (hx : SameAct (stack d d.seat) c c' x x') : Roomy K (d.acted fold c x) := by
  have h0 := h.pos _ hin
  refine ⟨?_, ?_, h.extra, ?_⟩
  · unfold Dealer.acted
    simp only []
    split <;> simp [h.active]
  · simp [Dealer.acted, h.stackLen]
  · intro j hj
    have hj0 : isIn d j := by
      unfold isIn Dealer.acted at hj
      simp only [] at hj
      unfold isIn
      split at hj
      · by_cases hjs : d.seat = j
        · subst hjs; exact hin
        · simpa [List.getD_eq_getElem?_getD, List.getElem?_set, hjs] using hj
      · exact hj
    have hp := h.pos j hj0
    unfold stack Dealer.acted
    simp only []
    by_cases hjs : j = d.seat
    · subst hjs
      have e : ∀ m : Int, (d.stacks.modify d.seat (· - m)).getD d.seat 0 = stack d d.seat - m := by
        intro m
        have : d.seat < d.stacks.length := by rw [h.stackLen]; exact hi
        simp [List.getD_eq_getElem?_getD, List.getElem?_eq_getElem this, stack]
      rw [e]
      have : min (d.stacks.getD d.seat 0) (if c ≠ 0 ∧ (x < c ∨ fold = true) then 0 else x) < stack d d.seat := by
        refine lt_of_le_of_lt (min_le_right _ _) ?_
        split
        · exact h0
        · rcases hx with ⟨-, -, rfl, -⟩ | ⟨-, -, hx⟩
          · exact h0
          · exact hx
      omega
    · have e : ∀ m : Int, (d.stacks.modify d.seat (· - m)).getD j 0 = stack d j := by
        intro m
        simp [List.getD_eq_getElem?_getD, Ne.symm hjs, stack]
      rw [e]; exact hp

theorem roomy_move (h : Roomy K d) : Roomy K d.moveAction := ⟨h.active, h.stackLen, h.extra, h.pos⟩

theorem afterBet_behind (h : Roomy K d) (hi : d.seat < d.cfg.numPlayers) (hin : isIn d d.seat) {fold : Bool} {c c' x x' : Int}
    (hx : SameAct (stack d d.seat) c c' x x') :
    (behind K d).afterBet fold c' x' = behind K (d.afterBet fold c x) := by
  have h1 := acted_behind (fold := fold) h.stackLen h.extra hi (h.pos _ hin) hx
  have h2 := roomy_move (acted_roomy (fold := fold) h hi hin hx)
  unfold Dealer.afterBet
  rw [act_eq, act_eq, h1]
  have e : (behind K (d.acted fold c x)).moveAction = behind K (d.acted fold c x).moveAction := rfl
  rw [e, allAgreed_behind h2]
  split
  · exact nextStreet_behind h2
  · rfl

theorem afterBet_roomy (h : Roomy K d) (hi : d.seat < d.cfg.numPlayers) (hin : isIn d d.seat) {fold : Bool} {c c' x x' : Int}
    (hx : SameAct (stack d d.seat) c c' x x') : Roomy K (d.afterBet fold c x) := by
  have hm := roomy_move (acted_roomy (fold := fold) h hi hin hx)
  have hcfg := afterBet_cfg d fold c x
  obtain ⟨-, f2, -, -, -, -, -, -, f9⟩ := afterBet_fields d fold c x
  refine ⟨by rw [f2, hcfg]; exact hm.active, by rw [f9, hcfg]; exact hm.stackLen, ?_, ?_⟩
  · unfold Extra; rw [hcfg]; exact hm.extra
  · intro i hi
    have h1 := hm.pos i
    unfold isIn at hi
    unfold stack
    rw [f2] at hi
    rw [f9]
    exact h1 hi

/-- the sizes of bets are computed at both tables or at none -/
theorem betSizes_behind (d : Dealer) :
    (∃ e, d.betSizes = .error e ∧ (behind K d).betSizes = .error e) ∨
    ∃ c lo hi c' lo' hi', d.betSizes = .ok (c, lo, hi) ∧ (behind K d).betSizes = .ok (c', lo', hi') := by
  unfold Dealer.betSizes behind
  simp only []
  cases d.cfg.raiseSizes[d.street]? with
  | none => exact .inl ⟨_, rfl, rfl⟩
  | some x =>
    cases d.cfg.numRaises[d.street]? with
    | none => exact .inl ⟨_, rfl, rfl⟩
    | some y => exact .inr ⟨_, _, _, _, _, _, rfl, rfl⟩

theorem observation_behind (done : Bool) :
    ((behind K d).observation done).map sansSizes = ((d.observation done).map (behindObs K)).map sansSizes := by
  unfold Dealer.observation
  have e1 : (behind K d).holeCards = d.holeCards := rfl
  have e2 : (behind K d).action = d.action := rfl
  rw [e1, e2]
  cases done with
  | true =>
    simp only [if_true]
    cases pyGet d.holeCards (match d.action with | some a => (a : Int) | none => -1) with
    | error e => rfl
    | ok x => rfl
  | false =>
    simp only [Bool.false_eq_true, if_false]
    rcases betSizes_behind (K := K) d with ⟨e, g1, g2⟩ | ⟨c, lo, hi, c', lo', hi', g1, g2⟩
    · rw [g1, g2]; rfl
    · rw [g1, g2]
      simp only []
      cases pyGet d.holeCards (match d.action with | some a => (a : Int) | none => -1) with
      | error e => rfl
      | ok x => rfl

/-- what `step` returned with more chips in front of the players, but for the sizes of bets on offer -/
def Spec.SameOut (K : List Int) (r r' : Except Err StepOut) : Prop :=
  r'.map (fun o => (sansSizes o.1, o.2)) = r.map (fun o => (sansSizes (behindObs K o.1), o.2))

theorem out_behind (x : Dealer) (b : Bool) (p : List Int) (f : List Bool) :
    SameOut K (match x.observation b with
      | .error e => .error e
      | .ok obs => .ok (obs, p, f)) (match (behind K x).observation b with
      | .error e => .error e
      | .ok obs => .ok (obs, p, f)) := by
  have := observation_behind (K := K) (d := x) b
  unfold SameOut
  cases h3 : (behind K x).observation b with
  | error e =>
    cases h4 : x.observation b with
    | error e' => rw [h3, h4] at this; simp only [Except.map, Except.error.injEq] at this; rw [this]; rfl
    | ok o => rw [h3, h4] at this; simp [Except.map] at this
  | ok o' =>
    cases h4 : x.observation b with
    | error e' => rw [h3, h4] at this; simp [Except.map] at this
    | ok o =>
      rw [h3, h4] at this
      simp only [Except.map, Except.ok.injEq] at this
      simp only [Except.map, this]

theorem settle_behind (p : List Int) : (behind K d).settle p = behind K (d.settle p) := by
  unfold Dealer.settle behind
  simp only []
  rw [zip_add_swap d.stacks K p, zip_add_swap _ K d.potCommits]

theorem finish_behind (h : Roomy K d) :
    (behind K d).finish.1 = behind K d.finish.1 ∧ SameOut K d.finish.2 (behind K d).finish.2 := by
  have e2 : (behind K d).payouts = d.payouts := rfl
  unfold Dealer.finish
  simp only []
  rw [done_behind h, e2]
  cases d.payouts with
  | error e => exact ⟨rfl, rfl⟩
  | ok p =>
    simp only []
    cases hall : d.done.all id with
    | true =>
      simp only [if_true]
      have hs := settle_behind (K := K) (d := d) p
      refine ⟨hs, ?_⟩
      have := out_behind (K := K) (d.settle p) true p d.done
      rw [← hs] at this
      exact this
    | false =>
      simp only [Bool.false_eq_true, if_false]
      exact ⟨trivial, out_behind d false p d.done⟩

/-- the same bet at both tables -/
theorem same_act {a : Nat} {b c lo hi c' lo' hi' : Int} {obs : Observation} (hd : Seated d) (hK : Extra K d) (ha : d.action = some a)
    (hs : 0 < stack d a) (h1 : d.betSizes = .ok (c, lo, hi)) (h2 : (behind K d).betSizes = .ok (c', lo', hi'))
    (ho : obs.call = c ∧ obs.minRaise = lo ∧ obs.maxRaise = hi) (hb : Careful obs (stack d a) b) :
    SameAct (stack d a) c c' (cleanBet b c lo hi) (cleanBet b c' lo' hi') := by
  have hseat := seat_some ha
  have hc0 := call_nonneg hd
  have hlt : a < d.cfg.numPlayers := by have := seat_lt hd; rwa [hseat] at this
  obtain ⟨x, y, hx, hy, q1, q2, q3⟩ := betSizes_spec h1
  obtain ⟨x', y', hx', hy', p1, p2, p3⟩ := betSizes_spec h2
  have e0 : (behind K d).seat = a := hseat
  have e1 : streetBet (behind K d) a = streetBet d a := rfl
  have e2 : stack (behind K d) a = stack d a + K.getD a 0 := stack_behind hd.stacks hK hlt
  have e3 : (behind K d).streetCommits = d.streetCommits := rfl
  have e4 : (behind K d).streetRaises = d.streetRaises := rfl
  have e5 : (behind K d).largestRaise = d.largestRaise := rfl
  have e6 : (behind K d).pot = d.pot := rfl
  have e7 : (behind K d).cfg.bigBlind = d.cfg.bigBlind := rfl
  have hk := extra_nonneg hK a
  rw [e0, e1, e2, e3] at p1
  rw [e0, e1, e2, e3, e4, e5] at p2 p3
  rw [e6, e7] at p3
  rw [hseat] at q1 q2 q3 hc0
  have hxe : x' = x := by
    have : d.cfg.raiseSizes[d.street]? = some x' := hx'
    rw [hx] at this; simpa using this.symm
  have hye : y' = y := by
    have : d.cfg.numRaises[d.street]? = some y' := hy'
    rw [hy] at this; simpa using this.symm
  subst hxe hye
  generalize pyMax d.streetCommits - streetBet d a = t at *
  generalize stack d a = s at *
  generalize K.getD a 0 = k at *
  obtain ⟨ho1, ho2, ho3⟩ := ho
  unfold Careful at hb
  rw [ho1, ho2, ho3] at hb
  unfold SameAct
  rcases hb with hb | ⟨hbs, hb⟩
  · rw [cleanBet_nonpos hb, cleanBet_nonpos hb]
    omega
  · right
    have hcs : c = c' := by omega
    subst hcs
    have hcc : 0 ≤ c := by omega
    rcases hb with rfl | ⟨hb1, hb2, hb3⟩
    · rw [cleanBet_self hcc, cleanBet_self hcc]
      exact ⟨rfl, rfl, hbs⟩
    · have hle : lo' = lo ∧ hi ≤ hi' := by
        by_cases hcap : y'.reached d.streetRaises = true ∨ (d.streetRaises ≠ 0 ∧ t < d.largestRaise)
        · have g1 := q2 hcap
          omega
        · have g1 := q3 hcap
          have g2 := p3 hcap
          cases x' <;> simp only [] at g1 g2 <;> omega
      obtain ⟨rfl, hhi⟩ := hle
      rw [clean_offered hcc (.inl ⟨hb1, by omega⟩) (.inr (.inr ⟨hb2, hb3⟩)),
        clean_offered hcc (.inl ⟨hb1, by omega⟩) (.inr (.inr ⟨hb2, by omega⟩))]
      exact ⟨rfl, rfl, hbs⟩

/-! ## the theorems -/

/-- **C109**: A careful bet in a hand in which nobody is all-in does the same whatever else the players have in front of them: the table
afterwards, payouts, done flags and the observation are the same, apart from those chips and the sizes of bets on offer. -/
theorem C109_bet {q : Rat} (h : InHand S d) (hn : NobodyAllIn d) (hK : Extra K d) (hq : CarefulBet d q) :
    ((behind K d).step (.fin q)).1 = behind K (d.step (.fin q)).1 ∧ SameOut K (d.step (.fin q)).2 ((behind K d).step (.fin q)).2 ∧
    ((d.step (.fin q)).1.action ≠ none → NobodyAllIn (d.step (.fin q)).1) := by
  obtain ⟨obs, a, b, hsh, ha, hr, hb⟩ := hq
  have ha' : (behind K d).action = some a := ha
  obtain ⟨hl, -⟩ := live_of_action h ha
  have hd := hl.seated
  have hseat := seat_some ha
  have hin : isIn d a := by
    obtain ⟨a', h1, h2⟩ := hl.action
    rw [ha] at h1
    cases h1
    exact h2
  have hs := hn a hin
  have hsz := shows_sizes hsh ha
  have hroom : Roomy K d := ⟨hd.active, hd.stacks, hK, hn⟩
  rcases step_some ha (.fin q) with ⟨e, g1, -⟩ | ⟨b', e, -, g1, -⟩ | ⟨b', c, lo, hi, g1, g2, g3⟩
  · simp [pyRound] at g1
  · rw [hsz] at g1; cases g1
  · rcases step_some ha' (.fin q) with ⟨e, k1, -⟩ | ⟨b'', e, -, k1, -⟩ | ⟨b'', c', lo', hi', k1, k2, k3⟩
    · simp [pyRound] at k1
    · rcases betSizes_behind (K := K) d with ⟨e', x1, x2⟩ | ⟨x1, x2, x3, x4, x5, x6, x7, x8⟩
      · rw [hsz] at x1; cases x1
      · rw [x8] at k1; cases k1
    · rw [g1] at k1
      cases k1
      have hbb : b' = b := by
        simp only [pyRound, Except.ok.injEq] at g1
        have := rounded_unique (roundHalfEven_rounded q) hr
        omega
      subst hbb
      have ho : obs.call = c ∧ obs.minRaise = lo ∧ obs.maxRaise = hi := by
        rw [hsz] at g2
        simpa [Prod.mk.injEq] using g2
      have hx := same_act hd hK ha hs g2 k2 ho hb
      rw [← hseat] at hx hin
      have hlt : d.seat < d.cfg.numPlayers := seat_lt hd
      have e1 := afterBet_behind (fold := (PyNum.fin q).isNeg) hroom hlt hin hx
      have hroom2 := afterBet_roomy (fold := (PyNum.fin q).isNeg) hroom hlt hin hx
      rw [g3, k3, e1]
      obtain ⟨r1, r2⟩ := finish_behind hroom2
      refine ⟨r1, r2, fun hne => ?_⟩
      rcases finish_cases (d.afterBet (PyNum.fin q).isNeg c (cleanBet b' c lo hi)) with ⟨e, -, hf⟩ | ⟨p, -, -, hf, -⟩ | ⟨p, -, -, hf, -⟩
      · rw [hf]; exact hroom2.pos
      · rw [hf] at hne; simp [Dealer.settle] at hne
      · rw [hf]; exact hroom2.pos

/-- **C109**: A whole hand of careful bets is, bet by bet, the same whatever else the players have in front of them. -/
theorem C109_hand (h : InHand S d) (hn : d.action ≠ none → NobodyAllIn d) (hK : Extra K d) (bets : List Rat)
    (hw : ∀ l q, l ++ [q] <+: bets → CarefulBet (Spec.afterBets d (l.map .fin)) q) :
    Spec.afterBets (behind K d) (bets.map .fin) = behind K (Spec.afterBets d (bets.map .fin)) ∧
    ∀ l q, l ++ [q] <+: bets → SameOut K ((Spec.afterBets d (l.map .fin)).step (.fin q)).2
      ((Spec.afterBets (behind K d) (l.map .fin)).step (.fin q)).2 := by
  induction bets generalizing d with
  | nil => exact ⟨rfl, fun l q hl => by simp at hl⟩
  | cons b bets ih =>
    have hb : CarefulBet d b := hw [] b ⟨bets, rfl⟩
    have hne : d.action ≠ none := by
      obtain ⟨obs, a, x, -, h1, -⟩ := hb
      rw [h1]; simp
    obtain ⟨s1, s2, s3⟩ := C109_bet h (hn hne) hK hb
    have hcfg : (d.step (.fin b)).1.cfg = d.cfg := step_cfg d _
    have := ih (d := (d.step (.fin b)).1) (.step _ h) s3 (by unfold Extra; rw [hcfg]; exact hK) (fun l q hl => by
        have := hw (b :: l) q (by rw [List.cons_append]; exact (List.prefix_cons_inj b).2 hl)
        simp only [Spec.afterBets, List.map_cons, List.foldl_cons] at this ⊢
        exact this)
    refine ⟨?_, ?_⟩
    · show Spec.afterBets ((behind K d).step (.fin b)).1 _ = behind K (Spec.afterBets (d.step (.fin b)).1 _)
      rw [s1]; exact this.1
    · intro l q hl
      cases l with
      | nil =>
        obtain ⟨r, hr⟩ := hl
        simp only [List.nil_append, List.singleton_append, List.cons.injEq] at hr
        obtain ⟨rfl, -⟩ := hr
        exact s2
      | cons y l =>
        rw [List.cons_append] at hl
        obtain ⟨rfl, hl'⟩ := List.cons_prefix_cons.1 hl
        have := this.2 l q hl'
        simp only [Spec.afterBets, List.map_cons, List.foldl_cons] at this ⊢
        rw [s1]; exact this

/-! ## dealing -/

theorem forced_swap {xs K : List Int} {as : List Bool} (bs : List Int) (hK : K.length = xs.length) (hk : ∀ k ∈ K, 0 ≤ k)
    (hp : ∀ i, as.getD i false = true → 0 < xs.getD i 0) :
    ((List.zipWith (· + ·) xs K).zip (as.zip bs)).map (fun (stack, active, bet) => if stack > 0 ∧ active = true then bet else 0) =
    (xs.zip (as.zip bs)).map (fun (stack, active, bet) => if stack > 0 ∧ active = true then bet else (0 : Int)) := by
  refine List.ext_getElem (by simp [hK]) fun i h1 h2 => ?_
  simp only [List.length_map, List.length_zip] at h2
  simp only [List.getElem_map, List.getElem_zip, List.getElem_zipWith]
  have h3 := hp i
  have h4 := list_getD_nonneg hk i
  rw [List.getD_eq_getElem _ _ (by omega : i < as.length), List.getD_eq_getElem _ _ (by omega : i < xs.length)] at h3
  rw [List.getD_eq_getElem _ _ (by omega : i < K.length)] at h4
  cases hx : as[i]'(by omega) with
  | false => simp
  | true =>
    have := h3 hx
    rw [if_pos ⟨by omega, rfl⟩, if_pos ⟨by omega, rfl⟩]

theorem forcedBets_behind (h : Roomy K d) (bets : List Int) : (behind K d).forcedBets bets = d.forcedBets bets :=
  forced_swap _ (h.extra.1.trans h.stackLen.symm) h.extra.2 h.pos

theorem collect_behind (h : Roomy K d) (bets : List Int) (b : Bool) :
    (behind K d).collectMultipleBets bets b = behind K (d.collectMultipleBets bets b) := by
  unfold Dealer.collectMultipleBets
  simp only []
  rw [forcedBets_behind h]
  unfold behind
  simp only []
  rw [zip_sub_swap]

/-- the same players are dealt in -/
theorem active_behind (hs : d.stacks.length = d.cfg.numPlayers) (hK : Extra K d)
    (hbroke : ∀ i < d.cfg.numPlayers, stack d i ≤ 0 → stack d i + K.getD i 0 ≤ 0) :
    ((List.zipWith (· + ·) d.stacks K).map fun s => decide (s > 0)) = d.stacks.map fun s => decide (s > 0) := by
  refine ext_getD false (by simp [hK.1, hs]) fun i hi => ?_
  simp only [List.length_map, List.length_zipWith, hK.1, hs] at hi
  have hi1 : i < d.cfg.numPlayers := by omega
  rw [getD_map _ _ _ 0 _ (by rw [List.length_zipWith, hK.1, hs]; omega), getD_map _ d.stacks _ 0 _ (by rw [hs]; omega)]
  have h1 := stack_behind hs hK hi1
  have h2 := hbroke i hi1
  have h3 := extra_nonneg hK i
  unfold stack behind at h1
  unfold stack at h2
  simp only at h1
  rw [h1, decide_eq_decide]
  omega

/-- **C109**: Dealing a hand without new stacks does the same whatever else the players with chips have in front of them, if nobody is all-in
after antes and blinds. -/
theorem C109_deal {rb : Bool} {shuf : Shuffle} {obs : Observation} (hd : Seated d) (hK : Extra K d)
    (hbroke : ∀ i < d.cfg.numPlayers, stack d i ≤ 0 → stack d i + K.getD i 0 ≤ 0) (hblinds : ∀ x ∈ d.cfg.blinds, 0 ≤ x)
    (hr : d.reset rb false shuf = (d', .ok obs)) (hn : NobodyAllIn d') :
    ((behind K d).reset rb false shuf).1 = behind K d' ∧
    ((behind K d).reset rb false shuf).2.map sansSizes = .ok (sansSizes (behindObs K obs)) := by
  have hact := active_behind hd.stacks hK hbroke
  have hfresh : (behind K d).fresh rb false shuf = behind K (d.fresh rb false shuf) := by
    unfold Dealer.fresh
    have e : (behind K d).stacks = List.zipWith (· + ·) d.stacks K := rfl
    simp only [Bool.false_eq_true, if_false]
    rw [e, hact]
    rfl
  have hstart : (behind K d).blindStart rb false shuf = behind K (d.blindStart rb false shuf) := by
    unfold Dealer.blindStart
    rw [hfresh]
    have e : (behind K d).cfg.numPlayers = d.cfg.numPlayers := rfl
    rw [e]
    split <;> rfl
  have hseated : Seated (d.blindStart rb false shuf) := blindStart_seated hd rb false shuf
  obtain ⟨o, ho⟩ := blindStart_fields d rb false shuf
  have hcfg := blindStart_cfg d rb false shuf
  have bact : (d.blindStart rb false shuf).active = d.stacks.map fun s => decide (s > 0) := by rw [ho]; rfl
  have bst : (d.blindStart rb false shuf).stacks = d.stacks := by rw [ho]; rfl
  have r1 : Roomy K (d.blindStart rb false shuf) := by
    refine ⟨hseated.active, hseated.stacks, by unfold Extra; rw [hcfg]; exact hK, fun i hi => ?_⟩
    unfold isIn at hi
    unfold stack
    rw [bact] at hi
    rw [bst]
    by_cases hlt : i < d.stacks.length
    · rw [getD_map _ _ _ 0 _ hlt] at hi
      simpa using hi
    · rw [List.getD_eq_default _ _ (by simpa using hlt)] at hi; cases hi
  have hpd : d.reset rb false shuf =
      ((d.posted rb false shuf).moveAction.moveAction, (d.posted rb false shuf).moveAction.moveAction.observation false) := by
    rcases reset_eq d rb false shuf with ⟨-, -, g⟩ | ⟨-, ⟨-, g⟩ | ⟨-, g⟩⟩
    · rw [hr] at g; simp at g
    · rw [hr] at g; simp at g
    · exact g
  have hpb : (behind K d).reset rb false shuf = (((behind K d).posted rb false shuf).moveAction.moveAction,
      ((behind K d).posted rb false shuf).moveAction.moveAction.observation false) := by
    have hst : (behind K d).stacks = List.zipWith (· + ·) d.stacks K := rfl
    rcases reset_eq d rb false shuf with ⟨-, -, g⟩ | ⟨g1, ⟨-, g⟩ | ⟨g2, -⟩⟩
    · rw [hr] at g; simp at g
    · rw [hr] at g; simp at g
    · rcases reset_eq (behind K d) rb false shuf with ⟨-, k, -⟩ | ⟨-, ⟨k, -⟩ | ⟨-, k⟩⟩
      · rw [hst, hact] at k
        rcases g1 with g1 | g1
        · cases g1
        · omega
      · have : d.cfg.numCommunityCards.length = 0 := k
        omega
      · exact k
  set A := (d.blindStart rb false shuf).collectMultipleBets d.cfg.antes false with hA
  have sA : Seated A := collectMultipleBets_seated hseated false (by rw [hcfg]; exact hd.antes)
  have cA : A.cfg = d.cfg := hcfg
  have hd' : d' = (A.collectMultipleBets d.cfg.blinds true).moveAction.moveAction := by
    rw [hr] at hpd
    simp only [Prod.mk.injEq] at hpd
    exact hpd.1
  have r2 : Roomy K A := by
    refine ⟨sA.active, sA.stacks, by unfold Extra; rw [cA]; exact hK, fun i hi => ?_⟩
    have hlt : i < A.cfg.numPlayers := by
      rw [← sA.active]
      by_contra hc
      unfold isIn at hi
      rw [List.getD_eq_default _ _ (by omega)] at hi
      cases hi
    have hbl : d.cfg.blinds.length = A.cfg.numPlayers := by rw [cA]; exact hd.blinds
    have h1 : isIn d' i := by rw [hd']; exact hi
    have h2 := hn i h1
    have h3 : stack d' i = stack A i - (A.forcedBets d.cfg.blinds).getD i 0 := by
      rw [hd']
      exact getD_zipWith (fun x y : Int => x - y) A.stacks (A.forcedBets d.cfg.blinds) i 0 0 0 (by rw [sA.stacks]; exact hlt)
        (by rw [forcedBets_length sA hbl]; exact hlt)
    have h4 : 0 ≤ (A.forcedBets d.cfg.blinds).getD i 0 := by
      rw [forcedBets_getD sA hbl i hlt]
      split
      · refine list_getD_nonneg (fun x hx => hblinds x (roll_mem hx)) i
      · exact le_rfl
    omega
  have hposted : (behind K d).posted rb false shuf = behind K (d.posted rb false shuf) := by
    unfold Dealer.posted
    rw [hstart]
    have e1 : (behind K d).cfg = d.cfg := rfl
    rw [e1, collect_behind r1, ← hA, collect_behind r2]
  rw [hpb, hposted]
  have e : (behind K (d.posted rb false shuf)).moveAction.moveAction = behind K d' := by rw [hd']; rfl
  rw [e]
  refine ⟨rfl, ?_⟩
  have hobs : d'.observation false = .ok obs := by
    rw [hr] at hpd
    simp only [Prod.mk.injEq] at hpd
    rw [hpd.1, hpd.2]
  rw [observation_behind, hobs]
  rfl

/-! ## examples -/

/-- check `CarefulBet` along some whole bets -/
def carefulRun (d : Dealer) (obs : Observation) : List Int → Bool
  | [] => true
  | b :: bs =>
    (match d.action with
      | some a => decide (Careful obs (stack d a) b)
      | none => false) &&
    match d.step (.fin b) with
    | (e, .ok o) => carefulRun e o.1 bs
    | _ => false

theorem careful_of_run {d : Dealer} {obs : Observation} (hs : Shows d obs) {bets : List Int}
    (h : carefulRun d obs bets = true) (l : List Rat) (q : Rat) (hl : l ++ [q] <+: bets.map (fun b : Int => (b : Rat))) :
    CarefulBet (Spec.afterBets d (l.map .fin)) q := by
  induction bets generalizing d obs l with
  | nil => simp at hl
  | cons b bets ih =>
    unfold carefulRun at h
    simp only [Bool.and_eq_true] at h
    obtain ⟨h1, h5⟩ := h
    cases l with
    | nil =>
      obtain ⟨r, hr⟩ := hl
      simp only [List.nil_append, List.singleton_append, List.map_cons, List.cons.injEq] at hr
      obtain ⟨rfl, -⟩ := hr
      cases ha : d.action with
      | none => rw [ha] at h1; cases h1
      | some a =>
        rw [ha] at h1
        exact ⟨obs, a, b, hs, ha, by unfold Rounded; simp, of_decide_eq_true h1⟩
    | cons y l =>
      rw [List.cons_append, List.map_cons] at hl
      obtain ⟨rfl, hl'⟩ := List.cons_prefix_cons.1 hl
      split at h5
      · next e o g =>
        have := ih (.inr ⟨_, _, _, _, g⟩) h5 l hl'
        simp only [Spec.afterBets, List.map_cons, List.foldl_cons] at this ⊢
        rw [g]; exact this
      · cases h5

/-- a table and a hand dealt there, from a computation -/
theorem behind_exists (a : DealerArgs) {P : Dealer → Dealer → Observation → Prop} [∀ d e o, Decidable (P d e o)]
    (h : (Dealer.new a id).bind (fun d => .ok (match d.reset true false id with
      | (e, .ok o) => decide (P d e o)
      | _ => false)) = .ok true) :
    ∃ d d' obs, Seated d ∧ d.reset true false id = (d', .ok obs) ∧ InHand (startStacks d false) d' ∧ Shows d' obs ∧ P d d' obs := by
  cases ht : Dealer.new a id with
  | error x => rw [ht] at h; cases h
  | ok d =>
    rw [ht] at h
    simp only [Except.bind, Except.ok.injEq] at h
    have hi : IsShuffle id := fun _ => .refl _
    have hseat := reachable_seated (.new hi ht)
    split at h
    · next e o g =>
      rw [decide_eq_true_eq] at h
      exact ⟨d, e, o, hseat, g, .dealt hseat hi g, .inl ⟨_, _, _, _, g⟩, h⟩
    · cases h

/-- the hypotheses of `C109_deal`, `C109_bet` and `C109_hand`: two raises on the first street, a check, a bet and a fold on the second -/
example : ∃ d d' obs, Seated d ∧ d.reset true false id = (d', .ok obs) ∧ InHand (startStacks d false) d' ∧ Shows d' obs ∧
    (Extra [100, 0, 7] d ∧ (∀ i < d.cfg.numPlayers, stack d i ≤ 0 → stack d i + [100, 0, 7].getD i 0 ≤ 0) ∧
      (∀ x ∈ d.cfg.blinds, 0 ≤ x) ∧ NobodyAllIn d' ∧ obs.maxRaise = 40 ∧
      carefulRun d' obs [6, 13, -1, 8, 0, 9, -1] = true ∧
      (Spec.afterBets d' ([6, 13, -1, 8, 0, 9, -1].map .fin)).action = none) := by
  obtain ⟨d, d', obs, h1, h2, h3, h4, h5⟩ := behind_exists (P := fun d d' obs => Extra [100, 0, 7] d ∧
      (∀ i < d.cfg.numPlayers, stack d i ≤ 0 → stack d i + [100, 0, 7].getD i 0 ≤ 0) ∧
      (∀ x ∈ d.cfg.blinds, 0 ≤ x) ∧ (∀ i < d'.active.length, isIn d' i → 0 < stack d' i) ∧ obs.maxRaise = 40 ∧
      carefulRun d' obs [6, 13, -1, 8, 0, 9, -1] = true ∧
      (Spec.afterBets d' ([6, 13, -1, 8, 0, 9, -1].map .fin)).action = none) (small 3 [1, 2, 0] 40) (by decide +kernel)
  obtain ⟨k1, k2, k3, k4, k5⟩ := h5
  refine ⟨d, d', obs, h1, h2, h3, h4, k1, k2, k3, fun i hi => k4 i ?_ hi, k5⟩
  by_contra hc
  unfold isIn at hi
  rw [List.getD_eq_default _ _ (by omega)] at hi
  cases hi

/-- the last chip makes a difference: with two players all-in the cards are dealt, with chips left there is a second street -/
example : ∃ d d' obs, Seated d ∧ d.reset true false id = (d', .ok obs) ∧ InHand (startStacks d false) d' ∧ Shows d' obs ∧
    ((Spec.afterBets d' ([40, 39, -1].map .fin)).street = 2 ∧ (Spec.afterBets (behind [9, 9, 9] d') ([40, 39, -1].map .fin)).street = 1) :=
  behind_exists (small 3 [1, 2, 0] 40) (by decide +kernel)

/-- **C109** without a big blind: a bet of 30 chips, a size on offer, is a bet with 40 chips and a check with 1040. -/
theorem C109_false : ∃ d d' obs, Seated d ∧ d.reset true false id = (d', .ok obs) ∧ InHand (startStacks d false) d' ∧ Shows d' obs ∧
    (d'.stacks = [40, 40, 40] ∧ d'.active = [true, true, true] ∧ Extra [1000, 1000, 1000] d' ∧ obs.minRaise ≤ 30 ∧ 30 ≤ obs.maxRaise ∧
      (d'.step (.fin 30)).1.pot = 30 ∧ ((behind [1000, 1000, 1000] d').step (.fin 30)).1.pot = 0) :=
  behind_exists (small 3 [0, 0, 0] 40) (by decide +kernel)

end Clubs

namespace Clubs.Numpy

open Spec

variable {S K : List Int} {d d' : Dealer}

/-! ## the array engine -/

theorem afterBet_shared (d : Dealer) (fold : Bool) (c x : Int) : afterBet d fold c x = d.afterBet fold c x := by
  have h : ∀ e : Dealer, nextStreet e = e.nextStreet := by
    intro e
    unfold nextStreet Dealer.nextStreet
    simp only [dealStreets_shared]
    rfl
  unfold afterBet Dealer.afterBet
  rw [act_shared, allAgreed_shared, h]

/-- the player to act bets carefully, seeing what the table shows (as `Spec.CarefulBet`) -/
def ArrayCareful (d : Dealer) (q : Rat) : Prop :=
  ∃ obs a b, ArrayShows d obs ∧ d.action = some a ∧ Rounded q b ∧ Careful obs (stack d a) b

theorem finish_behind (d : Dealer) :
    (finish (behind K d)).1 = behind K (finish d).1 ∧ SameOut K (finish d).2 (finish (behind K d)).2 := by
  have e1 : done (behind K d) = done d := rfl
  have e2 : payouts (behind K d) = payouts d := rfl
  unfold finish
  simp only []
  rw [e1, e2]
  cases payouts d with
  | error e => exact ⟨rfl, rfl⟩
  | ok p =>
    simp only []
    cases hall : (done d).all id with
    | true =>
      simp only [if_true]
      have hs : ({ behind K d with
          action := none
          pot := 0
          «stacks» := List.zipWith (· + ·) (behind K d).stacks (List.zipWith (· + ·) p (behind K d).potCommits) } : Dealer) =
          behind K { d with
            action := none
            pot := 0
            «stacks» := List.zipWith (· + ·) d.stacks (List.zipWith (· + ·) p d.potCommits) } := by
        unfold behind
        simp only []
        rw [zip_add_swap d.stacks K]
      rw [hs]
      exact ⟨rfl, out_behind _ true p (done d)⟩
    | false =>
      simp only [Bool.false_eq_true, if_false]
      exact ⟨trivial, out_behind d false p (done d)⟩

/-- **C109** for the array engine: a careful bet in a hand in which nobody is all-in does the same whatever else the players have in front of
them. -/
theorem C109_bet {q : Rat} (h : ArrayInHand S d) (hnn : NonNegative S d.cfg) (hz : SizesOk d.cfg) (hn : NobodyAllIn d) (hK : Extra K d)
    (hq : ArrayCareful d q) :
    (step (behind K d) (.fin q)).1 = behind K (step d (.fin q)).1 ∧ SameOut K (step d (.fin q)).2 (step (behind K d) (.fin q)).2 ∧
    ((step d (.fin q)).1.action ≠ none → NobodyAllIn (step d (.fin q)).1) := by
  obtain ⟨obs, a, b, hsh, ha, hr, hb⟩ := hq
  have ha' : (behind K d).action = some a := ha
  obtain ⟨hso, hl, -⟩ := sound_of_action h hnn hz ha
  have hd := hl.seated
  have hd' : Seated (atSeat (behind K d)) := { hd with
    «stacks» := by
      show (List.zipWith (· + ·) d.stacks K).length = d.cfg.numPlayers
      rw [List.length_zipWith, hK.1, show d.stacks.length = d.cfg.numPlayers from hd.stacks, Nat.min_self] }
  have hp : 0 ≤ d.pot := nn_pot (d := atSeat d) hl hso.nn
  have hseat := seat_some ha
  have hin : isIn d a := by
    obtain ⟨a', h1, h2⟩ := hl.action
    rw [show (atSeat d).action = d.action from rfl, ha] at h1
    cases h1
    exact h2
  have hs := hn a hin
  have hsz := shown_sizes hsh ha
  have hroom : Roomy K d := ⟨hd.active, hd.stacks, hK, hn⟩
  rcases step_some ha (.fin q) with ⟨e, g1, -⟩ | ⟨b', e, -, g1, -⟩ | ⟨b', c, lo, hi, g1, g2, g3⟩
  · simp [pyRound] at g1
  · rw [hsz] at g1; cases g1
  · rcases step_some ha' (.fin q) with ⟨e, k1, -⟩ | ⟨b'', e, -, k1, -⟩ | ⟨b'', c', lo', hi', k1, k2, k3⟩
    · simp [pyRound] at k1
    · rcases betSizes_behind (K := K) d with ⟨e', x1, x2⟩ | ⟨x1, x2, x3, x4, x5, x6, x7, x8⟩
      · rw [hsz] at x1; cases x1
      · rw [x8] at k1; cases k1
    · rw [g1] at k1
      cases k1
      have ho : obs.call = c ∧ obs.minRaise = lo ∧ obs.maxRaise = hi := by
        rw [hsz] at g2
        simpa [Prod.mk.injEq] using g2
      rw [afterBet_congr (clean_same hd hp hz (show (atSeat d).betSizes = _ from g2) (isNeg_of_round g1))] at g3
      rw [afterBet_congr (clean_same hd' hp hz (show (atSeat (behind K d)).betSizes = _ from k2) (isNeg_of_round g1))] at k3
      have hbb : b' = b := by
        simp only [pyRound, Except.ok.injEq] at g1
        have := rounded_unique (roundHalfEven_rounded q) hr
        omega
      subst hbb
      have hx : SameAct (stack d a) c c' (Clubs.cleanBet b' c lo hi) (Clubs.cleanBet b' c' lo' hi') :=
        same_act (d := atSeat d) (K := K) hd hK ha hs g2 k2 ho hb
      rw [← hseat] at hx hin
      have hlt : d.seat < d.cfg.numPlayers := seat_lt (d := atSeat d) hd
      have e1 := afterBet_behind (fold := (PyNum.fin q).isNeg) hroom hlt hin hx
      have hroom2 : Roomy K (d.afterBet (PyNum.fin q).isNeg c (Clubs.cleanBet b' c lo hi)) := by
        exact afterBet_roomy hroom hlt hin hx
      rw [g3, k3, afterBet_shared, afterBet_shared, e1]
      obtain ⟨r1, r2⟩ := finish_behind (K := K) (d.afterBet (PyNum.fin q).isNeg c (Clubs.cleanBet b' c lo hi))
      refine ⟨r1, r2, fun hne => ?_⟩
      rcases finish_cases (d.afterBet (PyNum.fin q).isNeg c (Clubs.cleanBet b' c lo hi)) with
        ⟨e, -, hf⟩ | ⟨p, -, -, hf, -⟩ | ⟨p, -, -, hf, -⟩
      · rw [hf]; exact hroom2.pos
      · rw [hf] at hne; simp [Dealer.settle] at hne
      · rw [hf]; exact hroom2.pos

/-- **C109** for the array engine: a whole hand of careful bets is, bet by bet, the same whatever else the players have in front of them. -/
theorem C109_hand (h : ArrayInHand S d) (hnn : NonNegative S d.cfg) (hz : SizesOk d.cfg) (hn : d.action ≠ none → NobodyAllIn d) (hK : Extra K d)
    (bets : List Rat) (hw : ∀ l q, l ++ [q] <+: bets → ArrayCareful (arrayAfter d (l.map .fin)) q) :
    arrayAfter (behind K d) (bets.map .fin) = behind K (arrayAfter d (bets.map .fin)) ∧
    ∀ l q, l ++ [q] <+: bets → SameOut K (step (arrayAfter d (l.map .fin)) (.fin q)).2
      (step (arrayAfter (behind K d) (l.map .fin)) (.fin q)).2 := by
  induction bets generalizing d with
  | nil => exact ⟨rfl, fun l q hl => by simp at hl⟩
  | cons b bets ih =>
    have hb : ArrayCareful d b := hw [] b ⟨bets, rfl⟩
    have hne : d.action ≠ none := by
      obtain ⟨obs, a, x, -, h1, -⟩ := hb
      rw [h1]; simp
    obtain ⟨s1, s2, s3⟩ := C109_bet h hnn hz (hn hne) hK hb
    have hcfg : (step d (.fin b)).1.cfg = d.cfg := step_cfg d _
    have := ih (d := (step d (.fin b)).1) (.step _ h) (by rw [hcfg]; exact hnn) (by rw [hcfg]; exact hz) s3
      (by unfold Extra; rw [hcfg]; exact hK) (fun l q hl => by
        have := hw (b :: l) q (by rw [List.cons_append]; exact (List.prefix_cons_inj b).2 hl)
        simp only [arrayAfter, List.map_cons, List.foldl_cons] at this ⊢
        exact this)
    refine ⟨?_, ?_⟩
    · show arrayAfter (step (behind K d) (.fin b)).1 _ = behind K (arrayAfter (step d (.fin b)).1 _)
      rw [s1]; exact this.1
    · intro l q hl
      cases l with
      | nil =>
        obtain ⟨r, hr⟩ := hl
        simp only [List.nil_append, List.singleton_append, List.cons.injEq] at hr
        obtain ⟨rfl, -⟩ := hr
        exact s2
      | cons y l =>
        rw [List.cons_append] at hl
        obtain ⟨rfl, hl'⟩ := List.cons_prefix_cons.1 hl
        have := this.2 l q hl'
        simp only [arrayAfter, List.map_cons, List.foldl_cons] at this ⊢
        rw [s1]; exact this

/-- the forced bets of `_collect_multiple_bets` -/
def forced (d : Dealer) (bets : List Int) : List Int :=
  (d.stacks.zip (d.active.zip (npRoll bets (d.action.getD 0)))).map fun (stack, active, bet) => if stack > 0 ∧ active = true then bet else 0

theorem collect_forced (d : Dealer) (bets : List Int) (b : Bool) : collectMultipleBets d bets b = { d with
    streetCommits := if b then List.zipWith (· + ·) d.streetCommits (forced d bets) else d.streetCommits
    potCommits := List.zipWith (· + ·) d.potCommits (forced d bets)
    pot := d.pot + (forced d bets).sum
    «stacks» := List.zipWith (· - ·) d.stacks (forced d bets) } := by
  unfold collectMultipleBets forced
  simp only [able_eq]

theorem forced_behind (h : Roomy K d) (bets : List Int) : forced (behind K d) bets = forced d bets :=
  forced_swap _ (h.extra.1.trans h.stackLen.symm) h.extra.2 h.pos

theorem collect_behind (h : Roomy K d) (bets : List Int) (b : Bool) :
    collectMultipleBets (behind K d) bets b = behind K (collectMultipleBets d bets b) := by
  rw [collect_forced, collect_forced, forced_behind h]
  unfold behind
  simp only []
  rw [zip_sub_swap]

theorem forced_nonneg {bets : List Int} (hb : ∀ x ∈ bets, 0 ≤ x) (i : Nat) : 0 ≤ (forced d bets).getD i 0 := by
  refine list_getD_nonneg (fun x hx => ?_) i
  unfold forced at hx
  rw [List.mem_map] at hx
  obtain ⟨⟨s, a, y⟩, h1, rfl⟩ := hx
  simp only []
  split
  · have := (List.of_mem_zip (List.of_mem_zip h1).2).2
    unfold npRoll at this
    exact hb _ (roll_mem this)
  · exact le_rfl

theorem forced_length {bets : List Int} (h1 : d.stacks.length = d.cfg.numPlayers) (h2 : d.active.length = d.cfg.numPlayers)
    (h3 : bets.length = d.cfg.numPlayers) : (forced d bets).length = d.cfg.numPlayers := by
  simp [forced, npRoll, roll_length, h1, h2, h3]

/-- **C109** for the array engine: dealing a hand without new stacks does the same whatever else the players with chips have in front of
them, if nobody is all-in after antes and blinds. -/
theorem C109_deal {rb : Bool} {shuf : Shuffle} {obs : Observation} (hd : Seated (atSeat d)) (hK : Extra K d)
    (hbroke : ∀ i < d.cfg.numPlayers, stack d i ≤ 0 → stack d i + K.getD i 0 ≤ 0) (hblinds : ∀ x ∈ d.cfg.blinds, 0 ≤ x)
    (hr : reset d rb false shuf = (d', .ok obs)) (hn : NobodyAllIn d') :
    (reset (behind K d) rb false shuf).1 = behind K d' ∧
    (reset (behind K d) rb false shuf).2.map sansSizes = .ok (sansSizes (behindObs K obs)) := by
  have hsl : d.stacks.length = d.cfg.numPlayers := hd.stacks
  have hact := active_behind hsl hK hbroke
  have hfresh : fresh (behind K d) rb false shuf = behind K (fresh d rb false shuf) := by
    unfold fresh Dealer.fresh
    have e : (behind K d).stacks = List.zipWith (· + ·) d.stacks K := rfl
    simp only [Bool.false_eq_true, if_false]
    rw [e, hact]
    rfl
  have hstart : blindStart (behind K d) rb false shuf = behind K (blindStart d rb false shuf) := by
    unfold blindStart
    rw [hfresh]
    have e : (behind K d).cfg.numPlayers = d.cfg.numPlayers := rfl
    rw [e]
    split <;> rfl
  have hf : (blindStart d rb false shuf).cfg = d.cfg ∧ (blindStart d rb false shuf).active = (d.stacks.map fun s => decide (s > 0)) ∧
      (blindStart d rb false shuf).stacks = d.stacks := by
    unfold blindStart
    split <;> exact ⟨rfl, rfl, rfl⟩
  obtain ⟨hcfg, bact, bst⟩ := hf
  have r1 : Roomy K (blindStart d rb false shuf) := by
    refine ⟨by rw [bact, hcfg, List.length_map, hsl], by rw [bst, hcfg, hsl], by unfold Extra; rw [hcfg]; exact hK, fun i hi => ?_⟩
    unfold isIn at hi
    unfold stack
    rw [bact] at hi
    rw [bst]
    by_cases hlt : i < d.stacks.length
    · rw [getD_map _ _ _ 0 _ hlt] at hi
      simpa using hi
    · rw [List.getD_eq_default _ _ (by simpa using hlt)] at hi; cases hi
  have hpd : reset d rb false shuf =
      ((posted d rb false shuf).moveAction.moveAction, observation (posted d rb false shuf).moveAction.moveAction false) := by
    rcases reset_eq d rb false shuf with ⟨-, -, g⟩ | ⟨-, ⟨-, g⟩ | ⟨-, g⟩⟩
    · rw [hr] at g; simp at g
    · rw [hr] at g; simp at g
    · exact g
  have hpb : reset (behind K d) rb false shuf = ((posted (behind K d) rb false shuf).moveAction.moveAction,
      observation (posted (behind K d) rb false shuf).moveAction.moveAction false) := by
    have hst : (behind K d).stacks = List.zipWith (· + ·) d.stacks K := rfl
    rcases reset_eq d rb false shuf with ⟨-, -, g⟩ | ⟨g1, ⟨-, g⟩ | ⟨g2, -⟩⟩
    · rw [hr] at g; simp at g
    · rw [hr] at g; simp at g
    · rcases reset_eq (behind K d) rb false shuf with ⟨-, k, -⟩ | ⟨-, ⟨k, -⟩ | ⟨-, k⟩⟩
      · rw [hst, hact] at k
        rcases g1 with g1 | g1
        · cases g1
        · omega
      · have : d.cfg.numCommunityCards.length = 0 := k
        omega
      · exact k
  set A := collectMultipleBets (blindStart d rb false shuf) d.cfg.antes false with hA
  have cA : A.cfg = d.cfg := hcfg
  have aA : A.active.length = A.cfg.numPlayers := r1.active
  have lA : A.stacks.length = A.cfg.numPlayers := by
    rw [hA, collect_forced]
    show (List.zipWith (fun x y : Int => x - y) (blindStart d rb false shuf).stacks _).length = (blindStart d rb false shuf).cfg.numPlayers
    rw [List.length_zipWith, forced_length r1.stackLen r1.active (by rw [hcfg]; exact hd.antes), r1.stackLen, Nat.min_self]
  have hd' : d' = (collectMultipleBets A d.cfg.blinds true).moveAction.moveAction := by
    rw [hr] at hpd
    simp only [Prod.mk.injEq] at hpd
    exact hpd.1
  have r2 : Roomy K A := by
    refine ⟨aA, lA, by unfold Extra; rw [cA]; exact hK, fun i hi => ?_⟩
    have hlt : i < A.cfg.numPlayers := by
      rw [← aA]
      by_contra hc
      unfold isIn at hi
      rw [List.getD_eq_default _ _ (by omega)] at hi
      cases hi
    have hbl : d.cfg.blinds.length = A.cfg.numPlayers := by rw [cA]; exact hd.blinds
    have h1 : isIn d' i := by rw [hd']; exact hi
    have h2 := hn i h1
    have h3 : stack d' i = stack A i - (forced A d.cfg.blinds).getD i 0 := by
      rw [hd', collect_forced]
      exact getD_zipWith (fun x y : Int => x - y) A.stacks (forced A d.cfg.blinds) i 0 0 0 (by rw [lA]; exact hlt)
        (by rw [forced_length lA aA hbl]; exact hlt)
    have h4 : 0 ≤ (forced A d.cfg.blinds).getD i 0 := forced_nonneg hblinds i
    omega
  have hposted : posted (behind K d) rb false shuf = behind K (posted d rb false shuf) := by
    unfold posted
    rw [hstart]
    have e1 : (behind K d).cfg = d.cfg := rfl
    rw [e1, collect_behind r1, ← hA, collect_behind r2]
  rw [hpb, hposted]
  have e : (behind K (posted d rb false shuf)).moveAction.moveAction = behind K d' := by rw [hd']; rfl
  rw [e]
  refine ⟨rfl, ?_⟩
  have hobs : d'.observation false = .ok obs := by
    rw [hr] at hpd
    simp only [Prod.mk.injEq] at hpd
    rw [hpd.1, hpd.2]
    rfl
  show ((behind K d').observation false).map sansSizes = _
  rw [observation_behind, hobs]
  rfl

/-! ## examples -/

/-- check `ArrayCareful` along some whole bets -/
def carefulRun (d : Dealer) (obs : Observation) : List Int → Bool
  | [] => true
  | b :: bs =>
    (match d.action with
      | some a => decide (Careful obs (stack d a) b)
      | none => false) &&
    match step d (.fin b) with
    | (e, .ok o) => carefulRun e o.1 bs
    | _ => false

theorem careful_of_run {d : Dealer} {obs : Observation} (hs : ArrayShows d obs) {bets : List Int}
    (h : carefulRun d obs bets = true) (l : List Rat) (q : Rat) (hl : l ++ [q] <+: bets.map (fun b : Int => (b : Rat))) :
    ArrayCareful (arrayAfter d (l.map .fin)) q := by
  induction bets generalizing d obs l with
  | nil => simp at hl
  | cons b bets ih =>
    unfold carefulRun at h
    simp only [Bool.and_eq_true] at h
    obtain ⟨h1, h5⟩ := h
    cases l with
    | nil =>
      obtain ⟨r, hr⟩ := hl
      simp only [List.nil_append, List.singleton_append, List.map_cons, List.cons.injEq] at hr
      obtain ⟨rfl, -⟩ := hr
      cases ha : d.action with
      | none => rw [ha] at h1; cases h1
      | some a =>
        rw [ha] at h1
        exact ⟨obs, a, b, hs, ha, by unfold Rounded; simp, of_decide_eq_true h1⟩
    | cons y l =>
      rw [List.cons_append, List.map_cons] at hl
      obtain ⟨rfl, hl'⟩ := List.cons_prefix_cons.1 hl
      split at h5
      · next e o g =>
        have := ih (.inr ⟨_, _, _, _, g⟩) h5 l hl'
        simp only [arrayAfter, List.map_cons, List.foldl_cons] at this ⊢
        rw [g]; exact this
      · cases h5

/-- a table and a hand dealt there, from a computation -/
theorem behind_exists (a : DealerArgs) {P : Dealer → Dealer → Observation → Prop} [∀ d e o, Decidable (P d e o)]
    (h : (Numpy.new a id).bind (fun d => .ok (match reset d true false id with
      | (e, .ok o) => decide ((∀ s ∈ startStacks d false, 0 ≤ s) ∧ (∀ s ∈ e.cfg.blinds, 0 ≤ s) ∧ (∀ s ∈ e.cfg.antes, 0 ≤ s) ∧ P d e o)
      | _ => false)) = .ok true) :
    ∃ d d' obs, Seated (atSeat d) ∧ reset d true false id = (d', .ok obs) ∧ ArrayInHand (startStacks d false) d' ∧
      NonNegative (startStacks d false) d'.cfg ∧ ArrayShows d' obs ∧ P d d' obs := by
  cases ht : Numpy.new a id with
  | error x => rw [ht] at h; cases h
  | ok d =>
    rw [ht] at h
    simp only [Except.bind, Except.ok.injEq] at h
    have hi : IsShuffle id := fun _ => .refl _
    have hseat : Seated (atSeat d) := new_atSeat ht
    split at h
    · next e o g =>
      rw [decide_eq_true_eq] at h
      obtain ⟨n1, n2, n3, h3⟩ := h
      exact ⟨d, e, o, hseat, g, .dealt hseat hi g, ⟨n1, n2, n3⟩, .inl ⟨_, _, _, _, g⟩, h3⟩
    · cases h

/-- the hypotheses of `C109_deal`, `C109_bet` and `C109_hand`: two raises on the first street, a check, a bet and a fold on the second -/
example : ∃ d d' obs, Seated (atSeat d) ∧ reset d true false id = (d', .ok obs) ∧ ArrayInHand (startStacks d false) d' ∧
    NonNegative (startStacks d false) d'.cfg ∧ ArrayShows d' obs ∧
    (Extra [100, 0, 7] d ∧ (∀ i < d.cfg.numPlayers, stack d i ≤ 0 → stack d i + [100, 0, 7].getD i 0 ≤ 0) ∧
      (∀ x ∈ d.cfg.blinds, 0 ≤ x) ∧ NobodyAllIn d' ∧ obs.maxRaise = 40 ∧ 0 ≤ d'.cfg.bigBlind ∧ d'.cfg.raiseSizes = [.inf, .inf] ∧
      carefulRun d' obs [6, 13, -1, 8, 0, 9, -1] = true ∧
      (arrayAfter d' ([6, 13, -1, 8, 0, 9, -1].map .fin)).action = none) := by
  obtain ⟨d, d', obs, h1, h2, h3, h3', h4, h5⟩ := behind_exists (P := fun d d' obs => Extra [100, 0, 7] d ∧
      (∀ i < d.cfg.numPlayers, stack d i ≤ 0 → stack d i + [100, 0, 7].getD i 0 ≤ 0) ∧
      (∀ x ∈ d.cfg.blinds, 0 ≤ x) ∧ (∀ i < d'.active.length, isIn d' i → 0 < stack d' i) ∧ obs.maxRaise = 40 ∧
      0 ≤ d'.cfg.bigBlind ∧ d'.cfg.raiseSizes = [.inf, .inf] ∧
      carefulRun d' obs [6, 13, -1, 8, 0, 9, -1] = true ∧
      (arrayAfter d' ([6, 13, -1, 8, 0, 9, -1].map .fin)).action = none) (small 3 [1, 2, 0] 40) (by decide +kernel)
  obtain ⟨k1, k2, k3, k4, k5⟩ := h5
  refine ⟨d, d', obs, h1, h2, h3, h3', h4, k1, k2, k3, fun i hi => k4 i ?_ hi, k5⟩
  by_contra hc
  unfold isIn at hi
  rw [List.getD_eq_default _ _ (by omega)] at hi
  cases hi

/-- **C109** without a big blind, for the array engine -/
theorem C109_false : ∃ d d' obs, Seated (atSeat d) ∧ reset d true false id = (d', .ok obs) ∧ ArrayInHand (startStacks d false) d' ∧
    NonNegative (startStacks d false) d'.cfg ∧ ArrayShows d' obs ∧
    (d'.stacks = [40, 40, 40] ∧ d'.active = [true, true, true] ∧ Extra [1000, 1000, 1000] d' ∧ obs.minRaise ≤ 30 ∧ 30 ≤ obs.maxRaise ∧
      (step d' (.fin 30)).1.pot = 30 ∧ (step (behind [1000, 1000, 1000] d') (.fin 30)).1.pot = 0) :=
  behind_exists (small 3 [0, 0, 0] 40) (by decide +kernel)

end Clubs.Numpy
