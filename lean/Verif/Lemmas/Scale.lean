import Verif.Lemmas.Showdown
import Verif.Spec.Scale

/-!
# Every method commutes with a change of the unit of chips
-/

namespace Clubs

open Spec

variable {k : Int} {d : Dealer}

/-! ## lists and numbers -/

theorem getD_scaleAll (l : List Int) (i : Nat) : (scaleAll k l).getD i 0 = k * l.getD i 0 := by
  unfold scaleAll
  by_cases h : i < l.length
  · simp [List.getD_eq_getElem?_getD, h]
  · simp [List.getD_eq_getElem?_getD, h]

theorem scaleAll_replicate (n : Nat) (a : Int) : scaleAll k (List.replicate n a) = List.replicate n (k * a) := by
  simp [scaleAll]

theorem scaleAll_length (l : List Int) : (scaleAll k l).length = l.length := by simp [scaleAll]

theorem scaleAll_sum (l : List Int) : (scaleAll k l).sum = k * l.sum := by
  induction l with
  | nil => simp [scaleAll]
  | cons a l ih =>
    show k * a + (scaleAll k l).sum = _
    rw [ih, List.sum_cons, mul_add]

theorem scaleAll_add (a b : List Int) : List.zipWith (· + ·) (scaleAll k a) (scaleAll k b) = scaleAll k (List.zipWith (· + ·) a b) := by
  unfold scaleAll
  rw [List.zipWith_map, List.map_zipWith]
  simp only [mul_add]

theorem scaleAll_sub (a b : List Int) : List.zipWith (· - ·) (scaleAll k a) (scaleAll k b) = scaleAll k (List.zipWith (· - ·) a b) := by
  unfold scaleAll
  rw [List.zipWith_map, List.map_zipWith]
  simp only [mul_sub]

theorem scaleAll_modify_add (l : List Int) (i : Nat) (x : Int) :
    (scaleAll k l).modify i (· + k * x) = scaleAll k (l.modify i (· + x)) := by
  unfold scaleAll
  refine List.ext_getElem? fun j => ?_
  simp only [List.getElem?_modify, List.getElem?_map]
  cases l[j]? with
  | none => simp
  | some y => by_cases h : i = j <;> simp [h, mul_add]

theorem scaleAll_modify_sub (l : List Int) (i : Nat) (x : Int) :
    (scaleAll k l).modify i (· - k * x) = scaleAll k (l.modify i (· - x)) := by
  unfold scaleAll
  refine List.ext_getElem? fun j => ?_
  simp only [List.getElem?_modify, List.getElem?_map]
  cases l[j]? with
  | none => simp
  | some y => by_cases h : i = j <;> simp [h, mul_sub]

theorem roll_scale (l : List Int) (a : Nat) : roll (scaleAll k l) a = scaleAll k (roll l a) := by
  unfold roll scaleAll
  split
  · rfl
  · simp [List.map_drop, List.map_take]

theorem scale_min (hk : 0 < k) (a b : Int) : min (k * a) (k * b) = k * min a b := (mul_min_of_nonneg a b hk.le).symm
theorem scale_max (hk : 0 < k) (a b : Int) : max (k * a) (k * b) = k * max a b := (mul_max_of_nonneg a b hk.le).symm

theorem scale_lt (hk : 0 < k) (a b : Int) : k * a < k * b ↔ a < b := by
  constructor
  · intro h; exact lt_of_mul_lt_mul_left h hk.le
  · intro h; exact mul_lt_mul_of_pos_left h hk

theorem scale_le (hk : 0 < k) (a b : Int) : k * a ≤ k * b ↔ a ≤ b := by
  rw [← not_lt, ← not_lt, scale_lt hk]

theorem scale_eq (hk : 0 < k) (a b : Int) : k * a = k * b ↔ a = b := by
  constructor
  · intro h; exact Int.eq_of_mul_eq_mul_left (by omega) h
  · rintro rfl; rfl

theorem scale_zero (hk : 0 < k) (a : Int) : k * a = 0 ↔ a = 0 := by
  have := scale_eq hk a 0
  rwa [mul_zero] at this

theorem scale_pos (hk : 0 < k) (a : Int) : 0 < k * a ↔ 0 < a := by
  have := scale_lt hk 0 a
  rwa [mul_zero] at this

theorem pyMax_scale (hk : 0 < k) (l : List Int) : pyMax (scaleAll k l) = k * pyMax l := by
  have key : ∀ (l : List Int) (a : Int), (scaleAll k l).foldl max (k * a) = k * l.foldl max a := by
    intro l
    induction l with
    | nil => intro a; rfl
    | cons b l ih =>
      intro a
      show (scaleAll k l).foldl max (max (k * a) (k * b)) = _
      rw [scale_max hk, ih]
      rfl
  cases l with
  | nil => simp [pyMax, scaleAll]
  | cons a l => exact key l a

theorem argmin_scale (hk : 0 < k) (l : List Int) : argmin (scaleAll k l) = argmin l := by
  have key : ∀ (l : List Int) (i j : Nat) (m : Option Int), argminLoop (scaleAll k l) i (m.map (k * ·)) j = argminLoop l i m j := by
    intro l
    induction l with
    | nil => intro i j m; rfl
    | cons a l ih =>
      intro i j m
      show argminLoop (k * a :: scaleAll k l) i _ j = _
      unfold argminLoop
      have h1 := ih (i + 1) i (some a)
      have h2 := ih (i + 1) j m
      cases m with
      | none => simp only [Option.map_none, if_true]; exact h1
      | some b =>
        simp only [Option.map_some, scale_lt hk]
        split
        · exact h1
        · exact h2
  exact key l 0 0 none

theorem iabs_scale (hk : 0 < k) (a : Int) : iabs (k * a) = k * iabs a := by
  unfold iabs
  have := scale_lt hk a 0
  rw [mul_zero] at this
  simp only [this]
  split
  · rw [mul_neg]
  · rfl

theorem cleanBet_scale (hk : 0 < k) (b c lo hi : Int) : cleanBet (k * b) (k * c) (k * lo) (k * hi) = k * cleanBet b c lo hi := by
  unfold cleanBet
  have h0 : max 0 (k * b) = k * max 0 b := by rw [← scale_max hk, mul_zero]
  have h1 : ([0, k * c, k * lo, k * hi].map fun v => iabs (v - k * max 0 b)) =
      scaleAll k ([0, c, lo, hi].map fun v => iabs (v - max 0 b)) := by
    simp only [scaleAll, List.map_cons, List.map_nil, ← iabs_scale hk, mul_sub, mul_zero]
  simp only [h0, h1, argmin_scale hk]
  split
  · rfl
  · split
    · rw [scale_max hk, scale_min hk]
    · rw [mul_zero]

/-! ## bets -/

theorem round_scale {bet : PyNum} (hw : WholeBet bet) : pyRound (scaleBet k bet) = (pyRound bet).map (k * ·) := by
  cases bet with
  | fin q =>
    obtain ⟨z, rfl⟩ := hw q rfl
    have e : ∀ b : Int, roundHalfEven (b : Rat) = b := by
      intro b
      unfold roundHalfEven
      simp only [Rat.floor_intCast, sub_self]
      rw [if_pos (by norm_num)]
    show Except.ok (roundHalfEven ((k : Rat) * (z : Rat))) = Except.ok (k * roundHalfEven (z : Rat))
    rw [← Int.cast_mul, e, e]
  | posInf => rfl
  | negInf => rfl
  | nan => rfl

theorem isNeg_scale (hk : 0 < k) (bet : PyNum) : (scaleBet k bet).isNeg = bet.isNeg := by
  cases bet with
  | fin q =>
    show decide ((k : Rat) * q < 0) = decide (q < 0)
    have hk' : (0 : Rat) < k := by exact_mod_cast hk
    rw [decide_eq_decide]
    constructor
    · intro h; by_contra h'; have := mul_nonneg hk'.le (not_lt.1 h'); linarith
    · intro h; exact mul_neg_of_pos_of_neg hk' h
  | posInf => rfl
  | negInf => rfl
  | nan => rfl

theorem seat_scale (d : Dealer) : (scaleTable k d).seat = d.seat := rfl

theorem betSizes_scale (hk : 0 < k) (d : Dealer) :
    (scaleTable k d).betSizes = d.betSizes.map fun r => (k * r.1, k * r.2.1, k * r.2.2) := by
  unfold Dealer.betSizes
  simp only []
  show (match (d.cfg.raiseSizes.map (scaleSize k))[d.street]? with | none => _ | some raiseSize => _) = _
  rw [List.getElem?_map]
  cases d.cfg.raiseSizes[d.street]? with
  | none => rfl
  | some r =>
    simp only [Option.map_some]
    show (match d.cfg.numRaises[d.street]? with | none => _ | some numRaises => _) = _
    cases d.cfg.numRaises[d.street]? with
    | none => rfl
    | some m =>
      simp only []
      have e1 : pyMax (scaleTable k d).streetCommits - (scaleTable k d).streetCommits.getD (scaleTable k d).seat 0 =
          k * (pyMax d.streetCommits - d.streetCommits.getD d.seat 0) := by
        show pyMax (scaleAll k d.streetCommits) - (scaleAll k d.streetCommits).getD d.seat 0 = _
        rw [pyMax_scale hk, getD_scaleAll, mul_sub]
      have e2 : (scaleTable k d).stacks.getD (scaleTable k d).seat 0 = k * d.stacks.getD d.seat 0 := getD_scaleAll _ _
      rw [e1, e2]
      generalize pyMax d.streetCommits - d.streetCommits.getD d.seat 0 = c
      generalize d.stacks.getD d.seat 0 = s
      have e4 : max (scaleTable k d).cfg.bigBlind ((scaleTable k d).largestRaise + k * c) = k * max d.cfg.bigBlind (d.largestRaise + c) := by
        show max (k * d.cfg.bigBlind) (k * d.largestRaise + k * c) = _
        rw [← mul_add, scale_max hk]
      have e5 : (scaleTable k d).pot = k * d.pot := rfl
      have e6 : (scaleTable k d).streetRaises = d.streetRaises := rfl
      have e7 : (scaleTable k d).largestRaise = k * d.largestRaise := rfl
      have e8 : ∀ q : Int × Int, Except.ok (min (k * c) (k * s), min (k * q.1) (k * s), min (k * q.2) (k * s)) =
          Except.map (fun r : Int × Int × Int => (k * r.1, k * r.2.1, k * r.2.2))
            (Except.ok (min c s, min q.1 s, min q.2 s) : Except Err _) := by
        intro q
        simp only [Except.map, scale_min hk]
      have e9 := e8 (0, 0)
      simp only [mul_zero] at e9
      cases r with
      | int n =>
        simp only [scaleSize, e6, e7, scale_lt hk, ← mul_add]
        split_ifs
        · exact e9
        · exact e9
        · exact e8 (n + c, n + c)
      | pot =>
        simp only [scaleSize, e4, e5, e6]
        rw [e7]
        simp only [scale_lt hk, mul_assoc, ← mul_add]
        split_ifs
        · exact e9
        · exact e9
        · exact e8 (_, _)
      | inf =>
        simp only [scaleSize, e4, e6]
        rw [e7]
        simp only [scale_lt hk]
        split_ifs
        · exact e9
        · exact e9
        · exact e8 (_, _)

/-! ## the table -/

theorem acted_scale (hk : 0 < k) (d : Dealer) (fold : Bool) (c b : Int) :
    (scaleTable k d).acted fold (k * c) (k * b) = scaleTable k (d.acted fold c b) := by
  unfold Dealer.acted
  have h1 : (k * c ≠ 0 ∧ (k * b < k * c ∨ fold = true)) ↔ (c ≠ 0 ∧ (b < c ∨ fold = true)) := by
    rw [Ne, scale_zero hk, scale_lt hk]
  have h2 : (if k * c ≠ 0 ∧ (k * b < k * c ∨ fold = true) then 0 else k * b) =
      k * (if c ≠ 0 ∧ (b < c ∨ fold = true) then 0 else b) := by
    simp only [h1]
    split
    · rw [mul_zero]
    · rfl
  simp only [h2]
  generalize (if c ≠ 0 ∧ (b < c ∨ fold = true) then 0 else b) = b'
  have h3 : (k * b' ≠ 0 ∧ k * b' - k * c ≥ (scaleTable k d).largestRaise) ↔ (b' ≠ 0 ∧ b' - c ≥ d.largestRaise) := by
    show (k * b' ≠ 0 ∧ k * d.largestRaise ≤ k * b' - k * c) ↔ _
    rw [Ne, scale_zero hk, ← mul_sub, scale_le hk]
  have h4 : min ((scaleTable k d).stacks.getD (scaleTable k d).seat 0) (k * b') = k * min (d.stacks.getD d.seat 0) b' := by
    show min ((scaleAll k d.stacks).getD d.seat 0) (k * b') = _
    rw [getD_scaleAll, scale_min hk]
  simp only [h1, h3, h4]
  generalize min (d.stacks.getD d.seat 0) b' = x
  unfold scaleTable
  simp only [Dealer.mk.injEq, true_and]
  refine ⟨rfl, ?_, ?_, ?_, ?_, ?_, ?_, rfl, trivial⟩
  · simp [List.map_append, Dealer.seat]; rfl
  · split
    · rw [mul_sub]
    · rfl
  · rw [mul_add]
  · exact scaleAll_modify_add _ _ _
  · exact scaleAll_modify_sub _ _ _
  · exact scaleAll_modify_add _ _ _

theorem act_scale (hk : 0 < k) (d : Dealer) (fold : Bool) (c b : Int) :
    (scaleTable k d).act fold (k * c) (k * b) = scaleTable k (d.act fold c b) := by
  rw [act_eq, act_eq, acted_scale hk]; rfl

theorem zipWith_zero_scale (hk : 0 < k) (as : List Bool) (xs : List Int) :
    List.zipWith (fun (active : Bool) stack => active && stack == 0) as (scaleAll k xs) =
      List.zipWith (fun (active : Bool) stack => active && stack == 0) as xs := by
  unfold scaleAll
  rw [List.zipWith_map_right]
  simp only [beq_eq_decide, scale_zero hk]

theorem allAllIn_scale (hk : 0 < k) (d : Dealer) : (scaleTable k d).allAllIn = d.allAllIn := by
  unfold Dealer.allAllIn
  show decide ((countTrue d.active : Int) - (countTrue (List.zipWith _ d.active (scaleAll k d.stacks)) : Int) ≤ 1) = _
  rw [zipWith_zero_scale hk]

theorem dealStreets_scale (hk : 0 < k) (fuel : Nat) (d : Dealer) : dealStreets fuel (scaleTable k d) = scaleTable k (dealStreets fuel d) := by
  induction fuel generalizing d with
  | zero => rfl
  | succ fuel ih =>
    rw [dealStreets, dealStreets]
    simp only []
    by_cases h1 : d.street + 1 ≥ d.cfg.numStreets
    · rw [if_pos h1, if_pos (show (scaleTable k d).street + 1 ≥ (scaleTable k d).cfg.numStreets from h1)]; rfl
    · rw [if_neg h1, if_neg (show ¬ (scaleTable k d).street + 1 ≥ (scaleTable k d).cfg.numStreets from h1)]
      generalize hX : ({ d with street := d.street + 1
                                communityCards := d.communityCards ++ (d.deck.draw (d.cfg.numCommunityCards.getD (d.street + 1) 0)).1
                                deck := (d.deck.draw (d.cfg.numCommunityCards.getD (d.street + 1) 0)).2 } : Dealer) = x
      have hX' : scaleTable k x = { scaleTable k d with
          street := (scaleTable k d).street + 1
          communityCards := (scaleTable k d).communityCards ++
            ((scaleTable k d).deck.draw ((scaleTable k d).cfg.numCommunityCards.getD ((scaleTable k d).street + 1) 0)).1
          deck := ((scaleTable k d).deck.draw ((scaleTable k d).cfg.numCommunityCards.getD ((scaleTable k d).street + 1) 0)).2 } := by
        rw [← hX]; rfl
      rw [← hX', ih, allAllIn_scale hk]
      split <;> rfl

theorem nextStreet_scale (hk : 0 < k) (d : Dealer) : (scaleTable k d).nextStreet = scaleTable k d.nextStreet := by
  have e : ({ scaleTable k d with action := some (scaleTable k d).button } : Dealer).moveAction =
      scaleTable k ({ d with action := some d.button } : Dealer).moveAction := rfl
  have e2 := dealStreets_scale hk (d.cfg.numStreets + 1) ({ d with action := some d.button } : Dealer).moveAction
  rw [← e] at e2
  have e3 : ∀ x y : Dealer, x = scaleTable k y → ({ x with
      streetCommits := List.replicate x.cfg.numPlayers 0
      streetOption := x.active.map fun a => !a
      streetRaises := 0 } : Dealer) = scaleTable k { y with
        streetCommits := List.replicate y.cfg.numPlayers 0
        streetOption := y.active.map fun a => !a
        streetRaises := 0 } := by
    rintro x y rfl
    unfold scaleTable
    simp only [scaleAll_replicate, mul_zero]
    rfl
  exact e3 _ _ e2

theorem allAgreed_scale (hk : 0 < k) (d : Dealer) : (scaleTable k d).allAgreed = d.allAgreed := by
  unfold Dealer.allAgreed
  show (if (!(d.streetOption.all id)) = true then false else _) = _
  have e1 : (scaleAll k d.streetCommits).map (fun c => c == pyMax (scaleAll k d.streetCommits)) =
      d.streetCommits.map fun c => c == pyMax d.streetCommits := by
    rw [pyMax_scale hk]
    unfold scaleAll
    rw [List.map_map]
    refine List.map_congr_left fun c _ => ?_
    show (k * c == k * pyMax d.streetCommits) = _
    simp only [beq_eq_decide, scale_eq hk]
  have e2 : (scaleAll k d.stacks).map (fun s => s == 0) = d.stacks.map fun s => s == 0 := by
    unfold scaleAll
    rw [List.map_map]
    refine List.map_congr_left fun c _ => ?_
    show (k * c == 0) = _
    simp only [beq_eq_decide, scale_zero hk]
  split
  · rfl
  · show (List.zipWith _ (List.zipWith _ ((scaleAll k d.streetCommits).map fun c => c == pyMax (scaleAll k d.streetCommits))
      ((scaleAll k d.stacks).map _)) _).all id = _
    rw [e1, e2]
    rfl

theorem afterBet_scale (hk : 0 < k) (d : Dealer) (fold : Bool) (c b : Int) :
    (scaleTable k d).afterBet fold (k * c) (k * b) = scaleTable k (d.afterBet fold c b) := by
  unfold Dealer.afterBet
  rw [act_scale hk, nextStreet_scale hk, allAgreed_scale hk]
  split <;> rfl

theorem observation_scale (hk : 0 < k) (d : Dealer) (b : Bool) : (scaleTable k d).observation b = (d.observation b).map (scaleView k) := by
  unfold Dealer.observation
  rw [betSizes_scale hk]
  have e : (if b = true then .ok (0, 0, 0) else Except.map (fun r : Int × Int × Int => (k * r.1, k * r.2.1, k * r.2.2)) d.betSizes :
      Except Err (Int × Int × Int)) =
      Except.map (fun r : Int × Int × Int => (k * r.1, k * r.2.1, k * r.2.2)) (if b = true then .ok (0, 0, 0) else d.betSizes) := by
    cases b with
    | false => rfl
    | true => simp [Except.map]
  rw [e]
  cases (if b = true then .ok (0, 0, 0) else d.betSizes : Except Err (Int × Int × Int)) with
  | error e => rfl
  | ok r =>
    obtain ⟨c, lo, hi⟩ := r
    simp only [Except.map]
    show (match pyGet d.holeCards (match d.action with | some a => (a : Int) | none => -1) with
      | .error e => _ | .ok hole => _) = _
    cases pyGet d.holeCards (match d.action with | some a => (a : Int) | none => -1) with
    | error e => rfl
    | ok hole => rfl

theorem done_scale (hk : 0 < k) (d : Dealer) : (scaleTable k d).done = d.done := by
  unfold Dealer.done
  show (if d.street ≥ d.cfg.numStreets ∨ countTrue d.active ≤ 1 then List.replicate d.cfg.numPlayers true else
    List.zipWith _ d.active (scaleAll k d.stacks)) = _
  split
  · rfl
  · unfold scaleAll
    rw [List.zipWith_map_right]
    simp only [beq_eq_decide, scale_zero hk]

/-! ## `reset` -/

theorem forcedBets_scale (hk : 0 < k) (d : Dealer) (bets : List Int) :
    (scaleTable k d).forcedBets (scaleAll k bets) = scaleAll k (d.forcedBets bets) := by
  have key : ∀ (xs : List Int) (as : List Bool) (bs : List Int),
      ((scaleAll k xs).zip (as.zip (scaleAll k bs))).map (fun (stack, active, bet) => if stack > 0 ∧ active = true then bet else 0) =
      scaleAll k ((xs.zip (as.zip bs)).map fun (stack, active, bet) => if stack > 0 ∧ active = true then bet else 0) := by
    intro xs
    induction xs with
    | nil => intro as bs; rfl
    | cons x xs ih =>
      intro as bs
      cases as with
      | nil => rfl
      | cons a as =>
        cases bs with
        | nil => rfl
        | cons b bs =>
          have := ih as bs
          simp only [scaleAll, List.map_cons, List.zip_cons_cons] at this ⊢
          rw [this]
          congr 1
          have hp := scale_pos hk x
          by_cases hx : 0 < x ∧ a = true
          · rw [if_pos ⟨hp.2 hx.1, hx.2⟩, if_pos hx]
          · rw [if_neg (fun h => hx ⟨hp.1 h.1, h.2⟩), if_neg hx, mul_zero]
  unfold Dealer.forcedBets
  rw [roll_scale]
  exact key d.stacks d.active (roll bets d.seat)

theorem collect_scale (hk : 0 < k) (d : Dealer) (bets : List Int) (b : Bool) :
    (scaleTable k d).collectMultipleBets (scaleAll k bets) b = scaleTable k (d.collectMultipleBets bets b) := by
  unfold Dealer.collectMultipleBets
  simp only [forcedBets_scale hk]
  unfold scaleTable
  simp only [scaleAll_add, scaleAll_sub, scaleAll_sum, mul_add]
  cases b <;> rfl

theorem able_scale (hk : 0 < k) (l : List Int) : ((scaleAll k l).map fun s => decide (s > 0)) = l.map fun s => decide (s > 0) := by
  unfold scaleAll
  rw [List.map_map]
  refine List.map_congr_left fun x _ => ?_
  show decide (0 < k * x) = decide (0 < x)
  rw [decide_eq_decide]
  exact scale_pos hk x

theorem fresh_scale (hk : 0 < k) (d : Dealer) (rb rs : Bool) (shuf : Shuffle) :
    (scaleTable k d).fresh rb rs shuf = scaleTable k (d.fresh rb rs shuf) := by
  unfold Dealer.fresh startStacks
  have h1 : (scaleTable k d).stacks = scaleAll k d.stacks := rfl
  have h2 : (scaleTable k d).cfg.startStack = k * d.cfg.startStack := rfl
  rw [h1, able_scale hk, h2]
  unfold scaleTable
  simp only [scaleAll_replicate, mul_zero]
  cases rs
  · rfl
  · simp only [if_true, scaleAll_replicate]; rfl

theorem posted_scale (hk : 0 < k) (d : Dealer) (rb rs : Bool) (shuf : Shuffle) :
    (scaleTable k d).posted rb rs shuf = scaleTable k (d.posted rb rs shuf) := by
  have hb : (scaleTable k d).blindStart rb rs shuf = scaleTable k (d.blindStart rb rs shuf) := by
    unfold Dealer.blindStart
    rw [fresh_scale hk]
    show (if d.cfg.numPlayers > 2 then _ else _) = _
    split <;> rfl
  unfold Dealer.posted
  rw [hb]
  show ((scaleTable k (d.blindStart rb rs shuf)).collectMultipleBets (scaleAll k d.cfg.antes) false).collectMultipleBets
    (scaleAll k d.cfg.blinds) true = _
  rw [collect_scale hk, collect_scale hk]

theorem reset_scale (hk : 0 < k) (d : Dealer) (rb rs : Bool) (shuf : Shuffle) :
    (scaleTable k d).reset rb rs shuf = (scaleTable k (d.reset rb rs shuf).1, (d.reset rb rs shuf).2.map (scaleView k)) := by
  have ha : (scaleTable k d).stacks.map (fun s => decide (s > 0)) = d.stacks.map fun s => decide (s > 0) := able_scale hk d.stacks
  rcases reset_eq d rb rs shuf with ⟨h1, h2, h3⟩ | ⟨h1, ⟨h2, h3⟩ | ⟨h2, h3⟩⟩
  · rcases reset_eq (scaleTable k d) rb rs shuf with ⟨g1, g2, g3⟩ | ⟨g1, -⟩
    · rw [h3, g3, ha]; rfl
    · exfalso
      rw [ha] at g1
      rcases g1 with g1 | g1
      · rw [h1] at g1; simp at g1
      · omega
  · rcases reset_eq (scaleTable k d) rb rs shuf with ⟨g1, g2, g3⟩ | ⟨g1, ⟨g2, g3⟩ | ⟨g2, g3⟩⟩
    · exfalso
      rw [ha] at g2
      rcases h1 with h1 | h1
      · rw [h1] at g1; simp at g1
      · omega
    · rw [h3, g3, fresh_scale hk]
      unfold startStacks
      cases rs
      · rfl
      · show (_, _) = (_, _)
        refine Prod.ext ?_ rfl
        unfold scaleTable
        simp only [if_true, scaleAll_replicate]
        rfl
    · exfalso
      have : (scaleTable k d).cfg.numCommunityCards = d.cfg.numCommunityCards := rfl
      rw [this] at g2
      omega
  · rcases reset_eq (scaleTable k d) rb rs shuf with ⟨g1, g2, g3⟩ | ⟨g1, ⟨g2, g3⟩ | ⟨g2, g3⟩⟩
    · exfalso
      rw [ha] at g2
      rcases h1 with h1 | h1
      · rw [h1] at g1; simp at g1
      · omega
    · exfalso
      have : (scaleTable k d).cfg.numCommunityCards = d.cfg.numCommunityCards := rfl
      rw [this] at g2
      omega
    · rw [h3, g3, posted_scale hk]
      show (_, (scaleTable k (d.posted rb rs shuf).moveAction.moveAction).observation false) = _
      rw [observation_scale hk]
      rfl

/-! ## the showdown -/

/-- the hands of a division, in the other unit -/
def scaleHand (k : Int) (h : Hand) : Hand := { h with commit := k * h.commit }

theorem insert_scale (hk : 0 < k) (h : Hand) (l : List Hand) : insertByKey (scaleHand k h) (l.map (scaleHand k)) = (insertByKey h l).map (scaleHand k) := by
  induction l with
  | nil => rfl
  | cons g l ih =>
    rw [List.map_cons]
    unfold insertByKey
    have : ((scaleHand k h).strength < (scaleHand k g).strength ∨ ((scaleHand k h).strength = (scaleHand k g).strength ∧
        (scaleHand k h).commit ≤ (scaleHand k g).commit)) ↔ (h.strength < g.strength ∨ (h.strength = g.strength ∧ h.commit ≤ g.commit)) := by
      show (h.strength < g.strength ∨ (h.strength = g.strength ∧ k * h.commit ≤ k * g.commit)) ↔ _
      rw [scale_le hk]
    simp only [this, ih]
    split <;> rfl

theorem sort_scale (hk : 0 < k) (l : List Hand) : sortByKey (l.map (scaleHand k)) = (sortByKey l).map (scaleHand k) := by
  induction l with
  | nil => rfl
  | cons g l ih =>
    show insertByKey (scaleHand k g) (sortByKey (l.map (scaleHand k))) = (insertByKey g (sortByKey l)).map (scaleHand k)
    rw [ih, insert_scale hk]

theorem handList_scale (hk : 0 < k) (C T : List Int) : handList (scaleAll k C) T = (handList C T).map (scaleHand k) := by
  unfold handList
  rw [← sort_scale hk, List.map_map]
  congr 1
  refine List.map_congr_left fun x _ => ?_
  simp only [getD_scaleAll]
  rfl

/-- the variables of the loop -/
def scaleState (k : Int) (st : PotState) : PotState :=
  { hands := st.hands.map (scaleHand k), pot := k * st.pot, remainder := k * st.remainder, payouts := scaleAll k st.payouts }

theorem splitPot_scale (hk : 0 < k) (H : List Hand) (h : Hand) :
    ((H.map (scaleHand k)).map fun g => min g.commit (scaleHand k h).commit).sum = k * (H.map fun g => min g.commit h.commit).sum := by
  rw [List.map_map, ← scaleAll_sum]
  unfold scaleAll
  rw [List.map_map]
  congr 1
  refine List.map_congr_left fun g _ => ?_
  exact scale_min hk _ _

theorem payAll_scale (l : List Nat) (x : Int) (p : List Int) :
    l.foldl (fun p i => p.modify i (· + k * x)) (scaleAll k p) = scaleAll k (l.foldl (fun p i => p.modify i (· + x)) p) := by
  induction l generalizing p with
  | nil => rfl
  | cons i l ih =>
    rw [List.foldl_cons, List.foldl_cons, scaleAll_modify_add, ih]

theorem modify_map_scale (l : List Hand) (i : Nat) (w : Int) :
    (l.map (scaleHand k)).modify i (fun g => { g with strength := w }) = (l.modify i fun g => { g with strength := w }).map (scaleHand k) := by
  refine List.ext_getElem? fun j => ?_
  simp only [List.getElem?_modify, List.getElem?_map]
  cases l[j]? with
  | none => simp
  | some y => by_cases h : i = j <;> simp [h, scaleHand]

/-- one pot that goes up evenly -/
theorem potStep_scale (hk : 0 < k) (worst : Int) (st : PotState) (i : Nat) (h : Hand)
    (he : (potStep worst st i h).remainder = st.remainder) :
    potStep worst (scaleState k st) i (scaleHand k h) = scaleState k (potStep worst st i h) := by
  have hE : ((scaleState k st).hands.filter fun g => g.strength == (scaleHand k h).strength).map (·.idx) =
      (st.hands.filter fun g => g.strength == h.strength).map (·.idx) := by
    show ((st.hands.map (scaleHand k)).filter fun g => g.strength == h.strength).map (·.idx) = _
    rw [List.filter_map, List.map_map]
    rfl
  have hS := splitPot_scale hk st.hands h
  unfold potStep at he
  simp only [] at he
  unfold potStep
  simp only [hE]
  rw [show ((scaleState k st).hands.map fun g => min g.commit (scaleHand k h).commit).sum = _ from hS]
  generalize ((st.hands.filter fun g => g.strength == h.strength).map (·.idx)) = E at *
  generalize hsp : (st.hands.map fun g => min g.commit h.commit).sum = sp at *
  have h0 : sp % (E.length : Int) = 0 := by omega
  have hdvd : (E.length : Int) ∣ sp := Int.dvd_of_emod_eq_zero h0
  have h1 : k * sp / (E.length : Int) = k * (sp / (E.length : Int)) := Int.mul_ediv_assoc k hdvd
  have h2 : k * sp % (E.length : Int) = 0 := Int.emod_eq_zero_of_dvd (Dvd.dvd.mul_left hdvd k)
  rw [h1, h2, h0]
  unfold scaleState
  simp only [PotState.mk.injEq]
  refine ⟨?_, ?_, ?_, ?_⟩
  · rw [← modify_map_scale, List.map_map, List.map_map]
    congr 1
    refine List.map_congr_left fun g _ => ?_
    show ({ scaleHand k g with commit := k * g.commit - min (k * g.commit) (k * h.commit) } : Hand) = _
    rw [scale_min hk, ← mul_sub]
    rfl
  · rw [mul_sub]
  · rw [add_zero, add_zero]
  · exact payAll_scale _ _ _

theorem potStep_rem (worst : Int) (st : PotState) (i : Nat) {h : Hand} (hm : h ∈ st.hands) : st.remainder ≤ (potStep worst st i h).remainder := by
  show st.remainder ≤ st.remainder + _ % _
  have : 0 < ((st.hands.filter fun g => g.strength == h.strength).map (·.idx)).length := by
    rw [List.length_map]
    apply List.length_pos_of_mem
    rw [List.mem_filter]
    exact ⟨hm, by simp⟩
  have := Int.emod_nonneg ((st.hands.map fun g => min g.commit h.commit).sum)
    (show ((((st.hands.filter fun g => g.strength == h.strength).map (·.idx)).length : Nat) : Int) ≠ 0 by omega)
  omega

theorem potLoop_rem (worst : Int) (fuel i : Nat) (st : PotState) : st.remainder ≤ (potLoop worst fuel i st).remainder := by
  induction fuel generalizing i st with
  | zero => exact le_refl _
  | succ fuel ih =>
    unfold potLoop
    cases hh : st.hands[i]? with
    | none => exact le_refl _
    | some h =>
      simp only []
      have := potStep_rem worst st i (List.mem_of_getElem? hh)
      split_ifs
      · exact ih _ _
      · exact this
      · exact this.trans (ih _ _)

/-- the loop, if all pots go up evenly -/
theorem potLoop_scale (hk : 0 < k) (worst : Int) (fuel i : Nat) (st : PotState)
    (he : (potLoop worst fuel i st).remainder = st.remainder) :
    potLoop worst fuel i (scaleState k st) = scaleState k (potLoop worst fuel i st) := by
  induction fuel generalizing i st with
  | zero => rfl
  | succ fuel ih =>
    unfold potLoop at he ⊢
    show (match (st.hands.map (scaleHand k))[i]? with | none => _ | some h => _) = _
    rw [List.getElem?_map]
    cases hh : st.hands[i]? with
    | none => rfl
    | some h =>
      rw [hh] at he
      simp only [Option.map_some] at he ⊢
      rw [show ((scaleState k st).hands.map fun g => min g.commit (scaleHand k h).commit).sum = _ from splitPot_scale hk st.hands h]
      simp only [scale_zero hk]
      split_ifs at he with h1
      · rw [if_pos h1, if_pos h1]; exact ih _ _ he
      · next h2 =>
        rw [if_neg h1, if_neg h1, potStep_scale hk worst st i h he]
        rw [if_pos (show (scaleState k (potStep worst st i h)).pot = 0 from (scale_zero hk _).2 h2), if_pos h2]
      · next h2 =>
        have m1 := potStep_rem worst st i (List.mem_of_getElem? hh)
        have m2 := potLoop_rem worst fuel (i + 1) (potStep worst st i h)
        have e1 : (potStep worst st i h).remainder = st.remainder := by omega
        rw [if_neg h1, if_neg h1, potStep_scale hk worst st i h e1]
        rw [if_neg (show ¬ (scaleState k (potStep worst st i h)).pot = 0 from fun h => h2 ((scale_zero hk _).1 h)), if_neg h2]
        exact ih _ _ (by omega)

/-- the odd chips that the loop leaves -/
def loopOdd (n : Nat) (worst pot : Int) (C T : List Int) : Int :=
  (potLoop worst (handList C T).length 0 { hands := handList C T, pot, remainder := 0, payouts := List.replicate n 0 }).remainder

theorem potPayouts_scale (hk : 0 < k) (n button : Nat) (worst pot : Int) (C T : List Int) (he : loopOdd n worst pot C T = 0) :
    potPayouts n button worst (k * pot) (scaleAll k C) T = (potPayouts n button worst pot C T).map (scaleAll k) := by
  have h1 := potLoop_scale hk worst (handList C T).length 0 { hands := handList C T, pot, remainder := 0, payouts := List.replicate n 0 } he
  have h2 : scaleState k { hands := handList C T, pot, remainder := 0, payouts := List.replicate n 0 } =
      { hands := handList (scaleAll k C) T, pot := k * pot, remainder := 0, payouts := List.replicate n 0 } := by
    unfold scaleState
    simp only [handList_scale hk, scaleAll_replicate, mul_zero]
  rw [h2] at h1
  unfold potPayouts
  simp only []
  show (if (potLoop worst (handList (scaleAll k C) T).length 0 { hands := handList (scaleAll k C) T, pot := k * pot, remainder := 0, payouts := List.replicate n 0 }).remainder ≠ 0
    then _ else Except.ok (potLoop worst (handList (scaleAll k C) T).length 0
      { hands := handList (scaleAll k C) T, pot := k * pot, remainder := 0, payouts := List.replicate n 0 }).payouts) =
    Except.map (scaleAll k) (if (potLoop worst (handList C T).length 0 { hands := handList C T, pot, remainder := 0, payouts := List.replicate n 0 }).remainder ≠ 0
      then _ else Except.ok (potLoop worst (handList C T).length 0 { hands := handList C T, pot, remainder := 0, payouts := List.replicate n 0 }).payouts)
  have hl : (handList (scaleAll k C) T).length = (handList C T).length := by rw [handList_scale hk, List.length_map]
  unfold loopOdd at he
  rw [hl, h1]
  rw [if_neg (by show ¬ k * _ ≠ 0; rw [he]; simp), if_neg (by rw [he]; simp)]
  rfl

/-- if there is a showdown, all pots go up evenly -/
def EvenPots (d : Dealer) : Prop :=
  countTrue d.active ≠ 1 → d.cfg.numStreets ≤ d.street → ∀ T, d.evalHands d.holeCards d.communityCards = .ok T →
    loopOdd d.cfg.numPlayers d.worstHand d.pot d.potCommits T = 0

theorem payouts_scale (hk : 0 < k) (d : Dealer) (he : EvenPots d) : (scaleTable k d).payouts = d.payouts.map (scaleAll k) := by
  have e1 : List.zipWith (fun c (a : Bool) => if a then 0 else -1 * c) (scaleAll k d.potCommits) d.active =
      scaleAll k (List.zipWith (fun c (a : Bool) => if a then 0 else -1 * c) d.potCommits d.active) := by
    unfold scaleAll
    rw [List.zipWith_map_left, List.map_zipWith]
    congr 1
    funext c a
    cases a <;> simp
  have e2 : List.zipWith (fun (a : Bool) c => if a then k * d.pot - c else 0) d.active (scaleAll k d.potCommits) =
      scaleAll k (List.zipWith (fun (a : Bool) c => if a then d.pot - c else 0) d.active d.potCommits) := by
    unfold scaleAll
    rw [List.zipWith_map_right, List.map_zipWith]
    congr 1
    funext a c
    cases a <;> simp [mul_sub]
  unfold Dealer.payouts
  show (if countTrue d.active = 1 then Except.ok (List.zipWith (· + ·) (List.zipWith (fun c (a : Bool) => if a then 0 else -1 * c) (scaleAll k d.potCommits) d.active)
      (List.zipWith (fun (a : Bool) c => if a then k * d.pot - c else 0) d.active (scaleAll k d.potCommits)))
    else if d.street ≥ d.cfg.numStreets then (match (scaleTable k d).evalRound with
      | .error e => Except.error e
      | .ok p => Except.ok (List.zipWith (· - ·) p (scaleAll k d.potCommits)))
    else Except.ok (List.zipWith (fun c (a : Bool) => if a then 0 else -1 * c) (scaleAll k d.potCommits) d.active)) = _
  rw [e1, e2]
  simp only []
  split_ifs with h1 h2
  · rw [scaleAll_add]; rfl
  · have e3 : (scaleTable k d).evalRound = d.evalRound.map (scaleAll k) := by
      unfold Dealer.evalRound
      show (match d.evalHands d.holeCards d.communityCards with
        | .error e => Except.error e
        | .ok T => potPayouts d.cfg.numPlayers d.button d.worstHand (k * d.pot) (scaleAll k d.potCommits) T) = _
      cases hT : d.evalHands d.holeCards d.communityCards with
      | error e => rfl
      | ok T =>
        simp only []
        rw [potPayouts_scale hk _ _ _ _ _ _ (he h1 h2 T hT)]
    rw [e3]
    cases d.evalRound with
    | error e => rfl
    | ok p =>
      simp only [Except.map]
      rw [scaleAll_sub]
  · rfl

theorem settle_scale (d : Dealer) (p : List Int) : (scaleTable k d).settle (scaleAll k p) = scaleTable k (d.settle p) := by
  unfold Dealer.settle scaleTable
  simp only [scaleAll_add, mul_zero]

theorem finish_scale (hk : 0 < k) (d : Dealer) (he : EvenPots d) :
    (scaleTable k d).finish = (scaleTable k d.finish.1, scaleResult k d.finish.2) := by
  have hp := payouts_scale hk d he
  have hd := done_scale hk d
  rcases finish_cases d with ⟨e, h1, h2⟩ | ⟨p, h1, h2, h3, h4⟩ | ⟨p, h1, h2, h3, h4⟩
  · rcases finish_cases (scaleTable k d) with ⟨e', g1, g2⟩ | ⟨p', g1, -⟩ | ⟨p', g1, -⟩
    · rw [hp, h1] at g1
      simp only [Except.map, Except.error.injEq] at g1
      subst g1
      rw [g2, h2]; rfl
    · rw [hp, h1] at g1; simp [Except.map] at g1
    · rw [hp, h1] at g1; simp [Except.map] at g1
  · rcases finish_cases (scaleTable k d) with ⟨e', g1, g2⟩ | ⟨p', g1, g2, g3, g4⟩ | ⟨p', g1, g2, -⟩
    · rw [hp, h1] at g1; simp [Except.map] at g1
    · rw [hp, h1] at g1
      simp only [Except.map, Except.ok.injEq] at g1
      subst g1
      refine Prod.ext ?_ ?_
      · rw [g3, h3]; exact settle_scale _ _
      · rw [g4, h4, settle_scale, observation_scale hk, hd]
        cases (d.settle p).observation true <;> rfl
    · rw [hd, h2] at g2; simp at g2
  · rcases finish_cases (scaleTable k d) with ⟨e', g1, g2⟩ | ⟨p', g1, g2, g3, g4⟩ | ⟨p', g1, g2, g3, g4⟩
    · rw [hp, h1] at g1; simp [Except.map] at g1
    · rw [hd, h2] at g2; simp at g2
    · rw [hp, h1] at g1
      simp only [Except.map, Except.ok.injEq] at g1
      subst g1
      refine Prod.ext ?_ ?_
      · rw [g3, h3]
      · rw [g4, h4, observation_scale hk, hd]
        cases d.observation false <;> rfl

/-- a bet, if the showdown that it may lead to has no odd chips -/
theorem step_scale (hk : 0 < k) {a : Nat} (ha : d.action = some a) {bet : PyNum} (hw : WholeBet bet)
    (he : ∀ b c lo hi, pyRound bet = .ok b → d.betSizes = .ok (c, lo, hi) → EvenPots (d.afterBet bet.isNeg c (cleanBet b c lo hi))) :
    (scaleTable k d).step (scaleBet k bet) = (scaleTable k (d.step bet).1, scaleResult k (d.step bet).2) := by
  have ha' : (scaleTable k d).action = some a := ha
  have hb := betSizes_scale hk d
  have hro := round_scale (k := k) hw
  rcases step_some ha bet with ⟨e, hr, he'⟩ | ⟨b, e, hr, hs, he'⟩ | ⟨b, c, lo, hi, hr, hs, he'⟩
  · rw [hr] at hro
    rcases step_some ha' (scaleBet k bet) with ⟨e', gr, g⟩ | ⟨b', e', gr, -, -⟩ | ⟨b', c', lo', hi', gr, -, -⟩
    · rw [gr] at hro
      simp only [Except.map, Except.error.injEq] at hro
      subst hro
      rw [he', g]; rfl
    · rw [gr] at hro; simp [Except.map] at hro
    · rw [gr] at hro; simp [Except.map] at hro
  · rw [hr] at hro
    rw [hs] at hb
    rcases step_some ha' (scaleBet k bet) with ⟨e', gr, g⟩ | ⟨b', e', gr, gs, g⟩ | ⟨b', c', lo', hi', gr, gs, -⟩
    · rw [gr] at hro; simp [Except.map] at hro
    · rw [gs] at hb
      simp only [Except.map, Except.error.injEq] at hb
      subst hb
      rw [he', g]; rfl
    · rw [gs] at hb; simp [Except.map] at hb
  · rw [hr] at hro
    rw [hs] at hb
    rcases step_some ha' (scaleBet k bet) with ⟨e', gr, g⟩ | ⟨b', e', gr, gs, g⟩ | ⟨b', c', lo', hi', gr, gs, g⟩
    · rw [gr] at hro; simp [Except.map] at hro
    · rw [gs] at hb; simp [Except.map] at hb
    · rw [gs] at hb
      rw [gr] at hro
      simp only [Except.map, Except.ok.injEq, Prod.mk.injEq] at hb hro
      obtain ⟨rfl, rfl, rfl⟩ := hb
      subst hro
      rw [he', g, isNeg_scale hk, cleanBet_scale hk, afterBet_scale hk, finish_scale hk _ (he b c lo hi hr hs)]

end Clubs
