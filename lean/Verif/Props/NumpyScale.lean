import Verif.Props.Scale
import Verif.Props.NumpyShow
import Verif.Props.NumpyReplay

/-!
# The unit of the chips does not matter to the array engine, either: C91
-/

namespace Clubs.Numpy

open Spec

variable {k : Int} {S : List Int} {d : Dealer} {bet : PyNum}

/-! ## betting -/

theorem cleanBet_scale (hk : 0 < k) (b c lo hi : Int) : cleanBet (k * b) (k * c) (k * lo) (k * hi) = k * cleanBet b c lo hi := by
  unfold cleanBet
  have h1 : ([0, k * c, k * lo, k * hi].map fun v => iabs (v - k * b)) = scaleAll k ([0, c, lo, hi].map fun v => iabs (v - b)) := by
    simp only [scaleAll, List.map_cons, List.map_nil, ← iabs_scale hk, mul_sub, mul_zero]
  simp only [h1, argmin_scale hk]
  split
  · rfl
  · split
    · rw [scale_max hk, scale_min hk]
    · rw [mul_zero]

theorem nextStreet_scale (hk : 0 < k) (d : Dealer) : nextStreet (scaleTable k d) = scaleTable k (nextStreet d) := by
  have e : moveAction { scaleTable k d with action := some (scaleTable k d).button } =
      scaleTable k (moveAction { d with action := some d.button }) := rfl
  have e2 := Clubs.dealStreets_scale hk (d.cfg.numStreets + 1) (moveAction { d with action := some d.button })
  rw [← e, ← dealStreets_shared, ← dealStreets_shared] at e2
  have e3 : ∀ x y : Dealer, x = scaleTable k y → ({ x with
      streetCommits := List.replicate x.cfg.numPlayers 0
      streetOption := x.active.map fun a => !a
      streetRaises := 0 } : Dealer) = scaleTable k { y with
        streetCommits := List.replicate y.cfg.numPlayers 0
        streetOption := y.active.map fun a => !a
        streetRaises := 0 } := by
    rintro x y rfl
    unfold scaleTable
    simp only [scaleAll_replicate, mul_zero]
    rfl
  exact e3 _ _ e2

theorem afterBet_scale (hk : 0 < k) (d : Dealer) (fold : Bool) (c b : Int) :
    afterBet (scaleTable k d) fold (k * c) (k * b) = scaleTable k (afterBet d fold c b) := by
  unfold afterBet
  rw [act_shared, act_shared, act_scale hk, nextStreet_scale hk, allAgreed_shared, allAgreed_shared, allAgreed_scale hk]
  split <;> rfl

theorem done_scale (d : Dealer) : done (scaleTable k d) = done d := rfl

/-! ## the showdown -/

theorem potLoop_rem (worst : Int) (fuel i : Nat) (st : PotState) : st.remainder ≤ (potLoop worst fuel i st).remainder := by
  induction fuel generalizing i st with
  | zero => exact le_refl _
  | succ fuel ih =>
    unfold potLoop
    cases hh : st.hands[i]? with
    | none => exact le_refl _
    | some h =>
      simp only []
      have : st.remainder ≤ (potStep worst st i h).remainder := potStep_rem worst st i (List.mem_of_getElem? hh)
      split_ifs
      · exact this
      · exact this.trans (ih _ _)

theorem potLoop_scale (hk : 0 < k) (worst : Int) (fuel i : Nat) (st : PotState)
    (he : (potLoop worst fuel i st).remainder = st.remainder) :
    potLoop worst fuel i (scaleState k st) = scaleState k (potLoop worst fuel i st) := by
  induction fuel generalizing i st with
  | zero => rfl
  | succ fuel ih =>
    unfold potLoop at he ⊢
    show (match (st.hands.map (scaleHand k))[i]? with | none => _ | some h => _) = _
    rw [List.getElem?_map]
    cases hh : st.hands[i]? with
    | none => rfl
    | some h =>
      rw [hh] at he
      simp only [Option.map_some] at he ⊢
      have e0 := potStep_scale hk worst st i h
      split_ifs at he with h2
      · rw [show potStep worst (scaleState k st) i (scaleHand k h) = _ from e0 he]
        rw [if_pos (show (scaleState k (Clubs.potStep worst st i h)).pot = 0 from (scale_zero hk _).2 h2), if_pos h2]
        rfl
      · have m1 : st.remainder ≤ (potStep worst st i h).remainder := potStep_rem worst st i (List.mem_of_getElem? hh)
        have m2 := potLoop_rem worst fuel (i + 1) (potStep worst st i h)
        have e1 : (potStep worst st i h).remainder = st.remainder := by omega
        rw [show potStep worst (scaleState k st) i (scaleHand k h) = _ from e0 e1]
        rw [if_neg (show ¬ (scaleState k (Clubs.potStep worst st i h)).pot = 0 from fun h => h2 ((scale_zero hk _).1 h)), if_neg h2]
        exact ih _ _ (he.trans e1.symm)

/-- the odd chips that the loop leaves -/
def loopOdd (n : Nat) (worst pot : Int) (C T : List Int) : Int :=
  (potLoop worst (handList C T).length 0 { hands := handList C T, pot, remainder := 0, payouts := List.replicate n 0 }).remainder

theorem potPayouts_scale (hk : 0 < k) (n button : Nat) (worst pot : Int) (C T : List Int) (he : loopOdd n worst pot C T = 0) :
    potPayouts n button worst (k * pot) (scaleAll k C) T = (potPayouts n button worst pot C T).map (scaleAll k) := by
  have h1 := potLoop_scale hk worst (handList C T).length 0 { hands := handList C T, pot, remainder := 0, payouts := List.replicate n 0 } he
  have h2 : scaleState k { hands := handList C T, pot, remainder := 0, payouts := List.replicate n 0 } =
      { hands := handList (scaleAll k C) T, pot := k * pot, remainder := 0, payouts := List.replicate n 0 } := by
    unfold scaleState
    simp only [handList_scale hk, scaleAll_replicate, mul_zero]
  rw [h2] at h1
  unfold potPayouts
  simp only []
  show (if (potLoop worst (handList (scaleAll k C) T).length 0 { hands := handList (scaleAll k C) T, pot := k * pot, remainder := 0, payouts := List.replicate n 0 }).remainder ≠ 0
    then _ else Except.ok (potLoop worst (handList (scaleAll k C) T).length 0
      { hands := handList (scaleAll k C) T, pot := k * pot, remainder := 0, payouts := List.replicate n 0 }).payouts) =
    Except.map (scaleAll k) (if (potLoop worst (handList C T).length 0 { hands := handList C T, pot, remainder := 0, payouts := List.replicate n 0 }).remainder ≠ 0
      then _ else Except.ok (potLoop worst (handList C T).length 0 { hands := handList C T, pot, remainder := 0, payouts := List.replicate n 0 }).payouts)
  have hl : (handList (scaleAll k C) T).length = (handList C T).length := by rw [handList_scale hk, List.length_map]
  unfold loopOdd at he
  rw [hl, h1]
  rw [if_neg (by show ¬ k * _ ≠ 0; rw [he]; simp), if_neg (by rw [he]; simp)]
  rfl

/-- if there is a showdown, all pots go up evenly -/
def EvenPots (d : Dealer) : Prop :=
  countTrue d.active ≠ 1 → d.cfg.numStreets ≤ d.street → ∀ T, d.evalHands d.holeCards d.communityCards = .ok T →
    loopOdd d.cfg.numPlayers d.worstHand d.pot d.potCommits T = 0

theorem payouts_scale (hk : 0 < k) (d : Dealer) (he : EvenPots d) : payouts (scaleTable k d) = (payouts d).map (scaleAll k) := by
  have e1 : List.zipWith (fun (c : Int) (a : Bool) => -1 * c * (if !a then 1 else 0)) (scaleAll k d.potCommits) d.active =
      scaleAll k (List.zipWith (fun (c : Int) (a : Bool) => -1 * c * (if !a then 1 else 0)) d.potCommits d.active) := by
    unfold scaleAll
    rw [List.zipWith_map_left, List.map_zipWith]
    congr 1
    funext c a
    cases a <;> simp
  have e2 : List.zipWith (fun (a : Bool) (c : Int) => (if a then 1 else 0) * (k * d.pot - c)) d.active (scaleAll k d.potCommits) =
      scaleAll k (List.zipWith (fun (a : Bool) (c : Int) => (if a then 1 else 0) * (d.pot - c)) d.active d.potCommits) := by
    unfold scaleAll
    rw [List.zipWith_map_right, List.map_zipWith]
    congr 1
    funext a c
    cases a <;> simp [mul_sub]
  unfold payouts
  show (if countTrue d.active = 1 then Except.ok (List.zipWith (· + ·)
      (List.zipWith (fun (c : Int) (a : Bool) => -1 * c * (if !a then 1 else 0)) (scaleAll k d.potCommits) d.active)
      (List.zipWith (fun (a : Bool) (c : Int) => (if a then 1 else 0) * (k * d.pot - c)) d.active (scaleAll k d.potCommits)))
    else if d.street ≥ d.cfg.numStreets then (match evalRound (scaleTable k d) with
      | .error e => Except.error e
      | .ok p => Except.ok (List.zipWith (· - ·) p (scaleAll k d.potCommits)))
    else Except.ok (List.zipWith (fun (c : Int) (a : Bool) => -1 * c * (if !a then 1 else 0)) (scaleAll k d.potCommits) d.active)) = _
  rw [e1, e2]
  simp only []
  split_ifs with h1 h2
  · rw [scaleAll_add]; rfl
  · have e3 : evalRound (scaleTable k d) = (evalRound d).map (scaleAll k) := by
      unfold evalRound evalHands
      show (match d.evalHands d.holeCards d.communityCards with
        | .error e => Except.error e
        | .ok T => potPayouts d.cfg.numPlayers d.button d.worstHand (k * d.pot) (scaleAll k d.potCommits) T) = _
      cases hT : d.evalHands d.holeCards d.communityCards with
      | error e => rfl
      | ok T =>
        simp only []
        rw [potPayouts_scale hk _ _ _ _ _ _ (he h1 h2 T hT)]
    rw [e3]
    cases evalRound d with
    | error e => rfl
    | ok p =>
      simp only [Except.map]
      rw [scaleAll_sub]
  · rfl

theorem finish_scale (hk : 0 < k) (d : Dealer) (he : EvenPots d) :
    finish (scaleTable k d) = (scaleTable k (finish d).1, scaleResult k (finish d).2) := by
  have hp := payouts_scale hk d he
  have hd := done_scale (k := k) d
  rcases finish_cases d with ⟨e, h1, h2⟩ | ⟨p, h1, h2, h3, h4⟩ | ⟨p, h1, h2, h3, h4⟩
  · rcases finish_cases (scaleTable k d) with ⟨e', g1, g2⟩ | ⟨p', g1, -⟩ | ⟨p', g1, -⟩
    · rw [hp, h1] at g1
      simp only [Except.map, Except.error.injEq] at g1
      subst g1
      rw [g2, h2]; rfl
    · rw [hp, h1] at g1; simp [Except.map] at g1
    · rw [hp, h1] at g1; simp [Except.map] at g1
  · rcases finish_cases (scaleTable k d) with ⟨e', g1, g2⟩ | ⟨p', g1, g2, g3, g4⟩ | ⟨p', g1, g2, -⟩
    · rw [hp, h1] at g1; simp [Except.map] at g1
    · rw [hp, h1] at g1
      simp only [Except.map, Except.ok.injEq] at g1
      subst g1
      refine Prod.ext ?_ ?_
      · rw [g3, h3]; exact settle_scale _ _
      · rw [g4, h4, settle_scale, show observation (scaleTable k (d.settle p)) true = _ from observation_scale hk _ _, hd]
        show _ = scaleResult k (Except.map _ ((d.settle p).observation true))
        cases (d.settle p).observation true <;> rfl
    · rw [hd, h2] at g2; simp at g2
  · rcases finish_cases (scaleTable k d) with ⟨e', g1, g2⟩ | ⟨p', g1, g2, g3, g4⟩ | ⟨p', g1, g2, g3, g4⟩
    · rw [hp, h1] at g1; simp [Except.map] at g1
    · rw [hd, h2] at g2; simp at g2
    · rw [hp, h1] at g1
      simp only [Except.map, Except.ok.injEq] at g1
      subst g1
      refine Prod.ext ?_ ?_
      · rw [g3, h3]
      · rw [g4, h4, show observation (scaleTable k d) false = _ from observation_scale hk _ _, hd]
        show _ = scaleResult k (Except.map _ (d.observation false))
        cases d.observation false <;> rfl

theorem step_scale (hk : 0 < k) {a : Nat} (ha : d.action = some a) (hw : WholeBet bet)
    (he : ∀ b c lo hi, pyRound bet = .ok b → d.betSizes = .ok (c, lo, hi) → EvenPots (afterBet d bet.isNeg c (cleanBet b c lo hi))) :
    step (scaleTable k d) (scaleBet k bet) = (scaleTable k (step d bet).1, scaleResult k (step d bet).2) := by
  have ha' : (scaleTable k d).action = some a := ha
  have hb := betSizes_scale hk d
  have hro := round_scale (k := k) hw
  rcases step_some ha bet with ⟨e, hr, he'⟩ | ⟨b, e, hr, hs, he'⟩ | ⟨b, c, lo, hi, hr, hs, he'⟩
  · rw [hr] at hro
    rcases step_some ha' (scaleBet k bet) with ⟨e', gr, g⟩ | ⟨b', e', gr, -, -⟩ | ⟨b', c', lo', hi', gr, -, -⟩
    · rw [gr] at hro
      simp only [Except.map, Except.error.injEq] at hro
      subst hro
      rw [he', g]; rfl
    · rw [gr] at hro; simp [Except.map] at hro
    · rw [gr] at hro; simp [Except.map] at hro
  · rw [hr] at hro
    rw [hs] at hb
    rcases step_some ha' (scaleBet k bet) with ⟨e', gr, g⟩ | ⟨b', e', gr, gs, g⟩ | ⟨b', c', lo', hi', gr, gs, -⟩
    · rw [gr] at hro; simp [Except.map] at hro
    · rw [gs] at hb
      simp only [Except.map, Except.error.injEq] at hb
      subst hb
      rw [he', g]; rfl
    · rw [gs] at hb; simp [Except.map] at hb
  · rw [hr] at hro
    rw [hs] at hb
    rcases step_some ha' (scaleBet k bet) with ⟨e', gr, g⟩ | ⟨b', e', gr, gs, g⟩ | ⟨b', c', lo', hi', gr, gs, g⟩
    · rw [gr] at hro; simp [Except.map] at hro
    · rw [gs] at hb; simp [Except.map] at hb
    · rw [gs] at hb
      rw [gr] at hro
      simp only [Except.map, Except.ok.injEq, Prod.mk.injEq] at hb hro
      obtain ⟨rfl, rfl, rfl⟩ := hb
      subst hro
      rw [he', g, isNeg_scale hk, cleanBet_scale hk, afterBet_scale hk, finish_scale hk _ (he b c lo hi hr hs)]

/-! ## `reset` -/

theorem collect_scale (hk : 0 < k) (d : Dealer) (bets : List Int) (b : Bool) :
    collectMultipleBets (scaleTable k d) (scaleAll k bets) b = scaleTable k (collectMultipleBets d bets b) := by
  have e0 : npRoll (scaleAll k bets) (d.action.getD 0) = scaleAll k (npRoll bets (d.action.getD 0)) := by
    unfold npRoll
    rw [roll_scale, scaleAll_length]
  have e1 : ∀ as : List Bool, List.zipWith (fun (stack : Int) (active : Bool) => decide (stack > 0) && active) (scaleAll k d.stacks) as =
      List.zipWith (fun (stack : Int) (active : Bool) => decide (stack > 0) && active) d.stacks as := by
    intro as
    unfold scaleAll
    rw [List.zipWith_map_left]
    simp only [gt_iff_lt, scale_pos hk]
  have e2 : ∀ (as : List Bool) (l : List Int), List.zipWith (fun (b : Bool) (bet : Int) => if b then bet else 0) as (scaleAll k l) =
      scaleAll k (List.zipWith (fun (b : Bool) (bet : Int) => if b then bet else 0) as l) := by
    intro as l
    unfold scaleAll
    rw [List.zipWith_map_right, List.map_zipWith]
    congr 1
    funext a c
    cases a <;> simp
  have e3 : List.zipWith (fun (b : Bool) (bet : Int) => if b then bet else 0)
      (List.zipWith (fun (stack : Int) (active : Bool) => decide (stack > 0) && active) (scaleTable k d).stacks (scaleTable k d).active)
      (npRoll (scaleAll k bets) ((scaleTable k d).action.getD 0)) =
      scaleAll k (List.zipWith (fun (b : Bool) (bet : Int) => if b then bet else 0)
        (List.zipWith (fun (stack : Int) (active : Bool) => decide (stack > 0) && active) d.stacks d.active) (npRoll bets (d.action.getD 0))) := by
    show List.zipWith _ (List.zipWith _ (scaleAll k d.stacks) d.active) (npRoll (scaleAll k bets) (d.action.getD 0)) = _
    rw [e0, e1, e2]
  unfold collectMultipleBets
  simp only [e3]
  unfold scaleTable
  simp only [scaleAll_add, scaleAll_sub, scaleAll_sum, mul_add]
  cases b <;> rfl

theorem posted_scale (hk : 0 < k) (d : Dealer) (rb rs : Bool) (shuf : Shuffle) :
    posted (scaleTable k d) rb rs shuf = scaleTable k (posted d rb rs shuf) := by
  have hf : fresh (scaleTable k d) rb rs shuf = scaleTable k (fresh d rb rs shuf) := by
    unfold fresh
    rw [fresh_scale hk]
    rfl
  have hb : blindStart (scaleTable k d) rb rs shuf = scaleTable k (blindStart d rb rs shuf) := by
    unfold blindStart
    rw [hf]
    show (if d.cfg.numPlayers > 2 then _ else _) = _
    split <;> rfl
  unfold posted
  rw [hb]
  show collectMultipleBets (collectMultipleBets (scaleTable k (blindStart d rb rs shuf)) (scaleAll k d.cfg.antes) false)
    (scaleAll k d.cfg.blinds) true = _
  rw [collect_scale hk, collect_scale hk]

/-- **C91** for the array engine: dealing a hand, at any table. -/
theorem C91_reset (hk : 0 < k) (d : Dealer) (rb rs : Bool) (shuf : Shuffle) :
    reset (scaleTable k d) rb rs shuf = (scaleTable k (reset d rb rs shuf).1, (reset d rb rs shuf).2.map (scaleView k)) := by
  have ha : (scaleTable k d).stacks.map (fun s => decide (s > 0)) = d.stacks.map fun s => decide (s > 0) := able_scale hk d.stacks
  rcases reset_eq d rb rs shuf with ⟨h1, h2, h3⟩ | ⟨h1, ⟨h2, h3⟩ | ⟨h2, h3⟩⟩
  · rcases reset_eq (scaleTable k d) rb rs shuf with ⟨g1, g2, g3⟩ | ⟨g1, -⟩
    · rw [h3, g3, ha]; rfl
    · exfalso
      rw [ha] at g1
      rcases g1 with g1 | g1
      · rw [h1] at g1; simp at g1
      · omega
  · rcases reset_eq (scaleTable k d) rb rs shuf with ⟨g1, g2, g3⟩ | ⟨g1, ⟨g2, g3⟩ | ⟨g2, g3⟩⟩
    · exfalso
      rw [ha] at g2
      rcases h1 with h1 | h1
      · rw [h1] at g1; simp at g1
      · omega
    · rw [h3, g3, fresh_scale hk]
      unfold startStacks
      cases rs
      · rfl
      · show (_, _) = (_, _)
        refine Prod.ext ?_ rfl
        unfold scaleTable
        simp only [if_true, scaleAll_replicate]
        rfl
    · exfalso
      have : (scaleTable k d).cfg.numCommunityCards = d.cfg.numCommunityCards := rfl
      rw [this] at g2
      omega
  · rcases reset_eq (scaleTable k d) rb rs shuf with ⟨g1, g2, g3⟩ | ⟨g1, ⟨g2, g3⟩ | ⟨g2, g3⟩⟩
    · exfalso
      rw [ha] at g2
      rcases h1 with h1 | h1
      · rw [h1] at g1; simp at g1
      · omega
    · exfalso
      have : (scaleTable k d).cfg.numCommunityCards = d.cfg.numCommunityCards := rfl
      rw [this] at g2
      omega
    · rw [h3, g3, posted_scale hk]
      show (_, (scaleTable k (posted d rb rs shuf).moveAction.moveAction).observation false) = _
      rw [observation_scale hk]
      rfl

/-! ## when pots go up evenly -/

theorem loopOdd_eq {n : Nat} {worst : Int} {C T : List Int} (hl : T.length = C.length) (hpos : ∀ c ∈ C, 0 ≤ c) :
    loopOdd n worst C.sum C T = oddSum n worst (handList C T) := by
  have hp : ∀ h ∈ handList C T, 0 ≤ h.commit := by
    intro h hh
    obtain ⟨h1, -, h2⟩ := handList_mem hh
    rw [h2]
    exact hpos _ ((mem_getD 0).2 ⟨h.idx, by omega, rfl⟩)
  exact (potLoop_eq (worst := worst) hp (handList C T).length 0 (by omega)
    { hands := handList C T, pot := C.sum, remainder := 0, payouts := List.replicate n 0 }
    (drained_zero hp).symm (by rw [drained_zero hp]; exact (handList_sum hl).symm)).2

theorem even_of_covered {s : Nat → Int} (hd : Seated (atSeat d)) (hh : d.holeCards.length = d.cfg.numPlayers)
    (hpot : d.pot = d.potCommits.sum) (hpos : ∀ i < d.cfg.numPlayers, 0 ≤ contribution d i) (hr : Ranks d s)
    (hc : FoldsCovered d.cfg.numPlayers (inB d) (contribution d)) (ho : oddAt d s = 0) : EvenPots d := by
  intro _ _ T' hT'
  obtain ⟨T, hT1, hT2, hT3⟩ := evalHands_of_ranks hh hr
  obtain rfl : T' = T := by
    rw [hT1, Except.ok.injEq] at hT'
    exact hT'.symm
  have D : Deal d.cfg.numPlayers d.worstHand d.potCommits T' (inB d) := deal_of (d := atSeat d) hd hpos hr hT2 hT3
  have hcl : d.potCommits.length = d.cfg.numPlayers := hd.potCommits
  have hcongr : ∀ i < d.cfg.numPlayers, inB d i = true → s i = T'.getD i 0 := by
    intro i hi ha
    rw [hT3 i hi, ha, if_pos rfl]
  rw [hpot, loopOdd_eq (by rw [hT2, hcl]) D.pos, odd_eq D hc]
  exact (odd_congr (c := contribution d) hcongr).symm.trans ho

theorem potLoop_even {D worst : Int} (fuel i : Nat) (st : PotState) (h1 : ∀ g ∈ st.hands, D ∣ g.commit)
    (h2 : ∀ m : Nat, 1 ≤ m → m ≤ st.hands.length → (m : Int) ∣ D) : (potLoop worst fuel i st).remainder = st.remainder := by
  induction fuel generalizing i st with
  | zero => rfl
  | succ fuel ih =>
    unfold potLoop
    cases hh : st.hands[i]? with
    | none => rfl
    | some h =>
      simp only []
      obtain ⟨e1, e2, e3⟩ := potStep_even (worst := worst) (i := i) (List.mem_of_getElem? hh) h1 h2
      split_ifs
      · exact e1
      · exact (ih _ _ e2 (by show ∀ m : Nat, 1 ≤ m → m ≤ (Clubs.potStep worst st i h).hands.length → _; rw [e3]; exact h2)).trans e1

theorem even_of_multiples {D : Int} (hD : ∀ m : Nat, 1 ≤ m → m ≤ d.cfg.numPlayers → (m : Int) ∣ D)
    (hC : ∀ i < d.cfg.numPlayers, D ∣ contribution d i) : EvenPots d := by
  intro _ _ T hT
  have hT := evalHands_length hT
  refine potLoop_even (D := D) _ _ _ (fun h hh => ?_) fun m m1 m2 => hD m m1 ?_
  · obtain ⟨h1, -, h2⟩ := handList_mem hh
    rw [h2]
    exact hC _ (by omega)
  · have : (handList d.potCommits T).length = T.length := by
      have := (handList_idx d.potCommits T).length_eq
      simpa using this
    have m2 : m ≤ (handList d.potCommits T).length := m2
    omega

theorem finish_table (x : Dealer) : SameTable x (finish x).1 ∧ (finish x).1.street = x.street := by
  rcases finish_cases x with ⟨e, -, h⟩ | ⟨p, -, -, h, -⟩ | ⟨p, -, -, h, -⟩ <;> rw [h]
  · exact ⟨⟨rfl, rfl, rfl, rfl, rfl, rfl⟩, rfl⟩
  · exact ⟨⟨rfl, rfl, rfl, rfl, rfl, rfl⟩, rfl⟩
  · exact ⟨⟨rfl, rfl, rfl, rfl, rfl, rfl⟩, rfl⟩

/-! ## C91 -/

/-- **C91** for the array engine: a bet, if the showdown that it may lead to leaves no odd chips. There is no condition about ties. -/
theorem C91_step (hk : 0 < k) (h : ArrayInHand S d) (hn : NonNegative S d.cfg) (hz : SizesOk d.cfg) (hrun : Running d) (hw : WholeBet bet)
    (he : AtShowdown (step d bet).1 → FoldsCovered (step d bet).1.cfg.numPlayers (inB (step d bet).1) (contribution (step d bet).1) ∧
      ∃ s, Ranks (step d bet).1 s ∧ oddAt (step d bet).1 s = 0) :
    step (scaleTable k d) (scaleBet k bet) = (scaleTable k (step d bet).1, scaleResult k (step d bet).2) := by
  obtain ⟨⟨a, ha⟩, hst⟩ := hrun
  refine step_scale hk ha hw fun b c lo hi hb hbs => ?_
  intro h1 h2
  generalize hx : afterBet d bet.isNeg c (cleanBet b c lo hi) = x at h1 h2 ⊢
  obtain ⟨hlive, h2c⟩ := live_of_array h ha
  have htwo : 2 ≤ d.cfg.numPlayers := hlive.seated.two
  have hlx : Live S (atSeat x) := by
    rw [← hx, afterBet_atSeat (by omega)]
    exact afterBet_live hlive hst (h2c hst) _ _ _
  have hfin : step d bet = finish x := by
    rcases step_some ha bet with ⟨e, hr, -⟩ | ⟨b', e, hr, hs, -⟩ | ⟨b', c', lo', hi', hr, hs, g⟩
    · rw [hr] at hb; simp at hb
    · rw [hs] at hbs; simp at hbs
    · rw [hr] at hb; rw [hs] at hbs
      simp only [Except.ok.injEq, Prod.mk.injEq] at hb hbs
      obtain ⟨rfl, rfl, rfl⟩ := hbs
      subst hb
      rw [g, hx]
  obtain ⟨e, es⟩ := finish_table x
  rw [hfin] at he
  have hone : 1 ≤ countTrue x.active := hlx.one
  obtain ⟨r2, s, r1, r3⟩ := he ⟨by rw [es, e.cfg]; exact h2, by
    show 2 ≤ numIn _
    unfold numIn
    rw [e.active]
    unfold countTrue at hone h1
    omega⟩
  have hpos := (afterBet_sound_of h hn hz ha hb hbs hx.symm).1.nn.contrib
  have hc' : FoldsCovered x.cfg.numPlayers (inB x) (contribution x) := by
    unfold FoldsCovered inB contribution at *
    rw [e.cfg, e.active, e.potCommits] at r2
    exact r2
  exact even_of_covered hlx.seated hlx.holeLen hlx.pot hpos (e.ranks r1) hc' (by rw [e.odd]; exact r3) h1 h2

/-- **C91** for the array engine: contributions that are multiples of every possible number of winners -/
theorem C91_multiples (hk : 0 < k) {a : Nat} (ha : d.action = some a) (hw : WholeBet bet) {D : Int}
    (hD : ∀ m : Nat, 1 ≤ m → m ≤ d.cfg.numPlayers → (m : Int) ∣ D) (hC : ∀ i < d.cfg.numPlayers, D ∣ contribution (step d bet).1 i) :
    step (scaleTable k d) (scaleBet k bet) = (scaleTable k (step d bet).1, scaleResult k (step d bet).2) := by
  refine step_scale hk ha hw fun b c lo hi hb hbs => ?_
  generalize hx : afterBet d bet.isNeg c (cleanBet b c lo hi) = x
  have hfin : step d bet = finish x := by
    rcases step_some ha bet with ⟨e, hr, -⟩ | ⟨b', e, hr, hs, -⟩ | ⟨b', c', lo', hi', hr, hs, g⟩
    · rw [hr] at hb; simp at hb
    · rw [hs] at hbs; simp at hbs
    · rw [hr] at hb; rw [hs] at hbs
      simp only [Except.ok.injEq, Prod.mk.injEq] at hb hbs
      obtain ⟨rfl, rfl, rfl⟩ := hbs
      subst hb
      rw [g, hx]
  obtain ⟨e, es⟩ := finish_table x
  have hcfg : x.cfg = d.cfg := by rw [← hx]; exact afterBet_cfg d _ _ _
  refine even_of_multiples (D := D) (by rw [hcfg]; exact hD) fun i hi => ?_
  have := hC i (by rw [← hcfg]; exact hi)
  unfold contribution at this ⊢
  rwa [hfin, e.potCommits] at this

/-- **C91** for the array engine: any number of bets -/
theorem C91_bets (hk : 0 < k) (h : ArrayInHand S d) (hn : NonNegative S d.cfg) (hz : SizesOk d.cfg) (bets : List PyNum)
    (hw : ∀ b ∈ bets, WholeBet b) (hrun : ∀ l b, l ++ [b] <+: bets → Running (arrayAfter d l))
    (he : ∀ l, l <+: bets → AtShowdown (arrayAfter d l) →
      FoldsCovered (arrayAfter d l).cfg.numPlayers (inB (arrayAfter d l)) (contribution (arrayAfter d l)) ∧
      ∃ s, Ranks (arrayAfter d l) s ∧ oddAt (arrayAfter d l) s = 0) :
    arrayAfter (scaleTable k d) (bets.map (scaleBet k)) = scaleTable k (arrayAfter d bets) := by
  induction bets generalizing d with
  | nil => rfl
  | cons b bets ih =>
    show arrayAfter (step (scaleTable k d) (scaleBet k b)).1 (bets.map (scaleBet k)) = scaleTable k (arrayAfter (step d b).1 bets)
    rw [C91_step hk h hn hz (hrun [] b ⟨bets, rfl⟩) (hw b (by simp)) (he [b] ⟨bets, rfl⟩)]
    refine ih (.step b h) (by rw [step_cfg]; exact hn) (by rw [step_cfg]; exact hz) (fun x hx => hw x (by simp [hx])) (fun l x hl => ?_) fun l hl => ?_
    · exact hrun (b :: l) x (by rw [List.cons_append]; exact (List.prefix_cons_inj b).2 hl)
    · exact he (b :: l) ((List.prefix_cons_inj b).2 hl)

/-- **C91** for the array engine: the winning chances do not depend on the chips at all. -/
theorem C91_odds (d : Dealer) (n : Int) (sample : Nat → List Card) : winProbabilities (scaleTable k d) n sample = winProbabilities d n sample := rfl

/-- the hypotheses of `C91_step` at a showdown with a tie that goes up evenly -/
example : ∃ S d d' out, ArrayInHand S d ∧ ArrayReachable d ∧ step d (.fin 0) = (d', .ok out) ∧ NonNegative S d.cfg ∧ SizesOk d.cfg ∧ Running d ∧
    AtShowdown d' ∧ FoldsCovered d'.cfg.numPlayers (inB d') (contribution d') ∧ Ranks d' (fun _ => 1) ∧ oddAt d' (fun _ => 1) = 0 ∧
    out.2.1 = [0, -2, 1, 1] :=
  step_exists (ties 4 [2, 4, 0, 0] 10) [.bet 4, .bet (-1), .bet (-1), .bet 0, .bet 0] (.fin 0) (by decide +kernel)

/-- the hypotheses of `C91_multiples` -/
example : ∃ S d d' out, ArrayInHand S d ∧ ArrayReachable d ∧ step d (.fin 0) = (d', .ok out) ∧ d.action = some 0 ∧ AtShowdown d' ∧
    (∀ m < d.cfg.numPlayers + 1, 1 ≤ m → (m : Int) ∣ 2) ∧ ∀ i < d.cfg.numPlayers, (2 : Int) ∣ contribution d' i :=
  step_exists (ties 2 [2, 4] 20) [.bet 2, .bet 0, .bet 0] (.fin 0) (by decide +kernel)

end Clubs.Numpy
