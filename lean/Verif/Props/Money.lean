import Verif.Lemmas.View
import Verif.Lemmas.Play

/-!
# Chips: C18–C23, C28
-/

namespace Clubs

open Spec

/-! ## C18 -/

/-- **C18** (part): in every state of every hand, a step keeps all chips at the table, except possibly when it ends
the hand early. Also for steps that raise. -/
theorem C18_conserved_partial {S : List Int} {d : Dealer} (h : InHand S d) (hn : NonNegative S d.cfg) (bet : PyNum)
    (he : ¬ (d.action ≠ none ∧ EndedEarly (d.step bet).1)) : allChips (d.step bet).1 = allChips d := by
  cases ha : d.action with
  | none => rw [step_none ha]
  | some a =>
    have hl := (live_of_action h ha).1
    cases step_cases h ha bet with
    | refused e h => rw [h]
    | stuck b c lo hi e x hb hs hx hlx hp h => rw [h, live_chips hl, live_chips hlx]
    | goesOn b c lo hi p x obs hb hs hx hlx hp hd ho h => rw [h, live_chips hl, live_chips hlx]
    | ended b c lo hi p x obs hb hs hx hlx hp hd ho hst =>
      rw [hst] at he ⊢
      have hlen := payouts_length hlx.seated hp
      have hcon := (afterBet_nn_of h hn ha hs hx).contrib
      have hsum := payouts_sum hlx.seated hlx.pot hcon hp
      rw [settle_sum hlx.seated hlen, live_chips hl, ← live_chips hlx, hsum]
      rw [if_neg]
      · unfold allChips; rw [hlx.pot]; ring
      · rintro ⟨h1, h2⟩
        apply he
        refine ⟨by simp [ha], rfl, ?_, h2⟩
        have := hlx.one
        change 2 ≤ x.active.count true
        unfold countTrue at this h1
        omega

/-- **C18**, the exception: a step that ends the hand early loses exactly what the players who folded had put in. -/
theorem C18_early {S : List Int} {d : Dealer} (h : InHand S d) (bet : PyNum)
    (ha : d.action ≠ none) (he : EndedEarly (d.step bet).1) :
    allChips (d.step bet).1 = allChips d - foldedChips (d.step bet).1 := by
  obtain ⟨a, ha⟩ := Option.ne_none_iff_exists'.1 ha
  have hl := (live_of_action h ha).1
  have noLive : ∀ x, Live S x → x.action ≠ none := by
    intro x hlx hx
    obtain ⟨a', h1, -⟩ := hlx.action
    rw [hx] at h1; simp at h1
  cases step_cases h ha bet with
  | refused e h => rw [h] at he; exact absurd he.1 (noLive d hl)
  | stuck b c lo hi e x hb hs hx hlx hp h => rw [h] at he; exact absurd he.1 (noLive x hlx)
  | goesOn b c lo hi p x obs hb hs hx hlx hp hd ho h => rw [h] at he; exact absurd he.1 (noLive x hlx)
  | ended b c lo hi p x obs hb hs hx hlx hp hd ho hst =>
    rw [hst] at he ⊢
    have hlen := payouts_length hlx.seated hp
    rcases payouts_cases hp with ⟨h1, -⟩ | ⟨-, h2, -⟩ | ⟨-, -, h3⟩
    · have := he.2.1
      change 2 ≤ x.active.count true at this
      unfold countTrue at h1
      omega
    · have : x.street < x.cfg.numStreets := he.2.2
      omega
    · rw [settle_sum hlx.seated hlen, h3, lost_sum hlx.seated, live_chips hl, ← live_chips hlx]
      show _ = _ - foldedChips x
      unfold allChips
      rw [hlx.pot]; ring

/-- with two players, both in, nobody folded -/
theorem foldedChips_two {d : Dealer} (h : Seated d) (hn : d.cfg.numPlayers = 2) (h2 : 2 ≤ numIn d) : foldedChips d = 0 := by
  have hall : ∀ i < d.cfg.numPlayers, d.active.getD i false = true := by
    intro i hi
    by_contra hc
    have := countTrue_le d.active
    have hl := h.active
    have h3 : d.active.count true = d.active.length := by unfold numIn at h2; unfold countTrue at this; omega
    rw [List.count_eq_length] at h3
    apply hc
    rw [getD_eq _ _ _ (by omega)]
    exact (h3 _ (List.getElem_mem _)).symm
  unfold foldedChips
  rw [List.map_congr_left (g := fun _ => (0 : Int))]
  · simp
  · intro i hi
    rw [if_pos (hall i (by simpa using hi))]

/-- **C18** heads-up: with two players every step of every hand keeps all chips at the table. -/
theorem C18_heads_up {S : List Int} {d : Dealer} (h : InHand S d) (hn : NonNegative S d.cfg)
    (h2 : d.cfg.numPlayers = 2) (bet : PyNum) : allChips (d.step bet).1 = allChips d := by
  by_cases he : d.action ≠ none ∧ EndedEarly (d.step bet).1
  · rw [C18_early h bet he.1 he.2]
    have hs : Seated d := by
      obtain ⟨a, ha⟩ := Option.ne_none_iff_exists'.1 he.1
      exact (live_of_action h ha).1.seated
    rw [foldedChips_two (step_seated hs bet) (by rw [step_cfg]; exact h2) he.2.2.1]
    ring
  · exact C18_conserved_partial h hn bet he

/-- **C18** is false in general: three players with 2 chips each, blinds 1 and 2. The button goes all-in, the
small blind folds; the big blind is all-in already but has not acted. The hand ends at once, the two get their chips
back and the small blind is gone. -/
theorem C18_false : ∃ S d, InHand S d ∧ NonNegative S d.cfg ∧ (d.step (.fin (-1))).2.toOption.isSome = true ∧
    allChips d = 6 ∧ allChips (d.step (.fin (-1))).1 = 5 := by
  have := play_exists (a := small 3 [1, 2, 0] 2) (bs := [2])
    (f := fun d => nonNegB [2, 2, 2] d && (d.step (.fin (-1))).2.toOption.isSome && decide (allChips d = 6) &&
      decide (allChips (d.step (.fin (-1))).1 = 5)) (by decide +kernel)
  obtain ⟨d, h1, -, h2⟩ := this
  simp only [Bool.and_eq_true, decide_eq_true_eq] at h2
  exact ⟨_, d, h1, nonNegB_iff h2.1.1.1, h2.1.1.2, h2.1.2, h2.2⟩

/-- a hand to which the theorems apply: a step in the middle of a hand, and one that ends it early -/
example : ∃ S d, InHand S d ∧ NonNegative S d.cfg ∧ d.action = some 1 ∧ ¬ EndedEarly (d.step (.fin 4)).1 ∧
    (d.step (.fin 4)).1.pot = 10 := by
  have := play_exists (a := small 3 [1, 2, 0] 20) (bs := [4])
    (f := fun d => nonNegB [20, 20, 20] d && decide (d.action = some 1) && decide ((d.step (.fin 4)).1.action ≠ none) &&
      decide ((d.step (.fin 4)).1.pot = 10)) (by decide +kernel)
  obtain ⟨d, h1, -, h2⟩ := this
  simp only [Bool.and_eq_true, decide_eq_true_eq] at h2
  exact ⟨_, d, h1, nonNegB_iff h2.1.1.1, h2.1.1.2, fun h => h2.1.2 h.1, h2.2⟩

example : ∃ S d, InHand S d ∧ d.action ≠ none ∧ EndedEarly (d.step (.fin (-1))).1 ∧
    foldedChips (d.step (.fin (-1))).1 = 1 := by
  have := play_exists (a := small 3 [1, 2, 0] 2) (bs := [2])
    (f := fun d => decide (d.action ≠ none) && (decide ((d.step (.fin (-1))).1.action = none) &&
      (decide (2 ≤ numIn (d.step (.fin (-1))).1) &&
      (decide ((d.step (.fin (-1))).1.street < (d.step (.fin (-1))).1.cfg.numStreets))) &&
      decide (foldedChips (d.step (.fin (-1))).1 = 1))) (by decide +kernel)
  obtain ⟨d, h1, -, h2⟩ := this
  simp only [Bool.and_eq_true, decide_eq_true_eq] at h2
  exact ⟨_, d, h1, h2.1, ⟨h2.2.1.1, h2.2.1.2.1, h2.2.1.2.2⟩, h2.2.2⟩

/-! ## C19 -/

/-- **C19**: while a hand is running, the pot is the sum of the contributions, and stack plus contribution of a seat is
what it had at the start. -/
theorem C19_pot {S : List Int} {d : Dealer} (h : InHand S d) (ha : d.action ≠ none) :
    d.pot = ((List.range d.cfg.numPlayers).map (contribution d)).sum ∧
    ∀ i < d.cfg.numPlayers, stack d i + contribution d i = S.getD i 0 := by
  obtain ⟨a, ha⟩ := Option.ne_none_iff_exists'.1 ha
  have hl := (live_of_action h ha).1
  refine ⟨?_, hl.money⟩
  rw [hl.pot, sum_eq_range, hl.seated.potCommits]
  rfl

/-- **C19**: a seat's contribution is at least what it put in on the current street. -/
theorem C19_street {S : List Int} {d : Dealer} (h : InHand S d) (hn : NonNegative S d.cfg) (ha : d.action ≠ none) :
    ∀ i < d.cfg.numPlayers, 0 ≤ contribution d i ∧ streetBet d i ≤ contribution d i := by
  obtain ⟨a, ha⟩ := Option.ne_none_iff_exists'.1 ha
  have hnn := nn_of_action h hn ha
  exact fun i hi => ⟨hnn.contrib i hi, hnn.street i hi⟩

example : ∃ S d, InHand S d ∧ NonNegative S d.cfg ∧ d.action ≠ none ∧ d.pot = 15 ∧ streetBet d 1 = 3 ∧
    contribution d 1 = 7 := by
  have := play_exists (a := small 3 [1, 2, 0] 20) (bs := [4, 3, 2, 3])
    (f := fun d => nonNegB [20, 20, 20] d && (decide (d.action ≠ none) && (decide (d.pot = 15) &&
      (decide (streetBet d 1 = 3) && decide (contribution d 1 = 7))))) (by decide +kernel)
  obtain ⟨d, h1, -, h2⟩ := this
  simp only [Bool.and_eq_true, decide_eq_true_eq] at h2
  exact ⟨_, d, h1, nonNegB_iff h2.1, h2.2.1, h2.2.2.1, h2.2.2.2.1, h2.2.2.2.2⟩

/-! ## C20 -/

/-- **C20**: when a step ends a hand, every stack has changed over the hand by exactly the payout that
the step reports. -/
theorem C20_stacks {S : List Int} {d : Dealer} (h : InHand S d) (ha : d.action ≠ none) {bet : PyNum}
    {obs : Observation} {pays : List Int} {done : List Bool} (hr : (d.step bet).2 = .ok (obs, pays, done))
    (he : (d.step bet).1.action = none) :
    pays.length = d.cfg.numPlayers ∧
    ∀ i < d.cfg.numPlayers, stack (d.step bet).1 i = S.getD i 0 + pays.getD i 0 := by
  obtain ⟨a, ha⟩ := Option.ne_none_iff_exists'.1 ha
  cases step_cases h ha bet with
  | refused e h => rw [h] at hr; simp at hr
  | stuck b c lo hi e x hb hs hx hlx hp h => rw [h] at hr; simp at hr
  | goesOn b c lo hi p x obs hb hs hx hlx hp hd ho h =>
    rw [h] at he
    obtain ⟨a', h1, -⟩ := hlx.action
    rw [show x.action = none from he] at h1; simp at h1
  | ended b c lo hi p x obs hb hs hx hlx hp hd ho hst =>
    rw [hst] at hr ⊢
    simp only [Except.ok.injEq, Prod.mk.injEq] at hr
    obtain ⟨-, rfl, -⟩ := hr
    have hcfg : x.cfg = d.cfg := by rw [hx, afterBet_cfg]
    have hlen := payouts_length hlx.seated hp
    rw [hcfg] at hlen
    refine ⟨hlen, fun i hi => ?_⟩
    have h1 := settle_stack hlx.seated (payouts_length hlx.seated hp) i (by rw [hcfg]; exact hi)
    have h2 := hlx.money i (by rw [hcfg]; exact hi)
    rw [h1]; linarith

/-- **C20** (part): when a step ends a hand, and not early, the payouts it reports sum to zero. -/
theorem C20_zero_sum_partial {S : List Int} {d : Dealer} (h : InHand S d) (hn : NonNegative S d.cfg)
    (ha : d.action ≠ none) {bet : PyNum}
    {obs : Observation} {pays : List Int} {done : List Bool} (hr : (d.step bet).2 = .ok (obs, pays, done))
    (he : (d.step bet).1.action = none) (hne : ¬ EndedEarly (d.step bet).1) : pays.sum = 0 := by
  obtain ⟨a, ha⟩ := Option.ne_none_iff_exists'.1 ha
  cases step_cases h ha bet with
  | refused e h => rw [h] at hr; simp at hr
  | stuck b c lo hi e x hb hs hx hlx hp h => rw [h] at hr; simp at hr
  | goesOn b c lo hi p x obs hb hs hx hlx hp hd ho h =>
    rw [h] at he
    obtain ⟨a', h1, -⟩ := hlx.action
    rw [show x.action = none from he] at h1; simp at h1
  | ended b c lo hi p x obs hb hs hx hlx hp hd ho hst =>
    rw [hst] at hr hne
    simp only [Except.ok.injEq, Prod.mk.injEq] at hr
    obtain ⟨-, rfl, -⟩ := hr
    rw [payouts_sum hlx.seated hlx.pot (afterBet_nn_of h hn ha hs hx).contrib hp, if_neg]
    rintro ⟨h1, h2⟩
    apply hne
    refine ⟨rfl, ?_, h2⟩
    have := hlx.one
    change 2 ≤ x.active.count true
    unfold countTrue at this h1
    omega

/-- **C20**, the exception: if the hand ends early, the payouts sum to minus what the players who folded put in. -/
theorem C20_early {S : List Int} {d : Dealer} (h : InHand S d) (ha : d.action ≠ none) {bet : PyNum}
    {obs : Observation} {pays : List Int} {done : List Bool} (hr : (d.step bet).2 = .ok (obs, pays, done))
    (he : EndedEarly (d.step bet).1) : pays.sum = - foldedChips (d.step bet).1 := by
  have h1 := C18_early h bet ha he
  obtain ⟨hl, h2⟩ := C20_stacks h ha hr he.1
  obtain ⟨a, ha⟩ := Option.ne_none_iff_exists'.1 ha
  have hlive := (live_of_action h ha).1
  have hpot : (d.step bet).1.pot = 0 := by
    obtain ⟨e, p, h3, -⟩ := ended_of_action (InHand.step bet h) he.1
    rw [h3]; rfl
  have hsum : (d.step bet).1.stacks.sum = S.sum + pays.sum := by
    have hs := step_seated hlive.seated bet
    rw [sum_eq_range, hs.stacks, step_cfg, sum_eq_range S, hlive.startLen, sum_eq_range pays, hl, ← sum_map_add]
    congr 1
    apply List.map_congr_left
    intro i hi
    exact h2 i (by simpa using hi)
  rw [live_chips hlive] at h1
  unfold allChips at h1
  rw [hpot] at h1
  linarith

/-- **C20** heads-up -/
theorem C20_heads_up {S : List Int} {d : Dealer} (h : InHand S d) (hn : NonNegative S d.cfg) (h2 : d.cfg.numPlayers = 2)
    (ha : d.action ≠ none) {bet : PyNum}
    {obs : Observation} {pays : List Int} {done : List Bool} (hr : (d.step bet).2 = .ok (obs, pays, done))
    (he : (d.step bet).1.action = none) : pays.sum = 0 := by
  by_cases hne : EndedEarly (d.step bet).1
  · rw [C20_early h ha hr hne]
    obtain ⟨a, ha⟩ := Option.ne_none_iff_exists'.1 ha
    rw [foldedChips_two (step_seated (live_of_action h ha).1.seated bet) (by rw [step_cfg]; exact h2) hne.2.1]
    rfl
  · exact C20_zero_sum_partial h hn ha hr he hne

/-- the payouts a step reports -/
def paysOf (r : Except Err StepOut) : Option (List Int) := r.toOption.map fun o => o.2.1

/-- **C20** is false in general: the hand of `C18_false` reports payouts 0, -1, 0. -/
theorem C20_false : ∃ S d, InHand S d ∧ NonNegative S d.cfg ∧ d.action ≠ none ∧ (d.step (.fin (-1))).1.action = none ∧
    paysOf (d.step (.fin (-1))).2 = some [0, -1, 0] := by
  have := play_exists (a := small 3 [1, 2, 0] 2) (bs := [2])
    (f := fun d => nonNegB [2, 2, 2] d && (decide (d.action ≠ none) && (decide ((d.step (.fin (-1))).1.action = none) &&
      decide (paysOf (d.step (.fin (-1))).2 = some [0, -1, 0])))) (by decide +kernel)
  obtain ⟨d, h1, -, h2⟩ := this
  simp only [Bool.and_eq_true, decide_eq_true_eq] at h2
  exact ⟨_, d, h1, nonNegB_iff h2.1, h2.2.1, h2.2.2.1, h2.2.2.2⟩

/-- a showdown between three players that pays out -/
example : ∃ S d, InHand S d ∧ NonNegative S d.cfg ∧ d.action ≠ none ∧ (d.step (.fin 0)).1.action = none ∧
    paysOf (d.step (.fin 0)).2 = some [-2, -2, 4] := by
  have := play_exists (a := small 3 [1, 2, 0] 20) (bs := [2, 1, 0, 0, 0])
    (f := fun d => nonNegB [20, 20, 20] d && (decide (d.action ≠ none) && (decide ((d.step (.fin 0)).1.action = none) &&
      decide (paysOf (d.step (.fin 0)).2 = some [-2, -2, 4])))) (by decide +kernel)
  obtain ⟨d, h1, -, h2⟩ := this
  simp only [Bool.and_eq_true, decide_eq_true_eq] at h2
  exact ⟨_, d, h1, nonNegB_iff h2.1, h2.2.1, h2.2.2.1, h2.2.2.2⟩

/-! ## C21 -/

/-- **C21** (part): a step moves chips only from the acting seat, not less than nothing and not more than the seat has. -/
theorem C21_bet {S : List Int} {d : Dealer} (h : InHand S d) (hn : NonNegative S d.cfg) {a : Nat}
    (ha : d.action = some a) (hs0 : 0 ≤ stack d a) (bet : PyNum) :
    0 ≤ contribution (d.step bet).1 a - contribution d a ∧
    contribution (d.step bet).1 a - contribution d a ≤ stack d a ∧
    ∀ i < d.cfg.numPlayers, i ≠ a → contribution (d.step bet).1 i = contribution d i := by
  have hl := (live_of_action h ha).1
  have hseat : d.seat = a := by unfold Dealer.seat; rw [ha]; rfl
  have halt := hl.seated.action a ha
  have key : ∀ (b c lo hi : Int), d.betSizes = .ok (c, lo, hi) →
      0 ≤ contribution (d.afterBet bet.isNeg c (cleanBet b c lo hi)) a - contribution d a ∧
      contribution (d.afterBet bet.isNeg c (cleanBet b c lo hi)) a - contribution d a ≤ stack d a ∧
      ∀ i < d.cfg.numPlayers, i ≠ a → contribution (d.afterBet bet.isNeg c (cleanBet b c lo hi)) i = contribution d i := by
    intro b c lo hi hb
    have hbet := betOf_nonneg (b := b) hl.seated (nn_pot hl (nn_of_action h hn ha)) hb bet.isNeg
    have hc := contribution_afterBet hl.seated bet.isNeg c (cleanBet b c lo hi)
    refine ⟨?_, ?_, ?_⟩
    · rw [(hc a halt).1, if_pos hseat, hseat]; omega
    · rw [(hc a halt).1, if_pos hseat, hseat]; omega
    · intro i hi hia
      rw [(hc i hi).1, if_neg (by omega)]; omega
  cases step_cases h ha bet with
  | refused e h =>
    rw [h]
    show 0 ≤ contribution d a - contribution d a ∧ _
    exact ⟨by omega, by show contribution d a - contribution d a ≤ _; omega, fun _ _ _ => rfl⟩
  | stuck b c lo hi e x hb hs hx hlx hp h => rw [h, hx]; exact key b c lo hi hs
  | goesOn b c lo hi p x obs hb hs hx hlx hp hd ho h => rw [h, hx]; exact key b c lo hi hs
  | ended b c lo hi p x obs hb hs hx hlx hp hd ho h =>
    rw [h]
    show 0 ≤ contribution x a - contribution d a ∧ contribution x a - contribution d a ≤ stack d a ∧
      ∀ i < d.cfg.numPlayers, i ≠ a → contribution x i = contribution d i
    rw [hx]; exact key b c lo hi hs

/-- **C21** (part): if every player with chips can pay the ante and blind of every position, no stack is ever negative
during the hand. -/
theorem C21_covered_partial {S : List Int} {d : Dealer} (h : InHand S d) (hn : NonNegative S d.cfg)
    (hcov : Covers S d.cfg) (ha : d.action ≠ none) : ∀ i < d.cfg.numPlayers, 0 ≤ stack d i :=
  (covered_of_inHand h hn hcov ha).2.2

/-- **C21** (part): whatever happens in between, when a hand has ended no stack is negative. -/
theorem C21_after_hand {S : List Int} {d : Dealer} (h : InHand S d) (hn : NonNegative S d.cfg)
    (ha : d.action = none) : ∀ i < d.cfg.numPlayers, 0 ≤ stack d i := by
  rcases nn_of_inHand h hn with ⟨-, hl, -⟩ | ⟨e, p, rfl, hnn, hl, hp, hd⟩
  · obtain ⟨a, h1, -⟩ := hl.action
    rw [ha] at h1; simp at h1
  · intro i hi
    change i < e.cfg.numPlayers at hi
    rw [settle_stack hl.seated (payouts_length hl.seated hp) i hi]
    have hm := hl.money i hi
    have hs0 := list_getD_nonneg hn.start i
    have hc := hnn.contrib i hi
    have hnotin : ¬ isIn e i → 0 ≤ stack e i := by
      intro h1
      by_contra h2
      exact h1 (hnn.neg i hi (by omega)).2.1
    have hlp : i < e.potCommits.length := by rw [hl.seated.potCommits]; exact hi
    have hla : i < e.active.length := by rw [hl.seated.active]; exact hi
    have hlost : (lostList e).getD i 0 = if e.active.getD i false then 0 else -1 * contribution e i :=
      getD_zipWith _ _ _ _ 0 false _ hlp hla
    rcases payouts_cases hp with ⟨-, rfl⟩ | ⟨-, h2, q, hq, rfl⟩ | ⟨h1, h2, rfl⟩
    · rw [getD_zipWith _ _ _ _ 0 0 _ (by simp [lostList, hlp, hla]) (by simp [hlp, hla]),
        getD_zipWith _ _ _ _ false 0 _ hla hlp, hlost]
      by_cases hin : e.active.getD i false = true
      · rw [if_pos hin, if_pos hin]
        have := nn_pot hl hnn
        show 0 ≤ stack e i + (0 + (e.pot - contribution e i)) + contribution e i
        have hle : contribution e i ≤ e.pot := by
          rw [hl.pot]
          exact List.single_le_sum (fun x hx => by
            obtain ⟨j, hj, rfl⟩ := (mem_getD 0).1 hx
            exact hnn.contrib j (by rw [← hl.seated.potCommits]; exact hj)) _
              ((mem_getD 0).2 ⟨i, hlp, rfl⟩)
        omega
      · rw [if_neg hin, if_neg hin]
        have := hnotin hin
        omega
    · obtain ⟨g1, g2, g3⟩ := evalRound_sum hl.seated hl.pot hnn.contrib hq
      rw [getD_zipWith _ _ _ _ 0 0 _ (by rw [g1]; exact hi) hlp]
      have hq0 := list_getD_nonneg g3 i
      show 0 ≤ stack e i + (q.getD i 0 - contribution e i) + contribution e i
      have : 0 ≤ stack e i := by
        by_contra h3
        have := (hnn.neg i hi (by omega)).1
        have := hl.oneStreet
        omega
      omega
    · rw [hlost]
      by_cases hin : e.active.getD i false = true
      · rw [if_pos hin]
        rcases (done_all_iff hl.seated).1 hd with h3 | h3 | h3
        · omega
        · have := hl.one; omega
        · have := h3 i hi hin
          omega
      · rw [if_neg hin]
        have := hnotin hin
        omega

/-- a hand in which every stack covers the blinds, in the middle and at the end -/
example : ∃ S d, InHand S d ∧ NonNegative S d.cfg ∧ Covers S d.cfg ∧ d.action = some 1 ∧ 0 ≤ stack d 1 := by
  have := play_exists (a := small 3 [1, 2, 0] 20) (bs := [4])
    (f := fun d => nonNegB [20, 20, 20] d && (decide (d.action = some 1) && (decide (0 ≤ stack d 1) &&
      decide (∀ i < d.cfg.numPlayers, ([20, 20, 20] : List Int).getD i 0 = 0 ∨ ∀ j < d.cfg.numPlayers,
        d.cfg.antes.getD j 0 + d.cfg.blinds.getD j 0 ≤ ([20, 20, 20] : List Int).getD i 0)))) (by decide +kernel)
  obtain ⟨d, h1, -, h2⟩ := this
  simp only [Bool.and_eq_true, decide_eq_true_eq] at h2
  exact ⟨_, d, h1, nonNegB_iff h2.1, h2.2.2.2, h2.2.1, h2.2.2.1⟩

example : ∃ S d, InHand S d ∧ NonNegative S d.cfg ∧ d.action = none ∧ d.stacks = [18, 18, 24] := by
  have := play_exists (a := small 3 [1, 2, 0] 20) (bs := [2, 1, 0, 0, 0, 0])
    (f := fun d => nonNegB [20, 20, 20] d && (decide (d.action = none) && decide (d.stacks = [18, 18, 24])))
      (by decide +kernel)
  obtain ⟨d, h1, -, h2⟩ := this
  simp only [Bool.and_eq_true, decide_eq_true_eq] at h2
  exact ⟨_, d, h1, nonNegB_iff h2.1, h2.2.1, h2.2.2⟩

/-- **C21** is false: a blind is taken in full from a player who has less. -/
theorem C21_false : ∃ S d, InHand S d ∧ NonNegative S d.cfg ∧ d.action = some 3 ∧ d.stacks = [1, 1, 0, -4] := by
  have := play_exists (a := small 4 [0, 1, 5, 0] 1) (bs := [])
    (f := fun d => nonNegB [1, 1, 1, 1] d && (decide (d.action = some 3) && decide (d.stacks = [1, 1, 0, -4])))
    (by decide +kernel)
  obtain ⟨d, h1, -, h2⟩ := this
  simp only [Bool.and_eq_true, decide_eq_true_eq] at h2
  exact ⟨_, d, h1, nonNegB_iff h2.1, h2.2.1, h2.2.2⟩

end Clubs
