import Verif.Props.Money

/-!
# Sessions and the end of a hand: C22, C23, C28
-/

namespace Clubs

open Spec

/-! ## C22 -/

theorem session_inv {t l : Int} {d : Dealer} (h : Session t l d) :
    ∃ S, InHand S d ∧ NonNegative S d.cfg ∧ allChips d + l = t ∧ 0 ≤ l := by
  induction h with
  | @first d d' rb rs shuf obs hd hs hr hn =>
    refine ⟨_, InHand.dealt hd hs hr, hn, ?_, le_rfl⟩
    rw [live_chips (dealt_live hd hr).1]; ring
  | @step t l d bet h ih =>
    obtain ⟨S, h1, h2, h3, h4⟩ := ih
    refine ⟨S, InHand.step bet h1, by rw [step_cfg]; exact h2, ?_⟩
    unfold vanished
    by_cases hv : d.action ≠ none ∧ (d.step bet).1.action = none ∧ 2 ≤ numIn (d.step bet).1 ∧
        (d.step bet).1.street < (d.step bet).1.cfg.numStreets
    · rw [if_pos hv, C18_early h1 bet hv.1 hv.2]
      refine ⟨by linarith, ?_⟩
      have hf : 0 ≤ foldedChips (d.step bet).1 := by
        apply List.sum_nonneg
        intro x hx
        rw [List.mem_map] at hx
        obtain ⟨i, hi, rfl⟩ := hx
        rw [List.mem_range] at hi
        split
        · exact le_rfl
        · rcases nn_of_inHand (InHand.step bet h1) (by rw [step_cfg]; exact h2) with hh | ⟨e, p, he, hh, -⟩
          · exact hh.1.contrib i hi
          · rw [he] at hi ⊢
            exact hh.contrib i hi
      omega
    · rw [if_neg hv, C18_conserved_partial h1 h2 bet hv]
      exact ⟨by linarith, by omega⟩
  | @next t l d d' rb shuf obs h he hs hr ih =>
    obtain ⟨S, h1, h2, h3, h4⟩ := ih
    have hseat : Seated d := by
      obtain ⟨e, p, rfl, hl, hp, -⟩ := ended_of_action h1 he
      exact settle_seated hl.seated (payouts_length hl.seated hp)
    have hcfg : d'.cfg = d.cfg := by
      have := reset_cfg d rb false shuf
      rw [hr] at this; exact this
    have hpot : d.pot = 0 := by
      obtain ⟨e, p, rfl, -⟩ := ended_of_action h1 he
      rfl
    refine ⟨_, InHand.dealt hseat hs hr, ⟨?_, ?_, ?_⟩, ?_, h4⟩
    · intro s hs
      change s ∈ d.stacks at hs
      obtain ⟨i, hi, rfl⟩ := (mem_getD 0).1 hs
      exact C21_after_hand h1 h2 he i (by rw [← hseat.stacks]; exact hi)
    · rw [hcfg]; exact h2.blinds
    · rw [hcfg]; exact h2.antes
    · rw [live_chips (dealt_live hseat hr).1]
      show d.stacks.sum + l = t
      rw [← h3]; unfold allChips; rw [hpot]; ring

/-- **C22** (part): over any session the chips at the table are the chips at the start minus the chips
that vanished when hands ended early (which are never negative). Without such a hand, nothing is lost. -/
theorem C22_session_partial {total lost : Int} {d : Dealer} (h : Session total lost d) :
    allChips d = total - lost ∧ 0 ≤ lost := by
  obtain ⟨S, -, -, h1, h2⟩ := session_inv h
  exact ⟨by linarith, h2⟩

/-- **C22** heads-up: two players never lose a chip, over any number of hands. -/
theorem C22_heads_up {total lost : Int} {d : Dealer} (h : Session total lost d) (h2 : d.cfg.numPlayers = 2) :
    allChips d = total := by
  have hlost : lost = 0 := by
    induction h with
    | first => rfl
    | @step t l d bet h ih =>
      rw [step_cfg] at h2
      rw [ih h2]
      unfold vanished
      split
      · next hv =>
        obtain ⟨S, h1, -⟩ := session_inv h
        obtain ⟨a, ha⟩ := Option.ne_none_iff_exists'.1 hv.1
        rw [foldedChips_two (step_seated (live_of_action h1 ha).1.seated bet) (by rw [step_cfg]; exact h2) hv.2.2.1]
        rfl
      · rfl
    | @next t l d d' rb shuf obs h he hs hr ih =>
      apply ih
      have := reset_cfg d rb false shuf
      rw [hr] at this
      rw [← this]; exact h2
  have := C22_session_partial h
  rw [this.1, hlost]; ring

/-- two hands in a row, as a computation -/
def twoHands (a : DealerArgs) (bets1 bets2 : List Int) : Except Err Dealer :=
  (table a).bind fun d =>
    let d1 := playFrom d bets1
    if d1.action = none then
      match d1.reset false false id with
      | (d2, .ok _) => .ok (playFrom d2 bets2)
      | (_, .error e) => .error e
    else .error .assertionError

theorem playFrom_session {t l : Int} {d : Dealer} (h : Session t l d) (bs : List Int) :
    ∃ l', Session t l' (playFrom d bs) := by
  induction bs generalizing l d with
  | nil => exact ⟨l, h⟩
  | cons b bs ih => exact ih (Session.step _ h)

theorem table_session {a : DealerArgs} {d : Dealer} (h : table a = .ok d)
    (hn : NonNegative (List.replicate a.numPlayers.toNat a.startStack) d.cfg) :
    Session (List.replicate a.numPlayers.toNat a.startStack).sum 0 d := by
  unfold table at h
  cases hn2 : Dealer.new a id with
  | error e => rw [hn2] at h; simp [Except.bind] at h
  | ok d0 =>
    rw [hn2] at h
    simp only [Except.bind] at h
    split at h
    · next d' obs hr =>
      simp only [Except.ok.injEq] at h
      subst h
      have h1 : startStacks d0 false = List.replicate a.numPlayers.toNat a.startStack := (new_stacks hn2).1
      have := Session.first (rs := false) (new_seated hn2) isShuffle_id hr (by rw [h1]; exact hn)
      rwa [h1] at this
    · simp at h

theorem twoHands_session {a : DealerArgs} {b1 b2 : List Int} {d : Dealer} (h : twoHands a b1 b2 = .ok d)
    (hn : NonNegative (List.replicate a.numPlayers.toNat a.startStack) d.cfg) :
    ∃ l, Session (List.replicate a.numPlayers.toNat a.startStack).sum l d := by
  unfold twoHands at h
  cases ht : table a with
  | error e => rw [ht] at h; simp [Except.bind] at h
  | ok d0 =>
    rw [ht] at h
    simp only [Except.bind] at h
    split at h
    · next he =>
      split at h
      · next d2 obs hr =>
        simp only [Except.ok.injEq] at h
        have hplay : ∀ (d : Dealer) (bs : List Int), (playFrom d bs).cfg = d.cfg := by
          intro d bs
          induction bs generalizing d with
          | nil => rfl
          | cons b bs ih => show (playFrom (d.step _).1 bs).cfg = _; rw [ih, step_cfg]
        have hcfg : d.cfg = d0.cfg := by
          have := reset_cfg (playFrom d0 b1) false false id
          rw [hr] at this
          rw [← h, hplay]
          exact this.trans (hplay _ _)
        rw [hcfg] at hn
        obtain ⟨l, hl⟩ := playFrom_session (table_session ht hn) b1
        rw [← h]
        exact playFrom_session (Session.next hl he isShuffle_id hr) b2
      · simp at h
    · simp at h

/-- **C22** is false in general: six chips at the start, five after the first hand (see `C18_false`) and in the second. -/
theorem C22_false : ∃ lost d, Session 6 lost d ∧ d.action = some 1 ∧ allChips d = 5 := by
  have h : (twoHands (small 3 [1, 2, 0] 2) [2, -1] []).bind (fun d => .ok (nonNegB [2, 2, 2] d &&
      (decide (d.action = some 1) && decide (allChips d = 5)))) = .ok true := by decide +kernel
  cases ht : twoHands (small 3 [1, 2, 0] 2) [2, -1] [] with
  | error e => rw [ht] at h; simp [Except.bind] at h
  | ok d =>
    rw [ht] at h
    simp only [Except.bind, Except.ok.injEq, Bool.and_eq_true, decide_eq_true_eq] at h
    obtain ⟨l, hl⟩ := twoHands_session ht (nonNegB_iff h.1)
    exact ⟨l, d, hl, h.2.1, h.2.2⟩

/-- a heads-up session in its second hand -/
example : ∃ total lost d, Session total lost d ∧ d.cfg.numPlayers = 2 ∧ d.stacks = [16, 21] ∧ d.pot = 3 := by
  have h : (twoHands (small 2 [1, 2] 20) [1, 0, 0, 0] []).bind (fun d => .ok (nonNegB [20, 20] d &&
      (decide (d.cfg.numPlayers = 2) && (decide (d.stacks = [16, 21]) && decide (d.pot = 3))))) = .ok true := by
    decide +kernel
  cases ht : twoHands (small 2 [1, 2] 20) [1, 0, 0, 0] [] with
  | error e => rw [ht] at h; simp [Except.bind] at h
  | ok d =>
    rw [ht] at h
    simp only [Except.bind, Except.ok.injEq, Bool.and_eq_true, decide_eq_true_eq] at h
    obtain ⟨l, hl⟩ := twoHands_session ht (nonNegB_iff h.1)
    exact ⟨_, l, d, hl, h.2.1, h.2.2.1, h.2.2.2⟩

/-! ## C23 -/

/-- **C23**: when a step ends a hand with one player left, this player's payout is the pot minus their own contribution,
and everybody else's payout is minus their contribution. -/
theorem C23_fold_out {S : List Int} {d : Dealer} (h : InHand S d) (ha : d.action ≠ none) {bet : PyNum}
    {obs : Observation} {pays : List Int} {done : List Bool} (hr : (d.step bet).2 = .ok (obs, pays, done))
    (h1 : numIn (d.step bet).1 = 1) :
    (d.step bet).1.action = none ∧ (∀ b ∈ done, b = true) ∧
    ∀ i < d.cfg.numPlayers, pays.getD i 0 =
      if (d.step bet).1.active.getD i false then
        ((List.range d.cfg.numPlayers).map (contribution (d.step bet).1)).sum - contribution (d.step bet).1 i
      else - contribution (d.step bet).1 i := by
  obtain ⟨a, ha⟩ := Option.ne_none_iff_exists'.1 ha
  cases step_cases h ha bet with
  | refused e h => rw [h] at hr; simp at hr
  | stuck b c lo hi e x hb hs hx hlx hp h => rw [h] at hr; simp at hr
  | goesOn b c lo hi p x obs hb hs hx hlx hp hd ho h =>
    exfalso
    rw [h] at h1
    have := (done_all_iff hlx.seated).2 (.inr (.inl (show countTrue x.active ≤ 1 from le_of_eq h1)))
    rw [hd] at this; simp at this
  | ended b c lo hi p x obs hb hs hx hlx hp hd ho hst =>
    rw [hst] at hr h1 ⊢
    simp only [Except.ok.injEq, Prod.mk.injEq] at hr
    obtain ⟨-, rfl, rfl⟩ := hr
    have hcfg : x.cfg = d.cfg := by rw [hx, afterBet_cfg]
    refine ⟨rfl, fun b hb => by have := List.all_eq_true.1 hd b hb; simpa using this, fun i hi => ?_⟩
    rw [← hcfg] at hi ⊢
    have hlp : i < x.potCommits.length := by rw [hlx.seated.potCommits]; exact hi
    have hla : i < x.active.length := by rw [hlx.seated.active]; exact hi
    have hpot : x.pot = ((List.range x.cfg.numPlayers).map (contribution x)).sum := by
      rw [hlx.pot, sum_eq_range, hlx.seated.potCommits]; rfl
    rcases payouts_cases hp with ⟨-, rfl⟩ | ⟨h2, -⟩ | ⟨h2, -⟩
    · rw [getD_zipWith _ _ _ _ 0 0 _ (by simp [lostList, hlp, hla]) (by simp [hlp, hla]),
        getD_zipWith _ _ _ _ false 0 _ hla hlp, show (lostList x).getD i 0 = _ from getD_zipWith _ _ _ _ 0 false _ hlp hla]
      change (if x.active.getD i false = true then 0 else -1 * contribution x i) +
        (if x.active.getD i false = true then x.pot - contribution x i else 0) =
        if x.active.getD i false = true then _ - contribution x i else - contribution x i
      split
      · rw [hpot]; show 0 + _ = _; rw [zero_add]; rfl
      · ring
    · exact absurd h1 h2
    · exact absurd h1 h2

example : ∃ S d, InHand S d ∧ d.action ≠ none ∧ numIn (d.step (.fin (-1))).1 = 1 ∧
    paysOf (d.step (.fin (-1))).2 = some [3, -1, -2] := by
  have := play_exists (a := small 3 [1, 2, 0] 20) (bs := [5, -1])
    (f := fun d => decide (d.action ≠ none) && (decide (numIn (d.step (.fin (-1))).1 = 1) &&
      decide (paysOf (d.step (.fin (-1))).2 = some [3, -1, -2]))) (by decide +kernel)
  obtain ⟨d, h1, -, h2⟩ := this
  simp only [Bool.and_eq_true, decide_eq_true_eq] at h2
  exact ⟨_, d, h1, h2.1, h2.2.1, h2.2.2⟩

/-! ## C28 -/

/-- all-in players make the street run out -/
theorem allAllIn_of_zero {d : Dealer} (h : Seated d) (hz : ∀ i < d.cfg.numPlayers, isIn d i → stack d i = 0) :
    d.allAllIn = true := by
  unfold Dealer.allAllIn
  have : List.zipWith (fun (active : Bool) stack => active && stack == 0) d.active d.stacks = d.active := by
    apply ext_getD false
    · simp [h.active, h.stacks]
    · intro i hi
      have hi : i < d.cfg.numPlayers := by simp [h.active, h.stacks] at hi; exact hi
      rw [getD_zipWith _ _ _ _ false 0 _ (by rw [h.active]; exact hi) (by rw [h.stacks]; exact hi)]
      have := hz i hi
      unfold isIn stack at this
      cases hx : d.active.getD i false
      · rfl
      · rw [this hx]; rfl
  simp only [this]
  simp

/-- **C28** (part): when a step ends a hand, one player is left, or all streets were dealt, or every player still in is
all-in and one of them has not had a turn on this street. -/
theorem C28_end_partial {S : List Int} {d : Dealer} (h : InHand S d) (ha : d.action ≠ none) {bet : PyNum}
    (he : (d.step bet).1.action = none) :
    numIn (d.step bet).1 = 1 ∨ (d.step bet).1.street = d.cfg.numStreets ∨
    (EndedEarly (d.step bet).1 ∧
      (∀ i < d.cfg.numPlayers, isIn (d.step bet).1 i → contribution (d.step bet).1 i = S.getD i 0) ∧
      ∃ i < d.cfg.numPlayers, isIn (d.step bet).1 i ∧ (d.step bet).1.streetOption.getD i false = false) := by
  obtain ⟨a, ha⟩ := Option.ne_none_iff_exists'.1 ha
  have hopt := optInv_of_inHand (InHand.step bet h)
  have noLive : ∀ x, Live S x → x.action ≠ none := by
    intro x hlx hx
    obtain ⟨a', h1, -⟩ := hlx.action
    rw [hx] at h1; simp at h1
  cases step_cases h ha bet with
  | refused e h2 => rw [h2] at he; exact absurd he (noLive d (live_of_action h ha).1)
  | stuck b c lo hi e x hb hs hx hlx hp h => rw [h] at he; exact absurd he (noLive x hlx)
  | goesOn b c lo hi p x obs hb hs hx hlx hp hd ho h => rw [h] at he; exact absurd he (noLive x hlx)
  | ended b c lo hi p x obs hb hs hx hlx hp hd ho hst =>
    rw [hst] at hopt ⊢
    have hcfg : x.cfg = d.cfg := by rw [hx, afterBet_cfg]
    rcases (done_all_iff hlx.seated).1 hd with h1 | h1 | h1
    · right; left
      have := hlx.street
      show x.street = _
      rw [← hcfg]; omega
    · left
      show countTrue x.active = 1
      have := hlx.one; omega
    · by_cases h2 : x.cfg.numStreets ≤ x.street
      · right; left
        have := hlx.street
        show x.street = _
        rw [← hcfg]; omega
      by_cases h3 : countTrue x.active ≤ 1
      · left
        show countTrue x.active = 1
        have := hlx.one; omega
      right; right
      refine ⟨⟨rfl, by show 2 ≤ countTrue x.active; omega, by show x.street < x.cfg.numStreets; omega⟩, ?_, ?_⟩
      · intro i hi hin
        rw [← hcfg] at hi
        have := hlx.money i hi
        rw [h1 i hi hin] at this
        show contribution x i = _
        omega
      · by_contra hcon
        push Not at hcon
        have hall : ∀ i < x.cfg.numPlayers, opt x i := by
          apply options_all hlx.seated hlx.one (show OptInv x from hopt)
          intro i hi hin
          have := hcon i (by rw [← hcfg]; exact hi) hin
          unfold opt
          cases hxo : x.streetOption.getD i false
          · exact absurd hxo this
          · rfl
        have hl := (live_of_action h ha).1
        have hst0 : d.street < d.cfg.numStreets := by
          by_contra hcon
          rw [betSizes_error hl.seated (by omega)] at hs
          simp at hs
        have hsa := moveAction_seated (acted_seated hl.seated bet.isNeg c (cleanBet b c lo hi))
        rcases afterBet_cases d bet.isNeg c (cleanBet b c lo hi) with ⟨g1, g2⟩ | ⟨g1, g2⟩
        · rw [← hx] at g2
          rw [← g2] at g1
          have : x.allAgreed = true := (allAgreed_iff hlx.seated).2 ⟨hall, fun i hi hin hne => absurd (h1 i hi hin) hne⟩
          rw [this] at g1; simp at g1
        · rw [← hx] at g2
          obtain ⟨-, -, -, f4, f5, f6, -⟩ := nextStreet_fields (d.acted bet.isNeg c (cleanBet b c lo hi)).moveAction
          have hs2 := nextStreet_street (d := (d.acted bet.isNeg c (cleanBet b c lo hi)).moveAction) hst0
          rw [if_pos] at hs2
          · rw [← g2] at hs2 f4
            rw [f4] at h2
            omega
          · apply allAllIn_of_zero hsa
            rw [← g2] at f4 f5 f6
            intro i hi hin
            rw [← f4] at hi
            unfold isIn stack at *
            rw [← f5] at hin
            rw [← f6]
            exact h1 i hi hin

/-- **C28**, the other direction: while a step leaves the hand running, two players are in, there is a street to play
and somebody who is in has chips. -/
theorem C28_goes_on {S : List Int} {d : Dealer} (h : InHand S d) (ha : d.action ≠ none) {bet : PyNum}
    {out : StepOut} (hr : (d.step bet).2 = .ok out) (he : (d.step bet).1.action ≠ none) :
    2 ≤ numIn (d.step bet).1 ∧ (d.step bet).1.street < d.cfg.numStreets ∧
    ∃ i < d.cfg.numPlayers, isIn (d.step bet).1 i ∧ stack (d.step bet).1 i ≠ 0 := by
  obtain ⟨a, ha⟩ := Option.ne_none_iff_exists'.1 ha
  cases step_cases h ha bet with
  | refused e h => rw [h] at hr; simp at hr
  | stuck b c lo hi e x hb hs hx hlx hp h => rw [h] at hr; simp at hr
  | ended b c lo hi p x obs hb hs hx hlx hp hd ho hst => rw [hst] at he; exact absurd rfl he
  | goesOn b c lo hi p x obs hb hs hx hlx hp hd ho hst =>
    rw [hst]
    have hcfg : x.cfg = d.cfg := by rw [hx, afterBet_cfg]
    have := mt (done_all_iff hlx.seated).2 (by rw [hd]; simp)
    rw [hcfg] at this
    push Not at this
    obtain ⟨h1, h2, i, hi, hin, hne⟩ := this
    refine ⟨?_, h1, i, hi, hin, hne⟩
    show 2 ≤ countTrue x.active
    omega

/-- **C28** is false in general: see `C18_false`; the hand ends on the first of two streets with two players in. -/
theorem C28_false : ∃ S d, InHand S d ∧ NonNegative S d.cfg ∧ d.action ≠ none ∧ EndedEarly (d.step (.fin (-1))).1 := by
  have := play_exists (a := small 3 [1, 2, 0] 2) (bs := [2])
    (f := fun d => nonNegB [2, 2, 2] d && (decide (d.action ≠ none) && (decide ((d.step (.fin (-1))).1.action = none) &&
      (decide (2 ≤ numIn (d.step (.fin (-1))).1) &&
      (decide ((d.step (.fin (-1))).1.street < (d.step (.fin (-1))).1.cfg.numStreets)))))) (by decide +kernel)
  obtain ⟨d, h1, -, h2⟩ := this
  simp only [Bool.and_eq_true, decide_eq_true_eq] at h2
  exact ⟨_, d, h1, nonNegB_iff h2.1, h2.2.1, h2.2.2.1, h2.2.2.2⟩

/-- every player has more than the ante and blind of every position -/
def Deep (S : List Int) (c : Config) : Prop :=
  ∀ i < c.numPlayers, ∀ j < c.numPlayers, c.antes.getD j 0 + c.blinds.getD j 0 < S.getD i 0

theorem dealt_deep {d d' : Dealer} {rb rs : Bool} {shuf : Shuffle} {obs : Observation} (h : Seated d)
    (hr : d.reset rb rs shuf = (d', .ok obs)) (hn : NonNegative (startStacks d rs) d'.cfg)
    (hcov : Deep (startStacks d rs) d'.cfg) : ∀ i < d'.cfg.numPlayers, 0 < stack d' i := by
  obtain ⟨h1, h2, rfl, -⟩ := reset_ok hr
  have hcfg : ((d.posted rb rs shuf).moveAction.moveAction).cfg = d.cfg := blindStart_cfg d rb rs shuf
  rw [hcfg] at hn hcov ⊢
  obtain ⟨c1, -, -, -, -, -, -, -, -, -, c6, -, -, -⟩ := blindStart_same d rb rs shuf
  have hb := blindStart_seated h rb rs shuf
  have ha : d.cfg.antes.length = (d.blindStart rb rs shuf).cfg.numPlayers := by rw [c1]; exact h.antes
  have hbl : d.cfg.blinds.length = ((d.blindStart rb rs shuf).collectMultipleBets d.cfg.antes false).cfg.numPlayers := by
    show _ = (d.blindStart rb rs shuf).cfg.numPlayers
    rw [c1]; exact h.blinds
  have hb1 := collectMultipleBets_seated hb false ha
  have m1 := collectMultipleBets_money hb false ha
  have m2 := collectMultipleBets_money hb1 true hbl
  intro i hi
  have g1 := (m1.1 i (by rw [c1]; exact hi)).1
  have g2 := (m2.1 i (by show i < (d.blindStart rb rs shuf).cfg.numPlayers; rw [c1]; exact hi)).1
  have e1 : stack (d.blindStart rb rs shuf) i = (startStacks d rs).getD i 0 := by unfold stack; rw [c6]; rfl
  have hslt : (d.blindStart rb rs shuf).seat < d.cfg.numPlayers := by
    have := seat_lt hb; rw [c1] at this; exact this
  have f1 := forcedBets_getD hb ha i (by rw [c1]; exact hi)
  have f2 := forcedBets_getD hb1 hbl i (by show i < (d.blindStart rb rs shuf).cfg.numPlayers; rw [c1]; exact hi)
  rw [roll_getD _ _ _ _ (by rw [h.antes]; exact hslt) (by rw [h.antes]; exact hi), h.antes] at f1
  rw [show ((d.blindStart rb rs shuf).collectMultipleBets d.cfg.antes false).seat = (d.blindStart rb rs shuf).seat from rfl,
    roll_getD _ _ _ _ (by rw [h.blinds]; exact hslt) (by rw [h.blinds]; exact hi), h.blinds] at f2
  have hj : (i + (d.cfg.numPlayers - (d.blindStart rb rs shuf).seat)) % d.cfg.numPlayers < d.cfg.numPlayers :=
    Nat.mod_lt _ (by omega)
  generalize (i + (d.cfg.numPlayers - (d.blindStart rb rs shuf).seat)) % d.cfg.numPlayers = j at hj f1 f2
  have ha0 := list_getD_nonneg hn.antes j
  have hb0 := list_getD_nonneg hn.blinds j
  have hz := hcov i hi j hj
  show 0 < stack (d.posted rb rs shuf) i
  unfold Dealer.posted
  rw [g2, g1, e1, f1, f2]
  split <;> split <;> omega

theorem two_of_count {d : Dealer} (h : Seated d) (h2 : d.cfg.numPlayers = 2) (hc : d.allAllIn = false) :
    ∀ i < d.cfg.numPlayers, isIn d i ∧ stack d i ≠ 0 := by
  unfold Dealer.allAllIn at hc
  simp only [decide_eq_false_iff_not, not_le] at hc
  have hle : countTrue d.active ≤ 2 := by have := countTrue_le d.active; rw [h.active, h2] at this; exact this
  have hz : countTrue (List.zipWith (fun (active : Bool) stack => active && stack == 0) d.active d.stacks) = 0 := by omega
  have hall : countTrue d.active = d.active.length := by rw [h.active, h2]; omega
  intro i hi
  have hin : isIn d i := by
    have := List.count_eq_length.1 (show d.active.count true = d.active.length from hall)
    unfold isIn
    rw [getD_eq _ _ _ (by rw [h.active]; exact hi)]
    exact (this _ (List.getElem_mem _)).symm
  refine ⟨hin, fun hs => ?_⟩
  have : 1 ≤ countTrue (List.zipWith (fun (active : Bool) stack => active && stack == 0) d.active d.stacks) := by
    rw [countTrue_pos]
    refine ⟨i, by simp [h.active, h.stacks, hi], ?_⟩
    rw [getD_zipWith _ _ _ _ false 0 _ (by rw [h.active]; exact hi) (by rw [h.stacks]; exact hi)]
    unfold isIn at hin
    unfold stack at hs
    rw [hin, hs]; rfl
  omega

/-- **C28** heads-up: two players who start with more than the blinds and antes always play until one is left or
all streets are dealt. -/
theorem C28_heads_up {S : List Int} {d : Dealer} (h : InHand S d) (hn : NonNegative S d.cfg) (h2 : d.cfg.numPlayers = 2)
    (hdeep : Deep S d.cfg) : ¬ EndedEarly d := by
  have := inHand_induct (P := fun S d => d.cfg.numPlayers = 2 → NonNegative S d.cfg → Deep S d.cfg →
      NN d ∧ OptInv d ∧ d.allAgreed = false ∧ (d.street < d.cfg.numStreets → ∀ i < d.cfg.numPlayers, isIn d i → ¬ opt d i → 0 < stack d i))
    (fun d d' rb rs shuf obs hd hs hr _ hn hc => ⟨dealt_nn hd hr hn, dealt_optInv hd hr,
      dealt_not_agreed hd hr, fun _ i hi _ _ => dealt_deep hd hr hn hc i hi⟩)
    (fun S d fold b c lo up hin hl hst hc2 ih hb h2 hn hdeep => by
      rw [afterBet_cfg] at h2 hn hdeep
      obtain ⟨i1, i2, -, i3⟩ := ih h2 hn hdeep
      have hnn := afterBet_nn (fold := fold) (b := b) hl hn.start hc2 i1 hb
      refine ⟨hnn, afterBet_optInv hl hc2 i2, afterBet_not_agreed hl hc2, ?_⟩
      intro hst2 i hi hisin hno
      generalize hx : cleanBet b c lo up = x at *
      have hlive := afterBet_live hl hst hc2 fold c x
      have hs := acted_seated hl.seated fold c x
      rw [afterBet_cfg] at hi
      rcases afterBet_cases d fold c x with ⟨g1, g2⟩ | ⟨g1, g2⟩
      · rw [g2] at hisin hno ⊢
        obtain ⟨a, ha, hain⟩ := hl.action
        obtain ⟨a2, hmv⟩ := moveAction_spec (d := d.acted fold c x) hs.active (acted_count hl.seated ha hain hc2 fold c x)
        change isIn (d.acted fold c x) i at hisin
        have hno2 : ¬ opt (d.acted fold c x) i := by
          intro ho
          exact hno (moved_option_mono hmv (by rw [hs.streetOption]; exact hi) ho)
        have hnums := acted_nums hl.seated fold c x i hi
        unfold opt at hno2
        rw [hnums.2.2.2] at hno2
        by_cases hsi : d.seat = i
        · rw [if_pos hsi] at hno2; exact absurd rfl hno2
        · rw [if_neg hsi] at hno2
          show 0 < stack (d.acted fold c x) i
          rw [hnums.1, if_neg hsi]
          have := i3 hst i hi ((acted_isIn hl.seated fold c x i hi).1 hisin).1 hno2
          omega
      · rw [g2] at hst2
        obtain ⟨-, -, -, f4, f5, f6, -⟩ := nextStreet_fields (d.acted fold c x).moveAction
        have hns := nextStreet_street (d := (d.acted fold c x).moveAction) hst
        rw [hns, f4] at hst2
        have hnai : (d.acted fold c x).moveAction.allAllIn = false := by
          cases hxx : (d.acted fold c x).moveAction.allAllIn
          · rfl
          · rw [hxx] at hst2; simp at hst2
        have := (two_of_count (moveAction_seated hs) h2 hnai i hi).2
        rw [g2]
        unfold stack at this ⊢
        rw [f6]
        have h0 := hnn.neg i (by rw [afterBet_cfg]; exact hi)
        rw [g2] at h0
        unfold stack at h0
        rw [f6] at h0
        by_contra hcon
        have h1 := (h0 (by omega)).1
        rw [hns, hnai] at h1
        simp at h1) h
  rintro ⟨he, hnum, hst⟩
  rcases this with ⟨-, hl, -⟩ | ⟨e, p, rfl, hP, hl, hp, hd⟩
  · obtain ⟨a, h1, -⟩ := hl.action
    rw [he] at h1; simp at h1
  · change 2 ≤ countTrue e.active at hnum
    change e.street < e.cfg.numStreets at hst
    obtain ⟨hnn, hopt, hna, hpos⟩ := hP h2 hn hdeep
    have hpos := hpos hst
    have hz : ∀ i < e.cfg.numPlayers, isIn e i → stack e i = 0 := by
      rcases (done_all_iff hl.seated).1 hd with h1 | h1 | h1
      · omega
      · omega
      · exact h1
    have hall : ∀ i < e.cfg.numPlayers, opt e i := by
      apply options_all hl.seated hl.one hopt
      intro i hi hin
      by_contra hno
      have := hpos i hi hin hno
      rw [hz i hi hin] at this
      omega
    have := (allAgreed_iff hl.seated).2 ⟨hall, fun i hi hin hne => absurd (hz i hi hin) hne⟩
    rw [hna] at this
    simp at this

example : ∃ S d, InHand S d ∧ NonNegative S d.cfg ∧ d.cfg.numPlayers = 2 ∧ Deep S d.cfg ∧ d.action = none := by
  have := play_exists (a := small 2 [1, 2] 20) (bs := [1, 0, 0, 0])
    (f := fun d => nonNegB [20, 20] d && (decide (d.action = none) && (decide (d.cfg.numPlayers = 2) &&
      decide (∀ i < d.cfg.numPlayers, ∀ j < d.cfg.numPlayers,
        d.cfg.antes.getD j 0 + d.cfg.blinds.getD j 0 < ([20, 20] : List Int).getD i 0)))) (by decide +kernel)
  obtain ⟨d, h1, -, h2⟩ := this
  simp only [Bool.and_eq_true, decide_eq_true_eq] at h2
  exact ⟨_, d, h1, nonNegB_iff h2.1, h2.2.2.1, h2.2.2.2, h2.2.1⟩

end Clubs
