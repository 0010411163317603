import Verif.Spec.Broke
import Verif.Props.Sure
import Verif.Props.Stuck
import Verif.Props.Dealing
import Verif.Props.NumpyShow
import Verif.Props.NumpyReplay
import Verif.Props.Replay

/-!
# C104: who has lost all chips stays out

A player without chips is not dealt in by a `reset` that leaves the chips as they are. The array engine keeps them out for ever; the other
engine may give them an odd chip at a showdown they take no part in.
-/

namespace Clubs

open Spec

variable {S : List Int} {d0 d d' : Dealer} {i a : Nat} {bet : PyNum} {rb : Bool} {shuf : Shuffle} {obs : Observation} {s : Nat → Int}

/-- a bet writes at most one entry, of the player who was to act -/
theorem step_writes (ha : d.action = some a) (bet : PyNum) :
    (d.step bet).1.history = d.history ∨ ∃ x, (d.step bet).1.history = d.history ++ [x] ∧ x.1 = a := by
  rcases step_some ha bet with ⟨e, -, he⟩ | ⟨b, e, -, -, he⟩ | ⟨b, c, lo, hi, -, -, he⟩
  · exact .inl (by rw [he])
  · exact .inl (by rw [he])
  · refine .inr ⟨(d.seat, betOf bet.isNeg c (cleanBet b c lo hi), bet.isNeg), ?_, seat_some ha⟩
    rw [he, finish_history, (afterBet_fields _ _ _ _).2.2.2.1]
    rfl

/-- who is to act is in -/
theorem action_isIn (h : InHand S d) (ha : d.action = some a) : isIn d a := by
  obtain ⟨b, hb, hin⟩ := (live_of_action h ha).1.action
  rw [ha] at hb
  obtain rfl : a = b := by simpa using hb
  exact hin

theorem sitsOut_step (h : InHand S d) (hn : NonNegative S d.cfg) (hi : i < d.cfg.numPlayers) (ho : SitsOut i d) (bet : PyNum) :
    SitsOut i (d.step bet).1 := by
  cases ha : d.action with
  | none => rw [step_none ha]; exact ho
  | some a =>
    have hai : a ≠ i := fun e => ho.turn (by rw [ha, e])
    obtain ⟨-, h2, h3⟩ := C103_others h hn ha hai hi bet
    have hout : ¬ isIn (d.step bet).1 i := fun x => ho.out (h3.1 x)
    refine ⟨hout, fun h4 => hout (action_isIn (.step bet h) h4), by rw [h2]; exact ho.chips, ?_⟩
    rcases step_writes ha bet with e | ⟨x, e, hx⟩
    · rw [e]; exact ho.bets
    · rw [e]
      intro y hy
      rcases List.mem_append.1 hy with hy | hy
      · exact ho.bets y hy
      · rw [List.mem_singleton.1 hy, hx]; exact hai

theorem sitsOut_dealt (hd : Seated d) (hs : IsShuffle shuf) (h : d.reset rb false shuf = (d0, .ok obs)) (hi : i < d.cfg.numPlayers)
    (h0 : stack d i = 0) : SitsOut i d0 ∧ stack d0 i = 0 := by
  obtain ⟨-, -, h3, h4, -, -, -, -, f, -, -, -, h9⟩ := C41_clean hd h
  have hout : ¬ isIn d0 i := by rw [h3 i hi, h0]; simp
  obtain ⟨c1, -, c3⟩ := h9 i hi
  rw [if_neg (fun x => hout x.1), if_neg (fun x => hout x.1)] at c1 c3
  refine ⟨⟨hout, fun x => hout (action_isIn (.dealt hd hs h) x), by omega, by rw [h4]; simp⟩, ?_⟩
  have : (startStacks d false).getD i 0 = 0 := h0
  omega

theorem sitsOut_after (h : InHand S d) (hn : NonNegative S d.cfg) (hi : i < d.cfg.numPlayers) (ho : SitsOut i d) (bets : List PyNum) :
    InHand S (Spec.afterBets d bets) ∧ SitsOut i (Spec.afterBets d bets) := by
  induction bets generalizing d with
  | nil => exact ⟨h, ho⟩
  | cons b bets ih =>
    have := step_cfg d b
    exact ih (d := (d.step b).1) (.step b h) (by rw [this]; exact hn) (by rw [this]; exact hi) (sitsOut_step h hn hi ho b)

/-- **C104**: a player without chips takes no part in a hand that is dealt without `reset_stacks`: they are never in, never to act, put in
nothing, and while the hand is running they have no chips. -/
theorem C104_out (hd : Seated d) (hs : IsShuffle shuf) (h : d.reset rb false shuf = (d0, .ok obs)) (hn : NonNegative d.stacks d0.cfg)
    (hi : i < d.cfg.numPlayers) (h0 : stack d i = 0) (bets : List PyNum) :
    SitsOut i (Spec.afterBets d0 bets) ∧ ((Spec.afterBets d0 bets).action ≠ none → stack (Spec.afterBets d0 bets) i = 0) := by
  have hcfg := (C41_clean hd h).1
  have hin : InHand d.stacks d0 := .dealt hd hs h
  obtain ⟨h1, h2⟩ := sitsOut_after hin hn (by rw [hcfg]; exact hi) (sitsOut_dealt hd hs h hi h0).1 bets
  refine ⟨h2, fun ha => ?_⟩
  have h3 := (C19_pot h1 ha).2 i (by
    have : ∀ (l : List PyNum) (e : Dealer), (Spec.afterBets e l).cfg = e.cfg := by
      intro l
      induction l with
      | nil => exact fun e => rfl
      | cons b l ih => exact fun e => (ih (e.step b).1).trans (step_cfg e b)
    rw [this, hcfg]; exact hi)
  have h4 : d.stacks.getD i 0 = 0 := h0
  rw [h2.chips, h4] at h3
  omega

/-- **C104** (exactly): when the hand ends without a showdown such a player gets nothing. At a showdown they get nothing, with one exception: if
chips are left over and `w` is the first seat above the button's with a share, and they sit at seat `w - button`, they get those chips. -/
theorem C104_end_partial {pays : List Int} {done : List Bool} (h : InHand S d) (hn : NonNegative S d.cfg) (hcov : Covers S d.cfg)
    (hca : CloseAntes d.cfg) (hrun : Running d) (hi : i < d.cfg.numPlayers) (ho : SitsOut i d)
    (hs : d.step bet = (d', .ok (obs, pays, done))) (he : d'.action = none) :
    (¬ AtShowdown d' → pays.getD i 0 = 0) ∧
    (AtShowdown d' → ∀ s, Ranks d' s →
      (pays.getD i 0 = 0 ↔ ¬ (leftAt d' s ≠ 0 ∧ 0 < i ∧ d'.button + i < d'.cfg.numPlayers ∧ sharesAt d' s (d'.button + i) ≠ 0 ∧
        ∀ v, d'.button < v → v < d'.button + i → sharesAt d' s v = 0)) ∧
      (pays.getD i 0 = 0 ∨ pays.getD i 0 = leftAt d' s)) := by
  have hcfg : d'.cfg = d.cfg := by have := step_cfg d bet; rwa [hs] at this
  have hin : InHand S d' := by have := InHand.step bet h; rwa [hs] at this
  have ho' : SitsOut i d' := by have := sitsOut_step h hn hi ho bet; rwa [hs] at this
  have ha : d.action ≠ none := by obtain ⟨⟨a, ha⟩, -⟩ := hrun; rw [ha]; simp
  have hc := ho'.chips
  refine ⟨fun hsh => ?_, fun hsh s hr => ?_⟩
  · have := C26_no_showdown h ha hs he hsh (by rw [hcfg]; exact hi) ho'.out
    omega
  · have hf := C25_folds_covered hin (by rw [hcfg]; exact hn) (by rw [hcfg]; exact hcov) (by rw [hcfg]; exact hca)
    have := C26_exact h hn hrun hs hsh hr hf (by rw [hcfg]; exact hi) ho'.out
    rw [hc, neg_zero, sub_zero] at this
    exact this

/-- half of the deck first -/
def cutSeven : Shuffle := fun l => l.drop 7 ++ l.take 7

theorem cutSeven_perm : IsShuffle cutSeven := fun l => by
  show (l.drop 7 ++ l.take 7).Perm l
  exact List.perm_append_comm.trans (by rw [List.take_append_drop])

/-- **C104 is false in general**: seat 1 loses all its chips in the first hand (`[43, 0, 17, 20]`), is not dealt into the second one, gets the odd
chip of its pot and is in again in the third. -/
theorem C104_false : ∃ a d1 d2 d3 bets bets',
    (∃ d0, Dealer.new a id = .ok d0 ∧ d1 = (d0.reset true false cutSeven).1) ∧
    (Spec.afterBets d1 bets).action = none ∧ (Spec.afterBets d1 bets).stacks = [43, 0, 17, 20] ∧
    d2 = ((Spec.afterBets d1 bets).reset false false id).1 ∧ SitsOut 1 d2 ∧
    (Spec.afterBets d2 bets').action = none ∧ (Spec.afterBets d2 bets').stacks = [44, 1, 18, 17] ∧ ¬ isIn (Spec.afterBets d2 bets') 1 ∧
    d3 = ((Spec.afterBets d2 bets').reset false false id).1 ∧ isIn d3 1 ∧ d3.action ≠ none := by
  have key : (match Dealer.new (ties 4 [1, 3, 0, 0] 20) id with
      | .ok d0 =>
        let d1 := (d0.reset true false cutSeven).1
        let e1 := Spec.afterBets d1 [.fin (-1), .fin 20, .fin 20, .fin (-1)]
        let d2 := (e1.reset false false id).1
        let e2 := Spec.afterBets d2 [.fin 9, .fin 8, .fin (-1), .fin 0, .fin 0]
        let d3 := (e2.reset false false id).1
        decide (e1.action = none ∧ e1.stacks = [43, 0, 17, 20] ∧ ¬ isIn d2 1 ∧ d2.action ≠ some 1 ∧ contribution d2 1 = 0 ∧
          (∀ e ∈ d2.history, e.1 ≠ 1) ∧ e2.action = none ∧ e2.stacks = [44, 1, 18, 17] ∧ ¬ isIn e2 1 ∧ isIn d3 1 ∧ d3.action ≠ none)
      | .error _ => false) = true := by decide +kernel
  cases hnew : Dealer.new (ties 4 [1, 3, 0, 0] 20) id with
  | error e => rw [hnew] at key; cases key
  | ok d0 =>
    rw [hnew] at key
    simp only [decide_eq_true_eq] at key
    obtain ⟨k1, k2, k3, k4, k5, k6, k7, k8, k9, k10, k11⟩ := key
    exact ⟨_, _, _, _, _, _, ⟨d0, hnew, rfl⟩, k1, k2, rfl, ⟨k3, k4, k5, k6⟩, k7, k8, k9, rfl, k10, k11⟩

/-- the hypotheses of `C104_out` and `C104_end_partial`: the same hand with the button at seat 0, where the player without chips gets nothing -/
example : ∃ S d d' obs pays done, InHand S d ∧ NonNegative S d.cfg ∧ Covers S d.cfg ∧ CloseAntes d.cfg ∧ Running d ∧ 1 < d.cfg.numPlayers ∧
    SitsOut 1 d ∧ S = [43, 0, 17, 20] ∧ d.step (.fin 0) = (d', .ok (obs, pays, done)) ∧ d'.action = none ∧ AtShowdown d' ∧ pays = [1, 0, 2, -3] := by
  have key : (match Dealer.new (ties 4 [1, 3, 0, 0] 20) id with
      | .ok t =>
        let e := Spec.afterBets (t.reset true false cutSeven).1 [.fin (-1), .fin 20, .fin 20, .fin (-1)]
        (match e.reset true false id with
        | (d0, .ok _) =>
          let d := Spec.afterBets d0 [.fin 9, .fin 8, .fin (-1), .fin 0]
          match d.step (.fin 0) with
          | (d', .ok (_, pays, _)) =>
            decide (NonNegative e.stacks d.cfg ∧ Covers e.stacks d.cfg ∧ CloseAntes d.cfg ∧ d.action ≠ none ∧ d.street < d.cfg.numStreets ∧
              1 < d.cfg.numPlayers ∧ ¬ isIn d 1 ∧ d.action ≠ some 1 ∧ contribution d 1 = 0 ∧ (∀ e ∈ d.history, e.1 ≠ 1) ∧
              e.stacks = [43, 0, 17, 20] ∧ d'.action = none ∧ AtShowdown d' ∧ pays = [1, 0, 2, -3])
          | _ => false
        | (_, .error _) => false)
      | .error _ => false) = true := by decide +kernel
  cases hnew : Dealer.new (ties 4 [1, 3, 0, 0] 20) id with
  | error e => rw [hnew] at key; cases key
  | ok t =>
    rw [hnew] at key
    simp only [] at key
    have seated : ∀ (bets : List PyNum) (e : Dealer), Seated e → Seated (Spec.afterBets e bets) := by
      intro bets
      induction bets with
      | nil => exact fun e he => he
      | cons b bets ih => exact fun e he => ih _ (step_seated he b)
    have after : ∀ (bets : List PyNum) (S : List Int) (e : Dealer), InHand S e → InHand S (Spec.afterBets e bets) := by
      intro bets S
      induction bets with
      | nil => exact fun e he => he
      | cons b bets ih => exact fun e he => ih _ (.step b he)
    generalize he : Spec.afterBets (t.reset true false cutSeven).1 [.fin (-1), .fin 20, .fin 20, .fin (-1)] = e at key
    have hs : Seated e := by rw [← he]; exact seated _ _ (reset_seated (new_seated hnew) _ _ _)
    cases hr : e.reset true false id with
    | mk d0 r =>
      cases r with
      | error x => rw [hr] at key; cases key
      | ok obs =>
        rw [hr] at key
        simp only [] at key
        have hin := after [.fin 9, .fin 8, .fin (-1), .fin 0] _ _ (.dealt hs (fun _ => .refl _) hr)
        generalize Spec.afterBets d0 [.fin 9, .fin 8, .fin (-1), .fin 0] = d at key hin
        cases hst : d.step (.fin 0) with
        | mk d' r =>
          cases r with
          | error x => rw [hst] at key; cases key
          | ok out =>
            obtain ⟨obs', pays, done⟩ := out
            rw [hst] at key
            simp only [decide_eq_true_eq] at key
            obtain ⟨k1, k2, k3, k4, k5, k6, k7, k8, k9, k10, k11, k12, k13, k14⟩ := key
            exact ⟨_, d, d', obs', pays, done, hin, k1, k2, k3, ⟨Option.ne_none_iff_exists'.1 k4, k5⟩, k6, ⟨k7, k8, k9, k10⟩, k11, hst, k12, k13, k14⟩

end Clubs

namespace Clubs.Numpy

open Spec

variable {S : List Int} {d0 d d' : Dealer} {i a : Nat} {bet : PyNum} {rb : Bool} {shuf : Shuffle} {obs : Observation}

/-! ## the array engine -/

theorem step_writes (hn : 0 < d.cfg.numPlayers) (ha : d.action = some a) (bet : PyNum) :
    (step d bet).1.history = d.history ∨ ∃ x, (step d bet).1.history = d.history ++ [x] ∧ x.1 = a := by
  rcases step_some ha bet with ⟨e, -, he⟩ | ⟨b, e, -, -, he⟩ | ⟨b, c, lo, hi, -, -, he⟩
  · exact .inl (by rw [he])
  · exact .inl (by rw [he])
  · refine .inr ⟨(d.seat, betOf bet.isNeg c (cleanBet b c lo hi), bet.isNeg), ?_, seat_some ha⟩
    rw [he, finish_history]
    show (atSeat (afterBet d bet.isNeg c (cleanBet b c lo hi))).history = _
    rw [afterBet_atSeat hn, (afterBet_fields _ _ _ _).2.2.2.1]
    rfl

theorem action_isIn (h : ArrayInHand S d) (ha : d.action = some a) : isIn d a := by
  obtain ⟨b, hb, hin⟩ := (live_of_array h ha).1.action
  rw [show (atSeat d).action = d.action from rfl, ha] at hb
  obtain rfl : a = b := by simpa using hb
  exact hin

theorem sitsOut_step (h : ArrayInHand S d) (hn : NonNegative S d.cfg) (hz : SizesOk d.cfg) (hi : i < d.cfg.numPlayers) (ho : SitsOut i d)
    (bet : PyNum) : SitsOut i (step d bet).1 := by
  cases ha : d.action with
  | none => rw [step_none ha]; exact ho
  | some a =>
    have hai : a ≠ i := fun e => ho.turn (by rw [ha, e])
    obtain ⟨-, h2, h3⟩ := C103_others h hn hz ha hai hi bet
    have hout : ¬ isIn (step d bet).1 i := fun x => ho.out (h3.1 x)
    refine ⟨hout, fun h4 => hout (action_isIn (.step bet h) h4), by rw [h2]; exact ho.chips, ?_⟩
    rcases step_writes (by omega) ha bet with e | ⟨x, e, hx⟩
    · rw [e]; exact ho.bets
    · rw [e]
      intro y hy
      rcases List.mem_append.1 hy with hy | hy
      · exact ho.bets y hy
      · rw [List.mem_singleton.1 hy, hx]; exact hai

theorem sitsOut_dealt (hd : Seated (atSeat d)) (hs : IsShuffle shuf) (h : reset d rb false shuf = (d0, .ok obs)) (hi : i < d.cfg.numPlayers)
    (h0 : stack d i = 0) : SitsOut i d0 ∧ d0.cfg = d.cfg := by
  obtain ⟨h1, h2⟩ := Clubs.sitsOut_dealt (i := i) hd hs (reset_ok_atSeat hd h) hi h0
  exact ⟨⟨h1.out, h1.turn, h1.chips, h1.bets⟩, (C41_clean hd (reset_ok_atSeat hd h)).1⟩

/-- nobody who takes no part in the hand gets anything -/
theorem sitsOut_paid {e : Dealer} {p : List Int} (hl : Live S (atSeat e)) (hnn : NN (atSeat e)) (hp : payouts e = .ok p)
    (hf : FoldsCovered e.cfg.numPlayers (inB e) (contribution e)) (hi : i < e.cfg.numPlayers) (hout : ¬ isIn e i) (hc : contribution e i = 0) :
    p.getD i 0 = 0 := by
  have hlp : i < e.potCommits.length := by rw [show e.potCommits.length = _ from hl.seated.potCommits]; exact hi
  have hla : i < e.active.length := by rw [show e.active.length = _ from hl.seated.active]; exact hi
  have hlost : (lostList e).getD i 0 = 0 := by
    have : (lostList e).getD i 0 = if e.active.getD i false then 0 else -1 * contribution e i := getD_zipWith _ _ _ _ 0 false _ hlp hla
    rw [this, hc]
    split <;> rfl
  rcases payouts_cases hp with ⟨-, rfl⟩ | ⟨h1, h2, q, hq, hpq⟩ | ⟨-, -, rfl⟩
  · rw [getD_zipWith _ _ _ _ 0 0 _ (by simp [lostList, hlp, hla]) (by simp [hlp, hla]), getD_zipWith _ _ _ _ false 0 _ hla hlp, hlost,
      if_neg (show ¬ e.active.getD i false = true from hout)]
    rfl
  · obtain ⟨T, hT, -⟩ := evalRound_cases hq
    have hr := ranks_of_evalHands hl.holeLen hT
    have hdue : dueAt e (fun i => T.getD i 0) i = 0 := by
      by_contra hne
      obtain ⟨t, ht⟩ := (due_pos_iff hnn.contrib i).1 hne
      unfold winners at ht
      rw [Finset.mem_filter] at ht
      exact hout ht.2.1
    have hrec : received e p i = 0 := by
      cases showdown_paid hl.seated hl.holeLen hl.pot hnn.contrib hr hf h1 h2 with
      | even p' h3 _ h4 =>
        rw [hp] at h3
        obtain rfl : p = p' := by simpa using h3
        rw [h4 i hi, hdue]
      | odd p' w h3 _ hw hw' _ h4 =>
        rw [hp] at h3
        obtain rfl : p = p' := by simpa using h3
        rw [h4 i hi, hdue, if_neg (fun x => hw' (by rw [x]; exact hdue))]
        rfl
    unfold received at hrec
    omega
  · exact hlost

/-- in the array engine a player who takes no part in a hand has after it what they had before -/
theorem sitsOut_stack (h : ArrayInHand S d) (hn : NonNegative S d.cfg) (hz : SizesOk d.cfg) (hcov : Covers S d.cfg) (hca : CloseAntes d.cfg)
    (hi : i < d.cfg.numPlayers) (ho : SitsOut i d) : stack d i = S.getD i 0 := by
  have hf := C71_folds_covered h hn hz hcov hca
  rcases sound_of h hn hz with ⟨-, hl, -⟩ | ⟨e, p, rfl, hsd, hl, hp, -⟩
  · have h1 : stack d i + contribution d i = S.getD i 0 := hl.money i hi
    rw [ho.chips] at h1
    omega
  · change i < e.cfg.numPlayers at hi
    have hset : stack (e.settle p) i = _ := settle_stack (d := atSeat e) hl.seated (payouts_length hl.seated hp) i hi
    have hc : contribution e i = 0 := ho.chips
    have h1 : stack e i + contribution e i = S.getD i 0 := hl.money i hi
    have h2 := sitsOut_paid hl hsd.nn hp hf hi ho.out hc
    rw [hset]
    show stack e i + p.getD i 0 + contribution e i = _
    omega

/-- **C104** for the array engine: a player without chips takes no part in a hand dealt without `reset_stacks`, and has none when it is over. -/
theorem C104_out (hd : Seated (atSeat d)) (hs : IsShuffle shuf) (h : reset d rb false shuf = (d0, .ok obs)) (hn : NonNegative d.stacks d0.cfg)
    (hz : SizesOk d0.cfg) (hcov : Covers d.stacks d0.cfg) (hca : CloseAntes d0.cfg) (hi : i < d.cfg.numPlayers) (h0 : stack d i = 0)
    (bets : List PyNum) : SitsOut i (arrayAfter d0 bets) ∧ stack (arrayAfter d0 bets) i = 0 := by
  obtain ⟨h1, hcfg⟩ := sitsOut_dealt hd hs h hi h0
  have key : ∀ (l : List PyNum) (e : Dealer), ArrayInHand d.stacks e → e.cfg = d.cfg → SitsOut i e →
      SitsOut i (arrayAfter e l) ∧ stack (arrayAfter e l) i = 0 := by
    intro l
    induction l with
    | nil =>
      intro e h2 h3 h4
      rw [hcfg] at hn hz hcov hca
      refine ⟨h4, (sitsOut_stack h2 (by rw [h3]; exact hn) (by rw [h3]; exact hz) (by rw [h3]; exact hcov) (by rw [h3]; exact hca)
        (by rw [h3]; exact hi) h4).trans h0⟩
    | cons b l ih =>
      intro e h2 h3 h4
      rw [hcfg] at hn hz
      exact ih (step e b).1 (.step b h2) ((step_cfg e b).trans h3)
        (sitsOut_step h2 (by rw [h3]; exact hn) (by rw [h3]; exact hz) (by rw [h3]; exact hi) h4 b)
  exact key bets d0 (.dealt hd hs h) hcfg h1

/-- **C104** for the array engine: over any number of hands dealt without `reset_stacks`, a player who has lost all chips has none and is never to
act again. -/
theorem C104_session (hd : Seated (atSeat d0)) (hz : SizesOk d0.cfg) (hca : CloseAntes d0.cfg) (he : d0.action = none)
    (hi : i < d0.cfg.numPlayers) (h0 : stack d0 i = 0) (h : ArrayOnward d0 d) :
    stack d i = 0 ∧ d.action ≠ some i ∧ (d = d0 ∨ SitsOut i d) := by
  have key : d.cfg = d0.cfg ∧ Seated (atSeat d) ∧ stack d i = 0 ∧ (d = d0 ∨ ∃ S, ArrayInHand S d ∧ NonNegative S d.cfg ∧ Covers S d.cfg ∧
      S.getD i 0 = 0 ∧ SitsOut i d) := by
    induction h with
    | start => exact ⟨rfl, hd, h0, .inl rfl⟩
    | @step d bet _ ih =>
      obtain ⟨h1, h2, h3, h4⟩ := ih
      have hcfg := step_cfg d bet
      rcases h4 with rfl | ⟨S, g1, g2, g3, g4, g5⟩
      · rw [step_none he]; exact ⟨h1, h2, h3, .inl rfl⟩
      · have ho := sitsOut_step g1 g2 (by rw [h1]; exact hz) (by rw [h1]; exact hi) g5 bet
        have hin := ArrayInHand.step bet g1
        rw [← hcfg] at g2 g3
        refine ⟨hcfg.trans h1, step_seated h2 bet, ?_, .inr ⟨S, hin, g2, g3, g4, ho⟩⟩
        rw [sitsOut_stack hin g2 (by rw [hcfg, h1]; exact hz) g3 (by rw [hcfg, h1]; exact hca) (by rw [hcfg, h1]; exact hi) ho, g4]
    | @next d d' rb shuf obs _ hs hn hc hr ih =>
      obtain ⟨h1, h2, h3, -⟩ := ih
      obtain ⟨g1, g2⟩ := sitsOut_dealt h2 hs hr (by rw [h1]; exact hi) h3
      have hin : ArrayInHand d.stacks d' := .dealt h2 hs hr
      rw [← g2] at hn hc
      refine ⟨g2.trans h1, ?_, ?_, .inr ⟨_, hin, hn, hc, h3, g1⟩⟩
      · have := reset_seated h2 rb false shuf
        rwa [hr] at this
      · rw [sitsOut_stack hin hn (by rw [g2, h1]; exact hz) hc (by rw [g2, h1]; exact hca) (by rw [g2, h1]; exact hi) g1]
        exact h3
  obtain ⟨-, -, h3, h4⟩ := key
  rcases h4 with rfl | ⟨S, -, -, -, -, g5⟩
  · exact ⟨h3, by rw [he]; simp, .inl rfl⟩
  · exact ⟨h3, g5.turn, .inr g5⟩

/-- the hypotheses of `C104_session`, and the same hand as in `C104_false`: seat 1 has lost all its chips and gets nothing, the odd chip goes to
a player who is in -/
example : ∃ d0 d, Seated (atSeat d0) ∧ SizesOk d0.cfg ∧ CloseAntes d0.cfg ∧ d0.action = none ∧ 1 < d0.cfg.numPlayers ∧ stack d0 1 = 0 ∧
    ArrayOnward d0 d ∧ d.action = none ∧ d.stacks = [44, 0, 19, 17] := by
  have key : (match Numpy.new (ties 4 [1, 3, 0, 0] 20) id with
      | .ok t =>
        let d0 := arrayAfter (reset t true false cutSeven).1 [.fin (-1), .fin 20, .fin 20, .fin (-1)]
        decide (SizesOk d0.cfg ∧ CloseAntes d0.cfg ∧ d0.action = none ∧ 1 < d0.cfg.numPlayers ∧ stack d0 1 = 0) &&
        (match reset d0 false false id with
        | (e, .ok _) =>
          let d := arrayAfter e [.fin 9, .fin 8, .fin (-1), .fin 0, .fin 0]
          decide (NonNegative d0.stacks d0.cfg ∧ Covers d0.stacks d0.cfg ∧ d.action = none ∧ d.stacks = [44, 0, 19, 17])
        | (_, .error _) => false)
      | .error _ => false) = true := by decide +kernel
  cases hnew : Numpy.new (ties 4 [1, 3, 0, 0] 20) id with
  | error e => rw [hnew] at key; cases key
  | ok t =>
    rw [hnew] at key
    simp only [Bool.and_eq_true, decide_eq_true_eq] at key
    obtain ⟨⟨k1, k2, k3, k4, k5⟩, key⟩ := key
    have after : ∀ (bets : List PyNum) (t e : Dealer), ArrayOnward t e → ArrayOnward t (arrayAfter e bets) := by
      intro bets
      induction bets with
      | nil => exact fun t e he => he
      | cons b bets ih => exact fun t e he => ih t _ (.step b he)
    have seated : ∀ (bets : List PyNum) (e : Dealer), Seated (atSeat e) → Seated (atSeat (arrayAfter e bets)) := by
      intro bets
      induction bets with
      | nil => exact fun e he => he
      | cons b bets ih => exact fun e he => ih _ (step_seated he b)
    generalize hd0 : arrayAfter (reset t true false cutSeven).1 [.fin (-1), .fin 20, .fin 20, .fin (-1)] = d0 at key k1 k2 k3 k4 k5
    have hs : Seated (atSeat d0) := by rw [← hd0]; exact seated _ _ (reset_seated (new_atSeat hnew) _ _ _)
    cases hr : reset d0 false false id with
    | mk e r =>
      cases r with
      | error x => rw [hr] at key; cases key
      | ok obs =>
        rw [hr] at key
        simp only [decide_eq_true_eq] at key
        obtain ⟨k6, k7, k8, k9⟩ := key
        exact ⟨d0, _, hs, k1, k2, k3, k4, k5, after _ _ _ (.next .start (fun _ => .refl _) k6 k7 hr), k8, k9⟩

end Clubs.Numpy
