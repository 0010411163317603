import Verif.Lemmas.NumpyPlay
import Verif.Props.Showdown
import Verif.Props.Flow

/-!
# The array engine: chips and the course of a hand (C69, C70, C72)
-/

namespace Clubs.Numpy

open Spec

variable {S : List Int} {d d' : Dealer} {bet : PyNum}

/-! ## C69 -/

theorem array_chips {x : Dealer} (h : Live S (atSeat x)) : allChips x = S.sum :=
  live_chips (d := atSeat x) h

/-- **C69**: every step of every hand keeps all chips at the table; also steps that raise. -/
theorem C69_conserved (h : ArrayInHand S d) (hn : NonNegative S d.cfg) (hz : SizesOk d.cfg) (bet : PyNum) :
    allChips (step d bet).1 = allChips d := by
  cases ha : d.action with
  | none => rw [step_none ha]
  | some a =>
    have hl := (live_of_array h ha).1
    cases step_cases h ha bet with
    | refused e h => rw [h]
    | stuck b c lo hi e x hb hs hx hlx hp h => rw [h, array_chips hl]; exact array_chips hlx
    | goesOn b c lo hi p x obs hb hs hx hlx hp hd ho h => rw [h, array_chips hl]; exact array_chips hlx
    | ended b c lo hi p x obs hb hs hx hlx hp hd ho hst =>
      rw [hst]
      have hlen := payouts_length hlx.seated hp
      have hsd := (afterBet_sound_of h hn hz ha hb hs hx).1
      have hsum := payouts_sum hlx.seated hlx.pot hsd.nn.contrib hp hd hlx.one
      have h1 : allChips ((atSeat x).settle p) = _ := settle_sum hlx.seated hlen
      show allChips ((atSeat x).settle p) = _
      rw [h1, array_chips hl, ← array_chips hlx, hsum]
      have h2 : x.pot = x.potCommits.sum := hlx.pot
      show x.stacks.sum + 0 + x.potCommits.sum = _
      unfold allChips; rw [h2]; ring

/-- **C69**: when a step ends a hand, the payouts sum to zero, and every stack has changed over the hand by exactly the
payout. -/
theorem C69_payouts (h : ArrayInHand S d) (hn : NonNegative S d.cfg) (hz : SizesOk d.cfg) (ha : d.action ≠ none)
    {obs : Observation} {pays : List Int} {done : List Bool} (hr : step d bet = (d', .ok (obs, pays, done)))
    (he : d'.action = none) :
    pays.length = d.cfg.numPlayers ∧ pays.sum = 0 ∧
      ∀ i < d.cfg.numPlayers, stack d' i = S.getD i 0 + pays.getD i 0 := by
  obtain ⟨a, ha⟩ := Option.ne_none_iff_exists'.1 ha
  cases step_cases h ha bet with
  | refused e h => rw [h] at hr; simp at hr
  | stuck b c lo hi e x hb hs hx hlx hp h => rw [h] at hr; simp at hr
  | goesOn b c lo hi p x obs hb hs hx hlx hp hd ho h =>
    rw [h] at hr
    obtain ⟨rfl, -⟩ := Prod.mk.inj hr
    obtain ⟨a', h1, -⟩ := hlx.action
    rw [show (atSeat x).action = none from he] at h1; simp at h1
  | ended b c lo hi p x obs hb hs hx hlx hp hd ho hst =>
    rw [hst] at hr
    simp only [Prod.mk.injEq, Except.ok.injEq] at hr
    obtain ⟨rfl, -, rfl, -⟩ := hr
    have hcfg : x.cfg = d.cfg := by rw [hx, afterBet_cfg]
    have hlen := payouts_length hlx.seated hp
    have hsd := (afterBet_sound_of h hn hz ha hb hs hx).1
    refine ⟨by rw [hlen, hcfg], payouts_sum hlx.seated hlx.pot hsd.nn.contrib hp hd hlx.one, fun i hi => ?_⟩
    have h1 := settle_stack hlx.seated hlen i (by show i < x.cfg.numPlayers; rw [hcfg]; exact hi)
    have h2 := hlx.money i (by show i < x.cfg.numPlayers; rw [hcfg]; exact hi)
    show stack ((atSeat x).settle p) i = _
    rw [h1]; linarith

/-- **C69**: when a hand has ended, no stack is negative. -/
theorem C69_after_hand (h : ArrayInHand S d) (hn : NonNegative S d.cfg) (hz : SizesOk d.cfg) (ha : d.action = none) :
    ∀ i < d.cfg.numPlayers, 0 ≤ stack d i := by
  rcases sound_of h hn hz with ⟨-, hl, -⟩ | ⟨e, p, rfl, hsd, hl, hp, hd⟩
  · obtain ⟨a, h1, -⟩ := hl.action
    rw [show (atSeat d).action = none from ha] at h1; simp at h1
  · intro i hi
    change i < e.cfg.numPlayers at hi
    have hnn := hsd.nn
    have hset := settle_stack hl.seated (payouts_length hl.seated hp) i hi
    show 0 ≤ stack ((atSeat e).settle p) i
    rw [hset]
    have hm := hl.money i hi
    have hs0 := list_getD_nonneg hn.start i
    have hc := hnn.contrib i hi
    have hnotin : ¬ isIn (atSeat e) i → 0 ≤ stack (atSeat e) i := by
      intro h1
      by_contra h2
      exact h1 (hnn.neg i hi (by omega)).2.1
    have hlp : i < e.potCommits.length := by rw [show e.potCommits.length = _ from hl.seated.potCommits]; exact hi
    have hla : i < e.active.length := by rw [show e.active.length = _ from hl.seated.active]; exact hi
    have hlost : (lostList e).getD i 0 = if e.active.getD i false then 0 else -1 * contribution e i :=
      getD_zipWith _ _ _ _ 0 false _ hlp hla
    rcases payouts_cases hp with ⟨-, rfl⟩ | ⟨-, h2, q, hq, rfl⟩ | ⟨h1, h2, rfl⟩
    · rw [getD_zipWith _ _ _ _ 0 0 _ (by simp [lostList, hlp, hla]) (by simp [hlp, hla]),
        getD_zipWith _ _ _ _ false 0 _ hla hlp, hlost]
      by_cases hin : e.active.getD i false = true
      · rw [if_pos hin, if_pos hin]
        show 0 ≤ stack e i + (0 + (e.pot - contribution e i)) + contribution e i
        have hle : contribution e i ≤ e.pot := by
          rw [show e.pot = _ from hl.pot]
          exact List.single_le_sum (fun x hx => by
            obtain ⟨j, hj, rfl⟩ := (mem_getD 0).1 hx
            exact hnn.contrib j (by rw [← hl.seated.potCommits]; exact hj)) _
              ((mem_getD 0).2 ⟨i, hlp, rfl⟩)
        have hm' : stack e i + contribution e i = S.getD i 0 := hm
        omega
      · rw [if_neg hin, if_neg hin]
        have := hnotin hin
        show 0 ≤ stack (atSeat e) i + (-1 * contribution e i + 0) + contribution e i
        omega
    · obtain ⟨g1, g2, g3⟩ := evalRound_sum hl.seated hl.pot hnn.contrib hq
      rw [getD_zipWith _ _ _ _ 0 0 _ (by rw [g1]; exact hi) hlp]
      have hq0 := list_getD_nonneg g3 i
      show 0 ≤ stack (atSeat e) i + (q.getD i 0 - contribution e i) + contribution e i
      have : 0 ≤ stack (atSeat e) i := by
        by_contra h3
        have h4 : (atSeat e).street = 0 := (hnn.neg i hi (by omega)).1
        have h5 : 0 < (atSeat e).cfg.numStreets := hl.oneStreet
        change e.street = 0 at h4
        change 0 < e.cfg.numStreets at h5
        omega
      omega
    · have h3 := (done_all_iff e).1 hd
      have h4 : 1 ≤ countTrue e.active := hl.one
      omega

theorem seated_of_ended (h : ArrayInHand S d) (ha : d.action = none) : Seated (atSeat d) ∧ d.pot = 0 := by
  rcases array_induct (P := fun _ _ => True) (fun _ _ _ _ _ _ _ _ _ => trivial)
    (fun _ _ _ _ _ _ _ _ _ _ _ _ _ => trivial) h with ⟨-, h1, -⟩ | ⟨e, p, rfl, -, hl, hp, -⟩
  · obtain ⟨a, h2, -⟩ := h1.action
    rw [show (atSeat d).action = none from ha] at h2; simp at h2
  · refine ⟨?_, rfl⟩
    rw [settle_atSeat]
    exact settle_seated hl.seated (payouts_length hl.seated hp)

theorem array_session_inv {t : Int} (h : ArraySession t d) :
    ∃ S, ArrayInHand S d ∧ NonNegative S d.cfg ∧ SizesOk d.cfg ∧ allChips d = t := by
  induction h with
  | @first d d' rb rs shuf obs hd hs hr hn hz =>
    exact ⟨_, .dealt hd hs hr, hn, hz, array_chips (dealt_live hd (reset_ok_atSeat hd hr)).1⟩
  | @step t d bet h ih =>
    obtain ⟨S, h1, h2, h3, h4⟩ := ih
    exact ⟨S, .step bet h1, by rw [step_cfg]; exact h2, by rw [step_cfg]; exact h3, by
      rw [C69_conserved h1 h2 h3, h4]⟩
  | @next t d d' rb shuf obs h he hs hr ih =>
    obtain ⟨S, h1, h2, h3, h4⟩ := ih
    obtain ⟨hseat, hpot⟩ := seated_of_ended h1 he
    have hcfg : d'.cfg = d.cfg := by
      have := reset_cfg d rb false shuf
      rw [hr] at this; exact this
    refine ⟨_, .dealt hseat hs hr, ⟨?_, ?_, ?_⟩, by rw [hcfg]; exact h3, ?_⟩
    · intro s hs
      change s ∈ d.stacks at hs
      obtain ⟨i, hi, rfl⟩ := (mem_getD 0).1 hs
      exact C69_after_hand h1 h2 h3 he i (by
        rw [← show d.stacks.length = d.cfg.numPlayers from hseat.stacks]; exact hi)
    · rw [hcfg]; exact h2.blinds
    · rw [hcfg]; exact h2.antes
    · have := array_chips (dealt_live hseat (reset_ok_atSeat hseat hr)).1
      rw [this]
      show d.stacks.sum = t
      rw [← h4]; unfold allChips; rw [hpot]; ring

/-- **C69**: over any session no chip is lost or made. -/
theorem C69_session {total : Int} (h : ArraySession total d) : allChips d = total := by
  obtain ⟨S, -, -, -, h1⟩ := array_session_inv h
  exact h1

/-- the hand of `C18_false`, at the array engine: it is not ended early, and keeps its chips -/
example : ∃ S d d' out, ArrayInHand S d ∧ ArrayReachable d ∧ step d (.fin 0) = (d', .ok out) ∧ NonNegative S d.cfg ∧
    SizesOk d.cfg ∧ d.action ≠ none ∧ d'.action = none ∧ AtShowdown d' ∧ allChips d = 6 ∧ allChips d' = 6 ∧
    out.2.1 = [-2, -1, 3] ∧ stack d' 0 = 0 :=
  step_exists (small 3 [1, 2, 0] 2) [.bet 2, .bet (-1)] (.fin 0) (by decide +kernel)

/-- **C69 needs sizes that are not negative**: with a fixed raise size of -5, a player who can check bets -5 and takes five
chips out of the pot. Their contribution goes down by as much, so the chips are all there, but they have bet less than nothing. -/
theorem C69_negative_size : ∃ S d d' out, ArrayInHand S d ∧ ArrayReachable d ∧ step d (.fin (-5)) = (d', .ok out) ∧
    NonNegative S d.cfg ∧ ¬ SizesOk d.cfg ∧ d.action = some 2 ∧ d.pot = 6 ∧ d'.pot = 1 ∧ stack d 2 = 18 ∧ stack d' 2 = 23 :=
  step_exists (limit 3 [1, 2, 0] 20 (.scalar (.int (-5))) (.scalar .inf)) [.bet 2, .bet 1] (.fin (-5)) (by decide +kernel)

end Clubs.Numpy
