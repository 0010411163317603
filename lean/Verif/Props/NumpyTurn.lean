import Verif.Lemmas.TurnPot
import Verif.Lemmas.TurnDeal
import Verif.Props.NumpyShow
import Verif.Props.NumpyFlow

/-!
# No seat is favoured by the array engine: C82
-/

namespace Clubs.Numpy

open Spec

variable {S : List Int} {d d' : Dealer} {bet : PyNum} {obs : Observation} {s : Nat → Int}

/-! ## odd chips -/

theorem turn_diff {n : Nat} (k : Nat) {i a : Nat} (hi : i < n) (ha : a < n) :
    (turnSeat n k i + (n - turnSeat n k a)) % n = (i + (n - a)) % n := by
  have hn : 0 < n := by omega
  have hσ := turnSeat_lt k a hn
  have m1 := turnSeat_back k hi
  have m2 := turnSeat_back k ha
  have c1 : Nat.ModEq n (turnSeat n k i + (n - turnSeat n k a) + (turnSeat n k a + k)) (i + (n - a) + (turnSeat n k a + k)) := by
    have x1 : turnSeat n k i + (n - turnSeat n k a) + (turnSeat n k a + k) = (turnSeat n k i + k) + n := by omega
    have x2 : Nat.ModEq n (turnSeat n k i + k) i := by unfold Nat.ModEq; rw [m1, Nat.mod_eq_of_lt hi]
    have x3 : Nat.ModEq n (turnSeat n k a + k) a := by unfold Nat.ModEq; rw [m2, Nat.mod_eq_of_lt ha]
    have x4 : i + (n - a) + a = i + n := by omega
    rw [x1]
    calc Nat.ModEq n (turnSeat n k i + k + n) (i + n) := x2.add_right n
      Nat.ModEq n _ (i + (n - a) + a) := by rw [x4]
      Nat.ModEq n _ _ := (x3.symm).add_left _
  exact Nat.ModEq.add_right_cancel' _ c1

theorem fromButton_diff {n b i : Nat} (hb : b < n) (hi : i < n) :
    fromButton n b i = b + if (i + (n - b)) % n = 0 then n else (i + (n - b)) % n := by
  unfold fromButton
  by_cases h : i ≤ b
  · rw [if_pos h]
    by_cases h1 : i = b
    · subst h1
      rw [show i + (n - i) = n by omega, Nat.mod_self, if_pos rfl]
    · rw [Nat.mod_eq_of_lt (by omega), if_neg (by omega)]; omega
  · rw [if_neg h, show i + (n - b) = (i - b) + n by omega, Nat.add_mod_right, Nat.mod_eq_of_lt (by omega), if_neg (by omega)]; omega

theorem fromButton_turn {n : Nat} (k : Nat) {b i : Nat} (hb : b < n) (hi : i < n) :
    (fromButton n (turnSeat n k b) (turnSeat n k i) : Int) - turnSeat n k b = (fromButton n b i : Int) - b := by
  have hn : 0 < n := by omega
  rw [fromButton_diff (turnSeat_lt k b hn) (turnSeat_lt k i hn), fromButton_diff hb hi, turn_diff k hi hb]
  push_cast
  ring

/-! ## the step -/

theorem atSeat_self (hb : d.button < d.cfg.numPlayers) : atSeat d = d := by
  unfold atSeat
  rw [Nat.mod_eq_of_lt hb]

theorem array_done_turn (d : Dealer) (k : Nat) : done (turnTable k d) = (done d).rotate k := by
  unfold done turnTable
  simp only [countTrue_rotate]
  split
  · rw [List.rotate_replicate]
  · rw [List.map_rotate]

/-- payouts at a showdown -/
theorem array_payouts_turn_showdown (hd : Seated d) (hh : d.holeCards.length = d.cfg.numPlayers) (hpot : d.pot = d.potCommits.sum)
    (hpos : ∀ i < d.cfg.numPlayers, 0 ≤ contribution d i) (hr : Ranks d s) (hc : FoldsCovered d.cfg.numPlayers (inB d) (contribution d))
    (hone : countTrue d.active ≠ 1) (hst : d.cfg.numStreets ≤ d.street) (k : Nat) :
    ∃ p, payouts d = .ok p ∧ p.length = d.cfg.numPlayers ∧ payouts (turnTable k d) = .ok (p.rotate k) := by
  have R := renumbered_turn hd k s
  have hd' := turn_seated hd k
  have hodd : oddAt (turnTable k d) (turnStrength d.cfg.numPlayers k s) = oddAt d s := renum_odd R
  have hdue : ∀ a < d.cfg.numPlayers, dueAt (turnTable k d) (turnStrength d.cfg.numPlayers k s) (turnSeat d.cfg.numPlayers k a) = dueAt d s a :=
    fun a ha => renum_due R ha
  have hb' : (turnTable k d).button < (turnTable k d).cfg.numPlayers := hd'.button
  have P := showdown_paid (x := d) (by rw [atSeat_self hd.button]; exact hd) hh hpot hpos hr hc hone hst
  have P' := showdown_paid (x := turnTable k d) (by rw [atSeat_self hb']; exact hd') (by simpa [turnTable] using hh)
    (by show d.pot = (d.potCommits.rotate k).sum; rw [hpot]; exact ((List.rotate_perm _ k).sum_eq).symm)
    (by
      show ∀ i < d.cfg.numPlayers, _
      rw [renum_forall R]; intro i hi; rw [R.c i hi]; exact hpos i hi)
    (turn_ranks hd hh k hr) (renum_folds R hc)
    (by show countTrue (d.active.rotate k) ≠ 1; rw [countTrue_rotate]; exact hone) hst
  -- from what everybody receives to the payouts
  have fin : ∀ p p' : List Int, payouts d = .ok p → payouts (turnTable k d) = .ok p' →
      (∀ a < d.cfg.numPlayers, received (turnTable k d) p' (turnSeat d.cfg.numPlayers k a) = received d p a) →
      ∃ p, payouts d = .ok p ∧ p.length = d.cfg.numPlayers ∧ payouts (turnTable k d) = .ok (p.rotate k) := by
    intro p p' hp hp' hrec
    have l1 := payouts_length (d := d) (by rw [atSeat_self hd.button]; exact hd) hp
    have l2 : p'.length = d.cfg.numPlayers := payouts_length (d := turnTable k d) (by rw [atSeat_self hb']; exact hd') hp'
    refine ⟨p, hp, l1, ?_⟩
    rw [hp']
    congr 1
    refine eq_rotate l1 l2 fun a ha => ?_
    have e := hrec a ha
    unfold received at e
    rw [R.c a ha] at e
    have e4 : p'.getD (turnSeat d.cfg.numPlayers k a) 0 = p.getD a 0 := by omega
    have h1 : turnSeat d.cfg.numPlayers k a < p'.length := by rw [l2]; exact R.lt a ha
    rw [getD_eq _ _ _ h1, getD_eq _ _ _ (by omega)] at e4
    rw [List.getElem?_eq_getElem h1, List.getElem?_eq_getElem (by omega), e4]
  cases P with
  | even p hp h0 hrec =>
    cases P' with
    | odd p' w' _ h0' => rw [hodd] at h0'; exact absurd h0 h0'
    | even p' hp' _ hrec' =>
      refine fin p p' hp hp' fun a ha => ?_
      rw [hrec a ha, ← hdue a ha]
      exact hrec' _ (R.lt a ha)
  | odd p w hp h0 hw hdw hf hrec =>
    cases P' with
    | even p' _ h0' => rw [hodd] at h0'; exact absurd h0' h0
    | odd p' w' hp' _ hw' hdw' hf' hrec' =>
      obtain ⟨v, hv, rfl⟩ := R.surj w' hw'
      have hvd : dueAt d s v ≠ 0 := by rw [← hdue v hv]; exact hdw'
      have e1 := hf v hv hvd
      have e2 := hf' _ (R.lt w hw) (by rw [hdue w hw]; exact hdw)
      have e3 := fromButton_turn k hd.button hv
      have e4 := fromButton_turn k hd.button hw
      have e5 : fromButton d.cfg.numPlayers d.button v = fromButton d.cfg.numPlayers d.button w := by
        have e2' : fromButton d.cfg.numPlayers (turnSeat d.cfg.numPlayers k d.button) (turnSeat d.cfg.numPlayers k v) ≤
          fromButton d.cfg.numPlayers (turnSeat d.cfg.numPlayers k d.button) (turnSeat d.cfg.numPlayers k w) := e2
        omega
      have hvw : v = w := by
        unfold fromButton at e5
        have h1 : v < d.cfg.numPlayers := hv
        split at e5 <;> split at e5 <;> omega
      subst hvw
      refine fin p p' hp hp' fun a ha => ?_
      rw [hrec a ha, ← hdue a ha]
      refine (hrec' _ (R.lt a ha)).trans ?_
      rw [hodd]
      congr 1
      exact if_congr ⟨fun e => turnSeat_inj hv ha e, fun e => by rw [e]⟩ rfl rfl

theorem array_finish_turn {a : Nat} (hd : Seated d) (hh : d.holeCards.length = d.cfg.numPlayers) (ha : d.action = some a) (k : Nat) {p : List Int}
    (hp : payouts d = .ok p) (hl : p.length = d.cfg.numPlayers) (hp' : payouts (turnTable k d) = .ok (p.rotate k)) :
    (finish (turnTable k d)).1 = turnTable k (finish d).1 ∧ SameResult d.cfg.numPlayers k (finish d).2 (finish (turnTable k d)).2 := by
  have hdn := array_done_turn d k
  have hst := settle_turn hd hl k
  rcases finish_cases d with ⟨e, h1, -⟩ | ⟨q, h1, h2, h3, h4⟩ | ⟨q, h1, h2, h3, h4⟩
  · rw [hp] at h1; simp at h1
  all_goals
    rw [hp] at h1
    obtain rfl : p = q := by simpa using h1
    rcases finish_cases (turnTable k d) with ⟨e, g1, -⟩ | ⟨q, g1, g2, g3, g4⟩ | ⟨q, g1, g2, g3, g4⟩
  · rw [hp'] at g1; simp at g1
  · rw [hp'] at g1
    obtain rfl : p.rotate k = q := by simpa using g1
    rw [g3, h3, hst, h4, g4, hst]
    refine ⟨rfl, ?_⟩
    obtain ⟨o, o', o1, o2, o3⟩ := observation_end (settle_seated hd hl) hh rfl k
    unfold observation
    rw [o1, o2, hdn]
    exact ⟨o3, rfl, rfl⟩
  · rw [hdn, all_rotate, h2] at g2; simp at g2
  · rw [hp'] at g1; simp at g1
  · rw [hdn, all_rotate, h2] at g2; simp at g2
  · rw [hp'] at g1
    obtain rfl : p.rotate k = q := by simpa using g1
    rw [g3, h3, h4, g4]
    refine ⟨rfl, ?_⟩
    obtain ⟨r, r', o1, o2, o3⟩ := observation_turn hd hh ha k
    unfold observation
    rw [o1, o2, hdn]
    cases r with
    | error e =>
      cases r' with
      | error e' => exact o3
      | ok o' => exact o3.elim
    | ok o =>
      cases r' with
      | error e' => exact o3.elim
      | ok o' => exact ⟨o3, rfl, rfl⟩

theorem finish_array_fields (x : Dealer) : SameTable x (finish x).1 ∧ (finish x).1.street = x.street := by
  rcases finish_cases x with ⟨e, -, he⟩ | ⟨p, -, -, he, -⟩ | ⟨p, -, -, he, -⟩
  · rw [he]; exact ⟨⟨rfl, rfl, rfl, rfl, rfl, rfl⟩, rfl⟩
  · rw [he]; exact ⟨⟨rfl, rfl, rfl, rfl, rfl, rfl⟩, rfl⟩
  · rw [he]; exact ⟨⟨rfl, rfl, rfl, rfl, rfl, rfl⟩, rfl⟩

/-- **C82** for the array engine (partial: as long as the button has the number of a seat, see `C82_false`, and if the hands can be evaluated): If
all players move `k` seats down, with their chips, their cards, the button and the turn, then a bet does the same to everybody, including the
division of the pot with ties, side pots and odd chips. -/
theorem C82_step_partial (h : ArrayInHand S d) (hn : NonNegative S d.cfg) (hz : SizesOk d.cfg) (hb : d.button < d.cfg.numPlayers)
    (ha : d.action ≠ none)
    (hc : AtShowdown (step d bet).1 → ∃ s, Ranks (step d bet).1 s ∧
      FoldsCovered d.cfg.numPlayers (inB (step d bet).1) (contribution (step d bet).1)) (k : Nat) :
    (step (turnTable k d) bet).1 = turnTable k (step d bet).1 ∧
      SameResult d.cfg.numPlayers k (step d bet).2 (step (turnTable k d) bet).2 := by
  obtain ⟨a, ha⟩ := Option.ne_none_iff_exists'.1 ha
  obtain ⟨-, hl, h2⟩ := sound_of_action h hn hz ha
  rw [atSeat_self hb] at hl
  have hd := hl.seated
  have ha' : (turnTable k d).action = some (turnSeat d.cfg.numPlayers k a) := by simp [turnTable, ha]
  have hbs := betSizes_turn hd ha k
  rcases step_some ha bet with ⟨e, hr, he⟩ | ⟨b, e, hb, hr, he⟩ | ⟨b, c, lo, hi, hrd, hs, he⟩
  · rcases step_some ha' bet with ⟨e', hr', he'⟩ | ⟨b', e', hb', -, -⟩ | ⟨b', c', lo', hi', hb', -, -⟩
    · rw [he, he']
      refine ⟨rfl, ?_⟩
      rw [hr] at hr'
      simpa [SameResult] using hr'.symm
    · rw [hr] at hb'; simp at hb'
    · rw [hr] at hb'; simp at hb'
  · rcases step_some ha' bet with ⟨e', hr', -⟩ | ⟨b', e', -, hr', he'⟩ | ⟨b', c', lo', hi', -, hr', -⟩
    · rw [hb] at hr'; simp at hr'
    · rw [he, he']
      refine ⟨rfl, ?_⟩
      rw [hbs, hr] at hr'
      simpa [SameResult] using hr'.symm
    · rw [hbs, hr] at hr'; simp at hr'
  · have hst : d.street < d.cfg.numStreets := by
      by_contra hcon
      rw [betSizes_error hd (by omega)] at hs
      simp at hs
    have he' : step (turnTable k d) bet = finish (afterBet (turnTable k d) bet.isNeg c (cleanBet b c lo hi)) := by
      rcases step_some ha' bet with ⟨e', hr', -⟩ | ⟨b', e', -, hr', -⟩ | ⟨b', c', lo', hi', hb', hr', he'⟩
      · rw [hrd] at hr'; simp at hr'
      · rw [hbs, hs] at hr'; simp at hr'
      · rw [hbs, hs] at hr'
        rw [hrd] at hb'
        simp only [Except.ok.injEq, Prod.mk.injEq] at hr' hb'
        obtain ⟨rfl, rfl, rfl⟩ := hr'
        subst hb'
        exact he'
    have shared : ∀ e : Dealer, Seated e → afterBet e bet.isNeg c (cleanBet b c lo hi) = e.afterBet bet.isNeg c (cleanBet b c lo hi) := by
      intro e hse
      have h1 := afterBet_atSeat (d := e) (by have := hse.two; omega) bet.isNeg c (cleanBet b c lo hi)
      rw [atSeat_self hse.button, atSeat_self] at h1
      · exact h1
      · rw [afterBet_cfg]
        have h2 : (afterBet e bet.isNeg c (cleanBet b c lo hi)).button = e.button := afterBet_button _ _ _ _
        rw [h2]
        exact hse.button
    have hsnd := afterBet_sound_of h hn hz ha hrd hs rfl
    rw [atSeat_self hb] at hsnd
    rw [he', shared _ (turn_seated hd k), afterBet_turn hd ha, he, shared d hd]
    rw [he, shared d hd] at hc
    have hx := afterBet_live hl hst (h2 hst) bet.isNeg c (cleanBet b c lo hi)
    rw [shared d hd] at hsnd
    have hcfg := Clubs.afterBet_cfg d bet.isNeg c (cleanBet b c lo hi)
    have hnn := hsnd.1.nn
    rw [atSeat_self hx.seated.button] at hnn
    rw [← hcfg] at hc
    generalize d.afterBet bet.isNeg c (cleanBet b c lo hi) = x at hx hnn hc hcfg
    obtain ⟨a2, ha2, -⟩ := hx.action
    obtain ⟨p, p1, p2, p3⟩ : ∃ p, payouts x = .ok p ∧ p.length = x.cfg.numPlayers ∧ payouts (turnTable k x) = .ok (p.rotate k) := by
      by_cases hq : countTrue x.active = 1 ∨ x.street < x.cfg.numStreets
      · have q1 := payouts_shared hq
        have q2 := payouts_shared (d := turnTable k x) (by
          show countTrue (x.active.rotate k) = 1 ∨ _
          rw [countTrue_rotate]; exact hq)
        rw [atSeat_self hx.seated.button] at q1
        rw [atSeat_self (d := turnTable k x) (turn_seated hx.seated k).button] at q2
        rw [q1, q2]
        exact payouts_turn hx.seated hq k
      · obtain ⟨q1, q2⟩ : countTrue x.active ≠ 1 ∧ x.cfg.numStreets ≤ x.street := by
          constructor
          · exact fun e => hq (.inl e)
          · by_contra e; exact hq (.inr (by omega))
        obtain ⟨e, e2⟩ := finish_array_fields x
        obtain ⟨s, r1, r2⟩ := hc (by
          refine ⟨by rw [e.cfg, e2]; exact q2, ?_⟩
          have := hx.one
          unfold numIn countTrue at *
          rw [e.active]
          omega)
        have f1 : inB (finish x).1 = inB x := by funext i; unfold inB; rw [e.active]
        have f2 : contribution (finish x).1 = contribution x := by funext i; unfold contribution; rw [e.potCommits]
        rw [f1, f2] at r2
        exact array_payouts_turn_showdown hx.seated hx.holeLen hx.pot hnn.contrib (e.ranks r1) r2 q1 q2 k
    have := array_finish_turn hx.seated hx.holeLen ha2 k p1 p2 p3
    rwa [hcfg] at this

/-- **C82** for the array engine: at tables with almost equal antes whose players can all pay blind and ante the pot needs no condition. -/
theorem C82_standard_partial (h : ArrayInHand S d) (hn : NonNegative S d.cfg) (hz : SizesOk d.cfg) (hcov : Covers S d.cfg)
    (he : CloseAntes d.cfg) (hb : d.button < d.cfg.numPlayers) (ha : d.action ≠ none)
    (hc : AtShowdown (step d bet).1 → ∃ s, Ranks (step d bet).1 s) (k : Nat) :
    (step (turnTable k d) bet).1 = turnTable k (step d bet).1 ∧
      SameResult d.cfg.numPlayers k (step d bet).2 (step (turnTable k d) bet).2 := by
  refine C82_step_partial h hn hz hb ha (fun hs => ?_) k
  obtain ⟨s, hr⟩ := hc hs
  have hcfg := step_cfg d bet
  have := C71_folds_covered (ArrayInHand.step bet h) (by rw [hcfg]; exact hn) (by rw [hcfg]; exact hz) (by rw [hcfg]; exact hcov)
    (by rw [hcfg]; exact he)
  rw [hcfg] at this
  exact ⟨s, hr, this⟩

/-- **C82** for the array engine: the deal, as for the other engine, with the button counted as a seat. -/
theorem C82_deal (hd : Seated d) (ht : d.deck.tricked = false)
    (hc : (d.cfg.numCommunityCards.getD 0 0).toNat + d.cfg.numPlayers * d.cfg.numHoleCards.toNat ≤ d.deck.fullDeck.length) (k : Nat) :
    ∃ f : List Card → List Card, Function.Injective f ∧ (∀ l, (f l).Perm l) ∧
      ∀ (rs : Bool) (shuf : Shuffle) (d' : Dealer) (obs : Observation), IsShuffle shuf → reset d false rs shuf = (d', .ok obs) →
        ∃ obs', atSeat (reset (turnTable k d) false rs (fun l => f (shuf l))).1 = turnTable k (atSeat d') ∧
          (reset (turnTable k d) false rs (fun l => f (shuf l))).2.map (obsAtSeat d.cfg.numPlayers) = .ok obs' ∧
          SameView d.cfg.numPlayers k (obsAtSeat d.cfg.numPlayers obs) obs' := by
  refine ⟨turnCards (flopCards d.cfg) (handCards d.cfg) (k * d.cfg.numHoleCards.toNat), turnCards_inj _ _ _, turnCards_perm _ _ _, ?_⟩
  intro rs shuf d' obs hs h
  have e := atSeat_self hd.button
  have h1 := reset_ok_atSeat (d := d) (by rw [e]; exact hd) h
  rw [e] at h1
  obtain ⟨obs', h2, h3⟩ := reset_turn hd ht rs hs hc k h1
  have e' := atSeat_self (d := turnTable k d) (turn_seated hd k).button
  obtain ⟨h4, h5⟩ := reset_atSeat (d := turnTable k d) (by rw [e']; exact turn_seated hd k) false rs
    (fun l => turnCards (flopCards d.cfg) (handCards d.cfg) (k * d.cfg.numHoleCards.toNat) (shuf l))
  rw [e', h2] at h4 h5
  exact ⟨obs', h4, h5, h3⟩

/-- **C82 is false for the array engine once the button's number is beyond the last seat**: the odd chip goes to the lowest of the seats 0 and 2; after
turning the table by one seat it is the other player who gets it. -/
theorem C82_false : ∃ S d d' out, ArrayInHand S d ∧ ArrayReachable d ∧ step d (.fin 0) = (d', .ok out) ∧
    NonNegative S d.cfg ∧ SizesOk d.cfg ∧ Running d ∧ AtShowdown d' ∧ Ranks d' (fun _ => 1) ∧
    FoldsCovered d'.cfg.numPlayers (inB d') (contribution d') ∧ d'.button = 3 ∧ out.2.1 = [1, -1, 0] ∧
    (step (turnTable 1 d) (.fin 0)).2.toOption.map (fun r => r.2.1) = some [-1, 1, 0] :=
  step_exists (ties 3 [1, 2, 0] 10) [.bet (-1), .bet (-1), .deal, .bet (-1), .bet (-1), .deal, .bet (-1), .bet (-1), .deal,
    .bet 2, .bet (-1), .bet 0, .bet 0] (.fin 0) (by decide +kernel)

/-- the hypotheses of `C82_step_partial` and `C82_standard_partial`, in a case that the other engine gets wrong: three tied players all in, and in
one with an odd chip -/
example : ∃ S d d' out, ArrayInHand S d ∧ ArrayReachable d ∧ step d (.fin 6) = (d', .ok out) ∧ NonNegative S d.cfg ∧ SizesOk d.cfg ∧
    Covers S d.cfg ∧ CloseAntes d.cfg ∧ d.button < d.cfg.numPlayers ∧ d.action ≠ none ∧ AtShowdown d' ∧ Ranks d' (fun _ => 1) ∧
    out.2.1 = [0, 0, 0] :=
  step_exists (ties 3 [1, 2, 0] 10) [.bet 2, .bet 1, .bet 4, .bet (-1), .bet (-1), .deal, .bet 8, .bet 13] (.fin 6) (by decide +kernel)

example : ∃ S d d' out, ArrayInHand S d ∧ ArrayReachable d ∧ step d (.fin 0) = (d', .ok out) ∧ NonNegative S d.cfg ∧ SizesOk d.cfg ∧
    Covers S d.cfg ∧ CloseAntes d.cfg ∧ d.button < d.cfg.numPlayers ∧ AtShowdown d' ∧ Ranks d' (fun _ => 1) ∧ out.2.1 = [0, -1, 1] ∧
    (step (turnTable 1 d) (.fin 0)).2.toOption.map (fun r => r.2.1) = some [-1, 1, 0] :=
  step_exists (ties 3 [1, 2, 0] 10) [.bet 2, .bet (-1), .bet 0, .bet 0] (.fin 0) (by decide +kernel)

end Clubs.Numpy
