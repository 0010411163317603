import Verif.Lemmas.NumpyHand
import Verif.Lemmas.Tops

/-! # The course of a hand at the array engine -/

namespace Clubs.Numpy

open Spec

variable {S : List Int} {d : Dealer}

theorem payouts_error {e : Err} (h : payouts d = .error e) :
    countTrue d.active ≠ 1 ∧ d.cfg.numStreets ≤ d.street ∧ evalRound d = .error e := by
  unfold payouts at h
  simp only [] at h
  split at h
  · simp at h
  · next h1 =>
    split at h
    · next h2 =>
      cases hq : evalRound d with
      | error e' =>
        rw [hq] at h
        simp only [Except.error.injEq] at h
        exact ⟨h1, h2, by rw [h]⟩
      | ok q => rw [hq] at h; simp at h
    · simp at h

theorem done_all_iff (d : Dealer) : (done d).all id = true ↔ d.cfg.numStreets ≤ d.street ∨ countTrue d.active ≤ 1 := by
  unfold done
  by_cases hc : d.street ≥ d.cfg.numStreets ∨ countTrue d.active ≤ 1
  · rw [if_pos hc]
    exact ⟨fun _ => hc, fun _ => by simp⟩
  · rw [if_neg hc]
    constructor
    · intro h
      exfalso
      rw [not_or] at hc
      obtain ⟨t, ht, hta⟩ := countTrue_pos.1 (show 1 ≤ countTrue d.active by omega)
      rw [List.all_eq_true] at h
      have := h (!d.active.getD t false) (by
        rw [List.mem_map]
        exact ⟨_, (mem_getD false).2 ⟨t, ht, rfl⟩, rfl⟩)
      rw [hta] at this
      simp at this
    · intro h; exact absurd h hc

theorem afterBet_cfg (d : Dealer) (fold : Bool) (c b : Int) : (afterBet d fold c b).cfg = d.cfg := by
  unfold afterBet
  split
  · unfold nextStreet
    simp only []
    rw [dealStreets_shared, dealStreets_fields]
    show (act d fold c b).cfg = d.cfg
    rw [act_shared, act_eq]
    rfl
  · rw [act_shared, act_eq]; rfl

theorem finish_cfg (d : Dealer) : (finish d).1.cfg = d.cfg := by
  rcases finish_cases d with ⟨e, -, he⟩ | ⟨p, hp, -, he, -⟩ | ⟨p, -, -, he, -⟩
  · rw [he]
  · rw [he]; rfl
  · rw [he]

theorem step_cfg (d : Dealer) (bet : PyNum) : (step d bet).1.cfg = d.cfg := by
  cases ha : d.action with
  | none => rw [step_none ha]
  | some a =>
    rcases step_some ha bet with ⟨e, -, he⟩ | ⟨b, e, -, -, he⟩ | ⟨b, c, lo, hi, -, -, he⟩
    · rw [he]
    · rw [he]
    · rw [he, finish_cfg, afterBet_cfg]

theorem reset_cfg (d : Dealer) (rb rs : Bool) (shuf : Shuffle) : (reset d rb rs shuf).1.cfg = d.cfg := by
  rcases reset_eq d rb rs shuf with ⟨-, -, h⟩ | ⟨-, ⟨-, h⟩ | ⟨-, h⟩⟩
  · rw [h]
  · rw [h]
  · rw [h]
    show (posted d rb rs shuf).cfg = d.cfg
    unfold posted
    rw [collect_cfg, collect_cfg]
    unfold blindStart
    split <;> rfl

/-- a successful `reset` is one of the other engine, up to the number of the button -/
theorem reset_ok_atSeat {d' : Dealer} {rb rs : Bool} {shuf : Shuffle} {obs : Observation} (hd : Seated (atSeat d))
    (h : reset d rb rs shuf = (d', .ok obs)) :
    (atSeat d).reset rb rs shuf = (atSeat d', .ok (obsAtSeat d.cfg.numPlayers obs)) := by
  obtain ⟨h1, h2⟩ := reset_atSeat hd rb rs shuf
  rw [h] at h1 h2
  exact Prod.ext h1.symm h2.symm

/-- Induction over the states of a hand; `P` is about the table with the button as a seat number. -/
theorem array_induct {P : List Int → Dealer → Prop}
    (h0 : ∀ (d d' : Dealer) (rb rs : Bool) (shuf : Shuffle) (obs : Observation), Seated d → IsShuffle shuf →
      d.reset rb rs shuf = (d', .ok obs) → P (startStacks d rs) d')
    (h1 : ∀ (S : List Int) (x : Dealer) (fold : Bool) (b c lo hi : Int), Live S x →
      x.street < x.cfg.numStreets → 2 ≤ countTrue x.active → P S x → x.betSizes = .ok (c, lo, hi) →
      (b < 0 → fold = true) → P S (x.afterBet fold c (cleanBet b c lo hi)))
    (h : ArrayInHand S d) :
    (P S (atSeat d) ∧ Live S (atSeat d) ∧ (d.street < d.cfg.numStreets → 2 ≤ countTrue d.active)) ∨
    ∃ e p, d = e.settle p ∧ P S (atSeat e) ∧ Live S (atSeat e) ∧ payouts e = .ok p ∧ (done e).all id = true := by
  induction h with
  | @dealt d d' rb rs shuf obs hd hs hr =>
    have hr' := reset_ok_atSeat hd hr
    obtain ⟨g1, g2, g3⟩ := dealt_live hd hr'
    exact .inl ⟨h0 (atSeat d) _ _ rs _ _ hd hs hr', g1, fun _ => g3⟩
  | @step S d bet h ih =>
    rcases ih with ⟨hP, hl, h2⟩ | ⟨e, p, rfl, hP, hl, hp, hd⟩
    · obtain ⟨a, ha, hin⟩ := hl.action
      rcases step_some (d := d) ha bet with ⟨e, -, he⟩ | ⟨b, e, -, -, he⟩ | ⟨b, c, lo, hi, hr, hb, he⟩
      · rw [he]; exact .inl ⟨hP, hl, h2⟩
      · rw [he]; exact .inl ⟨hP, hl, h2⟩
      · have htwo : 2 ≤ d.cfg.numPlayers := hl.seated.two
        by_cases hst : d.street < d.cfg.numStreets
        · have hl2 := afterBet_live hl hst (h2 hst) bet.isNeg c (cleanBet b c lo hi)
          have hP2 := h1 S (atSeat d) bet.isNeg b c lo hi hl hst (h2 hst) hP hb fun hb0 => isNeg_of_round hr hb0
          rw [← afterBet_atSeat (by omega)] at hl2 hP2
          rw [he]
          generalize afterBet d bet.isNeg c (cleanBet b c lo hi) = e at hl2 hP2 ⊢
          rcases finish_cases e with ⟨x, hx, he⟩ | ⟨p, hp, hd, he, -⟩ | ⟨p, hp, hd, he, -⟩
          · rw [he]
            refine .inl ⟨hP2, hl2, fun hlt => ?_⟩
            have := (payouts_error hx).2.1
            simp only [] at hlt
            omega
          · rw [he]; exact .inr ⟨e, p, rfl, hP2, hl2, hp, hd⟩
          · rw [he]
            refine .inl ⟨hP2, hl2, fun hlt => ?_⟩
            have := mt (done_all_iff e).2 (by rw [hd]; simp)
            omega
        · rw [show d.betSizes = (atSeat d).betSizes from rfl,
            betSizes_error hl.seated (show d.cfg.numStreets ≤ d.street by omega)] at hb
          simp at hb
    · right
      rw [step_none (by rfl)]
      exact ⟨e, p, rfl, hP, hl, hp, hd⟩

/-- what holds all through a hand -/
structure Sound (S : List Int) (x : Dealer) : Prop where
  nn : NN x
  opt : OptInv x
  notAgreed : x.allAgreed = false
  top : Covers S x.cfg → CloseAntes x.cfg → Topped 1 x ∧ ∀ i < x.cfg.numPlayers, 0 ≤ stack x i

theorem dealt_sound {d d' : Dealer} {rb rs : Bool} {shuf : Shuffle} {obs : Observation} (hd : Seated d)
    (hr : d.reset rb rs shuf = (d', .ok obs)) (hn : NonNegative (startStacks d rs) d'.cfg) : Sound (startStacks d rs) d' where
  nn := dealt_nn hd hr hn
  opt := dealt_optInv hd hr
  notAgreed := dealt_not_agreed hd hr
  top := fun hc he => ⟨dealt_top (by omega) hd hr hn he, dealt_covered hd hr hn hc⟩

theorem afterBet_sound {x : Dealer} {fold : Bool} {b c lo hi : Int} (hl : Live S x) (hc2 : 2 ≤ countTrue x.active)
    (hn : NonNegative S x.cfg) (h : Sound S x) (hb : x.betSizes = .ok (c, lo, hi)) :
    Sound S (x.afterBet fold c (Clubs.cleanBet b c lo hi)) where
  nn := afterBet_nn hl hn.start hc2 h.nn hb
  opt := afterBet_optInv hl hc2 h.opt
  notAgreed := afterBet_not_agreed hl hc2
  top := by
    intro hc he
    rw [Clubs.afterBet_cfg] at hc he
    obtain ⟨i1, i2⟩ := h.top hc he
    refine ⟨afterBet_top hl i2 h.nn i1 hb, ?_⟩
    intro i hi'
    rw [Clubs.afterBet_cfg] at hi'
    rw [(contribution_afterBet hl.seated fold c _ i hi').2]
    have h3 := i2 i hi'
    split
    · next h4 => rw [h4]; have := min_le_left (stack x i) (betOf fold c (Clubs.cleanBet b c lo hi)); omega
    · omega

theorem sound_of (h : ArrayInHand S d) (hn : NonNegative S d.cfg) (hs : SizesOk d.cfg) :
    (Sound S (atSeat d) ∧ Live S (atSeat d) ∧ (d.street < d.cfg.numStreets → 2 ≤ countTrue d.active)) ∨
    ∃ e p, d = e.settle p ∧ Sound S (atSeat e) ∧ Live S (atSeat e) ∧ payouts e = .ok p ∧ (done e).all id = true := by
  have := array_induct (P := fun S x => NonNegative S x.cfg → SizesOk x.cfg → Sound S x)
    (fun d d' rb rs shuf obs hd hs hr hn _ => dealt_sound hd hr hn)
    (fun S x fold b c lo hi hl hst h2 ih hb hf hn hs => by
      rw [Clubs.afterBet_cfg] at hn hs
      have h3 := ih hn hs
      rw [afterBet_clean hl.seated (nn_pot hl h3.nn) hs hb hf]
      exact afterBet_sound hl h2 hn h3 hb) h
  rcases this with ⟨h1, h2⟩ | ⟨e, p, rfl, h1, h2⟩
  · exact .inl ⟨h1 hn hs, h2⟩
  · exact .inr ⟨e, p, rfl, h1 hn hs, h2⟩

theorem sound_of_action {a : Nat} (h : ArrayInHand S d) (hn : NonNegative S d.cfg) (hs : SizesOk d.cfg)
    (ha : d.action = some a) :
    Sound S (atSeat d) ∧ Live S (atSeat d) ∧ (d.street < d.cfg.numStreets → 2 ≤ countTrue d.active) := by
  rcases sound_of h hn hs with h1 | ⟨e, p, rfl, -⟩
  · exact h1
  · simp [Dealer.settle] at ha

theorem live_of_array {a : Nat} (h : ArrayInHand S d) (ha : d.action = some a) :
    Live S (atSeat d) ∧ (d.street < d.cfg.numStreets → 2 ≤ countTrue d.active) := by
  rcases array_induct (P := fun _ _ => True) (fun _ _ _ _ _ _ _ _ _ => trivial)
    (fun _ _ _ _ _ _ _ _ _ _ _ _ _ => trivial) h with ⟨-, h1⟩ | ⟨e, p, rfl, -⟩
  · exact h1
  · simp [Dealer.settle] at ha

/-- A step of a hand, by cases (as `Clubs.Stepped`). -/
inductive Stepped (S : List Int) (d : Dealer) (bet : PyNum) : Prop
  | refused (e : Err) (h : step d bet = (d, .error e)) (why : pyRound bet = .error e ∨ d.betSizes = .error e)
  | stuck (b c lo hi : Int) (e : Err) (x : Dealer) (hb : pyRound bet = .ok b) (hs : d.betSizes = .ok (c, lo, hi))
      (hx : x = afterBet d bet.isNeg c (cleanBet b c lo hi)) (hl : Live S (atSeat x)) (hp : payouts x = .error e)
      (h : step d bet = (x, .error e))
  | ended (b c lo hi : Int) (p : List Int) (x : Dealer) (obs : Observation) (hb : pyRound bet = .ok b)
      (hs : d.betSizes = .ok (c, lo, hi)) (hx : x = afterBet d bet.isNeg c (cleanBet b c lo hi)) (hl : Live S (atSeat x))
      (hp : payouts x = .ok p) (hd : (done x).all id = true) (ho : (x.settle p).observation true = .ok obs)
      (h : step d bet = (x.settle p, .ok (obs, p, done x)))
  | goesOn (b c lo hi : Int) (p : List Int) (x : Dealer) (obs : Observation) (hb : pyRound bet = .ok b)
      (hs : d.betSizes = .ok (c, lo, hi)) (hx : x = afterBet d bet.isNeg c (cleanBet b c lo hi)) (hl : Live S (atSeat x))
      (hp : payouts x = .ok p) (hd : (done x).all id = false) (ho : x.observation false = .ok obs)
      (h : step d bet = (x, .ok (obs, p, done x)))

theorem obs_ok {x : Dealer} {b : Bool} {o : Observation} (h : (atSeat x).observation b = .ok o) :
    ∃ o', x.observation b = .ok o' := by
  rw [observation_atSeat] at h
  cases ho : x.observation b with
  | ok o' => exact ⟨o', rfl⟩
  | error e =>
    rw [show observation x b = x.observation b from rfl, ho] at h
    simp [Except.map] at h

theorem step_cases {a : Nat} (h : ArrayInHand S d) (ha : d.action = some a) (bet : PyNum) : Stepped S d bet := by
  obtain ⟨hl, h2⟩ := live_of_array h ha
  have htwo : 2 ≤ d.cfg.numPlayers := hl.seated.two
  rcases step_some ha bet with ⟨e, hr, he⟩ | ⟨b, e, -, hr, he⟩ | ⟨b, c, lo, hi, hb, hs, he⟩
  · exact .refused e he (.inl hr)
  · exact .refused e he (.inr hr)
  · by_cases hst : d.street < d.cfg.numStreets
    · have hl2 := afterBet_live hl hst (h2 hst) bet.isNeg c (cleanBet b c lo hi)
      rw [← afterBet_atSeat (by omega)] at hl2
      rcases finish_cases (afterBet d bet.isNeg c (cleanBet b c lo hi)) with
        ⟨x, hx, hf⟩ | ⟨p, hp, hd, hf1, hf2⟩ | ⟨p, hp, hd, hf1, hf2⟩
      · exact .stuck b c lo hi x _ hb hs rfl hl2 hx (by rw [he, hf])
      · obtain ⟨obs, ho⟩ := settle_observation hl2 p
        obtain ⟨o, ho⟩ := obs_ok (x := (afterBet d bet.isNeg c (cleanBet b c lo hi)).settle p) ho
        rw [show observation = Dealer.observation from rfl, ho] at hf2
        exact .ended b c lo hi p _ o hb hs rfl hl2 hp hd ho (by rw [he]; exact Prod.ext hf1 hf2)
      · have hst2 := mt (done_all_iff _).2 (by rw [hd]; simp)
        obtain ⟨obs, ho⟩ := live_observation hl2 (by
          show (afterBet d bet.isNeg c (cleanBet b c lo hi)).street < (afterBet d bet.isNeg c (cleanBet b c lo hi)).cfg.numStreets
          omega)
        obtain ⟨o, ho⟩ := obs_ok ho
        rw [show observation = Dealer.observation from rfl, ho] at hf2
        exact .goesOn b c lo hi p _ o hb hs rfl hl2 hp hd ho (by rw [he]; exact Prod.ext hf1 hf2)
    · rw [show d.betSizes = (atSeat d).betSizes from rfl,
        betSizes_error hl.seated (show d.cfg.numStreets ≤ d.street by omega)] at hs
      simp at hs

theorem afterBet_sound_of {x : Dealer} {a : Nat} {bet : PyNum} {b c lo hi : Int} (h : ArrayInHand S d)
    (hn : NonNegative S d.cfg) (hz : SizesOk d.cfg) (ha : d.action = some a) (hb : pyRound bet = .ok b)
    (hs : d.betSizes = .ok (c, lo, hi)) (hx : x = afterBet d bet.isNeg c (cleanBet b c lo hi)) :
    Sound S (atSeat x) ∧ atSeat x = (atSeat d).afterBet bet.isNeg c (Clubs.cleanBet b c lo hi) := by
  obtain ⟨h1, hl, h2⟩ := sound_of_action h hn hz ha
  have htwo : 2 ≤ d.cfg.numPlayers := hl.seated.two
  have hst : d.street < d.cfg.numStreets := by
    by_contra hcon
    rw [show d.betSizes = (atSeat d).betSizes from rfl,
      betSizes_error hl.seated (show d.cfg.numStreets ≤ d.street by omega)] at hs
    simp at hs
  have he : atSeat x = (atSeat d).afterBet bet.isNeg c (Clubs.cleanBet b c lo hi) := by
    rw [hx, afterBet_atSeat (by omega), afterBet_clean hl.seated (nn_pot hl h1.nn) hz hs (isNeg_of_round hb)]
  rw [he]
  exact ⟨afterBet_sound hl (h2 hst) hn h1 hs, rfl⟩

/-! ## sums -/

theorem potPayouts_sum {n button : Nat} {worst : Int} {C T q : List Int} (hT : T.length = n) (hC : C.length = n)
    (hpos : ∀ c ∈ C, 0 ≤ c) (h : potPayouts n button worst C.sum C T = .ok q) :
    q.length = n ∧ q.sum = C.sum ∧ ∀ x ∈ q, 0 ≤ x := by
  have f := showdown_facts (worst := worst) hT hC hpos
  have hlen := potPayouts_length h
  rw [potPayouts_eq n button worst C T (by rw [hT, hC]) hpos] at h
  have hb : ∀ x ∈ baseList n worst (handList C T), 0 ≤ x := by
    intro x hx
    obtain ⟨i, hi, rfl⟩ := (mem_getD 0).1 hx
    exact base_nonneg f i (by rw [← f.length]; exact hi)
  refine ⟨hlen, ?_⟩
  have hs := f.sum
  have ho := oddSum_nonneg f
  split at h
  · obtain ⟨w, rfl, hw, hne⟩ := oddChips_ok h
    have hwl : w < (baseList n worst (handList C T)).length := by
      have hm : w ∈ (List.range (baseList n worst (handList C T)).length).filter
          fun i => (baseList n worst (handList C T)).getD i 0 ≠ 0 := by
        rw [hw]
        have hsn : shifted n button ((List.range (baseList n worst (handList C T)).length).filter
          fun i => (baseList n worst (handList C T)).getD i 0 ≠ 0) ≠ [] := by unfold shifted; simpa using hne
        obtain ⟨h1, -⟩ := argmin_spec hsn
        have h1' := h1
        rw [show ∀ l, (shifted n button l).length = l.length from fun l => by unfold shifted; simp] at h1'
        rw [getD_eq _ _ _ h1']
        exact List.getElem_mem _
      rw [List.mem_filter, List.mem_range] at hm
      exact hm.1
    constructor
    · rw [sum_modify_add _ _ _ hwl]; omega
    · intro x hx
      obtain ⟨i, hi, rfl⟩ := (mem_getD 0).1 hx
      rw [List.length_modify] at hi
      rw [getD_modify _ _ _ _ _ hi]
      have := hb _ ((mem_getD 0).2 ⟨i, hi, rfl⟩)
      split <;> omega
  · next h0 =>
    simp only [Except.ok.injEq] at h
    subst h
    exact ⟨by omega, hb⟩

theorem evalRound_sum (h : Seated (atSeat d)) (hp : d.pot = d.potCommits.sum)
    (hpos : ∀ i < d.cfg.numPlayers, 0 ≤ contribution d i) {q : List Int} (hq : evalRound d = .ok q) :
    q.length = d.cfg.numPlayers ∧ q.sum = d.potCommits.sum ∧ ∀ x ∈ q, 0 ≤ x := by
  obtain ⟨s, hs, hpp⟩ := evalRound_cases hq
  rw [hp] at hpp
  have hl : d.potCommits.length = d.cfg.numPlayers := h.potCommits
  refine potPayouts_sum (evalHands_length hs) hl ?_ hpp
  intro c hc
  obtain ⟨i, hi, rfl⟩ := (mem_getD 0).1 hc
  exact hpos i (by rw [← hl]; exact hi)

/-- the sum of the payouts at the end of a hand -/
theorem payouts_sum (h : Seated (atSeat d)) (hp : d.pot = d.potCommits.sum)
    (hpos : ∀ i < d.cfg.numPlayers, 0 ≤ contribution d i) {p : List Int} (hq : payouts d = .ok p)
    (hd : (done d).all id = true) (hone : 1 ≤ countTrue d.active) : p.sum = 0 := by
  have hl : d.potCommits.length = d.cfg.numPlayers := h.potCommits
  by_cases hc : countTrue d.active = 1
  · rw [payouts_shared (.inl hc)] at hq
    exact payouts_sum_one h hp hc hq
  · rcases payouts_cases hq with ⟨h1, -⟩ | ⟨-, h2, q, hq2, rfl⟩ | ⟨-, h2, rfl⟩
    · exact absurd h1 hc
    · obtain ⟨g1, g2, g3⟩ := evalRound_sum h hp hpos hq2
      rw [sum_zipWith_sub _ _ (by rw [g1, hl]), g2]
      ring
    · have := (done_all_iff d).1 hd
      omega

end Clubs.Numpy
