import Verif.Lemmas.Bets

/-! # Chips: nothing is negative, sums of payouts -/

namespace Clubs

open Spec

/-- Invariant: contributions are non-negative and cover the street's bet; a stack is only negative before the
seat has acted on the first street. -/
structure NN (d : Dealer) : Prop where
  contrib : ∀ i < d.cfg.numPlayers, 0 ≤ contribution d i
  street : ∀ i < d.cfg.numPlayers, streetBet d i ≤ contribution d i
  neg : ∀ i < d.cfg.numPlayers, stack d i < 0 → d.street = 0 ∧ isIn d i ∧ d.streetOption.getD i false = false

theorem list_getD_nonneg {l : List Int} (h : ∀ x ∈ l, 0 ≤ x) (i : Nat) : 0 ≤ l.getD i 0 := by
  by_cases hi : i < l.length
  · rw [getD_eq _ _ _ hi]; exact h _ (List.getElem_mem _)
  · rw [getD_out _ _ _ (by omega)]

theorem roll_mem {α : Type} {l : List α} {k : Nat} {x : α} (h : x ∈ roll l k) : x ∈ l := by
  unfold roll at h
  split at h
  · exact h
  · rw [List.mem_append] at h
    exact h.elim List.mem_of_mem_drop List.mem_of_mem_take

/-- An active seat's option is not touched when the action passes. -/
theorem moved_option {d d' : Dealer} {a : Nat} (h : Moved d d' a) {i : Nat} (hi : i < d.streetOption.length)
    (hin : isIn d i) : d'.streetOption.getD i false = d.streetOption.getD i false := by
  obtain ⟨k, k1, k2, k3, k4, k5⟩ := h.between
  have := k5 i hi
  have h2 : ¬ ∃ j, 1 ≤ j ∧ j < k ∧ (d.seat + j) % d.cfg.numPlayers = i := by
    rintro ⟨j, j1, j2, rfl⟩
    exact k4 j j1 j2 hin
  simp only [h2, or_false] at this
  exact Bool.eq_iff_iff.2 this

/-- no option is taken away when the action passes -/
theorem moved_option_mono {d d' : Dealer} {a : Nat} (h : Moved d d' a) {i : Nat} (hi : i < d.streetOption.length)
    (ho : d.streetOption.getD i false = true) : d'.streetOption.getD i false = true := by
  obtain ⟨k, k1, k2, k3, k4, k5⟩ := h.between
  exact (k5 i hi).2 (.inl ho)

theorem dealt_nn {d d' : Dealer} {rb rs : Bool} {shuf : Shuffle} {obs : Observation} (h : Seated d)
    (hr : d.reset rb rs shuf = (d', .ok obs)) (hn : NonNegative (startStacks d rs) d'.cfg) : NN d' := by
  have hlive := dealt_live h hr
  obtain ⟨h1, h2, rfl, -⟩ := reset_ok hr
  have hcfg : ((d.posted rb rs shuf).moveAction.moveAction).cfg = d.cfg :=
    show (d.posted rb rs shuf).cfg = d.cfg from (blindStart_same d rb rs shuf).1
  rw [hcfg] at hn
  obtain ⟨c1, c2, -, -, -, -, c3, -, -, c5, c6, c4, c7, -⟩ := blindStart_same d rb rs shuf
  have hcount : 2 ≤ countTrue (d.posted rb rs shuf).active := hlive.2.2
  have hb := blindStart_seated h rb rs shuf
  have hs := posted_seated h rb rs shuf
  have ha : d.cfg.antes.length = (d.blindStart rb rs shuf).cfg.numPlayers := by rw [c1]; exact h.antes
  have hbl : d.cfg.blinds.length = ((d.blindStart rb rs shuf).collectMultipleBets d.cfg.antes false).cfg.numPlayers := by
    show _ = (d.blindStart rb rs shuf).cfg.numPlayers
    rw [c1]; exact h.blinds
  have hb1 := collectMultipleBets_seated hb false ha
  have m1 := collectMultipleBets_money hb false ha
  have m2 := collectMultipleBets_money hb1 true hbl
  -- the forced bets are not negative
  have f1 : ∀ i < d.cfg.numPlayers, 0 ≤ ((d.blindStart rb rs shuf).forcedBets d.cfg.antes).getD i 0 ∧
      (¬ isIn (d.posted rb rs shuf) i → ((d.blindStart rb rs shuf).forcedBets d.cfg.antes).getD i 0 = 0) := by
    intro i hi
    rw [forcedBets_getD hb ha i (by rw [c1]; exact hi)]
    constructor
    · split
      · exact list_getD_nonneg (fun x hx => hn.antes x (roll_mem hx)) i
      · exact le_rfl
    · intro hni
      rw [if_neg]
      rintro ⟨-, hh⟩
      exact hni hh
  have f2 : ∀ i < d.cfg.numPlayers, 0 ≤ (((d.blindStart rb rs shuf).collectMultipleBets d.cfg.antes false).forcedBets
      d.cfg.blinds).getD i 0 ∧ (¬ isIn (d.posted rb rs shuf) i →
        (((d.blindStart rb rs shuf).collectMultipleBets d.cfg.antes false).forcedBets d.cfg.blinds).getD i 0 = 0) := by
    intro i hi
    rw [forcedBets_getD hb1 hbl i (by show i < (d.blindStart rb rs shuf).cfg.numPlayers; rw [c1]; exact hi)]
    constructor
    · split
      · exact list_getD_nonneg (fun x hx => hn.blinds x (roll_mem hx)) i
      · exact le_rfl
    · intro hni
      rw [if_neg]
      rintro ⟨-, hh⟩
      exact hni hh
  have e0 : ∀ i < d.cfg.numPlayers, stack (d.blindStart rb rs shuf) i = (startStacks d rs).getD i 0 ∧
      contribution (d.blindStart rb rs shuf) i = 0 ∧ streetBet (d.blindStart rb rs shuf) i = 0 := by
    intro i hi
    refine ⟨by unfold stack; rw [c6]; rfl, ?_, ?_⟩
    · unfold contribution; rw [c5]; exact getD_replicate _ _ _ _ hi
    · unfold streetBet; rw [c7]; exact getD_replicate _ _ _ _ hi
  have hfin : ∀ i < d.cfg.numPlayers,
      contribution (d.posted rb rs shuf) i = ((d.blindStart rb rs shuf).forcedBets d.cfg.antes).getD i 0 +
        (((d.blindStart rb rs shuf).collectMultipleBets d.cfg.antes false).forcedBets d.cfg.blinds).getD i 0 ∧
      streetBet (d.posted rb rs shuf) i =
        (((d.blindStart rb rs shuf).collectMultipleBets d.cfg.antes false).forcedBets d.cfg.blinds).getD i 0 := by
    intro i hi
    have g1 := m1.1 i (by rw [c1]; exact hi)
    have g2 := m2.1 i (by show i < (d.blindStart rb rs shuf).cfg.numPlayers; rw [c1]; exact hi)
    obtain ⟨-, e2, e3⟩ := e0 i hi
    unfold Dealer.posted
    constructor
    · rw [g2.2.1, g1.2.1, e2]; ring
    · rw [g2.2.2, g1.2.2, e3]; simp
  have hm := posted_money h rb rs shuf
  -- options after the moves
  have hmv1 := moveAction_spec (d := d.posted rb rs shuf) hs.active (by omega)
  have hmv2 := moveAction_spec (d := (d.posted rb rs shuf).moveAction) (moveAction_seated hs).active
    (show 1 ≤ countTrue (d.posted rb rs shuf).active by omega)
  have hopt : ∀ i < d.cfg.numPlayers, isIn (d.posted rb rs shuf) i →
      (d.posted rb rs shuf).moveAction.moveAction.streetOption.getD i false = false := by
    intro i hi hin
    obtain ⟨a1, hmv1⟩ := hmv1
    obtain ⟨a2, hmv2⟩ := hmv2
    have hl : (d.posted rb rs shuf).streetOption.length = d.cfg.numPlayers := by
      rw [hs.streetOption]; exact congrArg Config.numPlayers c1
    rw [moved_option hmv2 (by rw [hmv1.length, hl]; exact hi) hin, moved_option hmv1 (by rw [hl]; exact hi) hin]
    show (d.blindStart rb rs shuf).streetOption.getD i false = false
    unfold Dealer.blindStart
    split
    · obtain ⟨a3, hmv3⟩ := moveAction_spec (d := d.fresh rb rs shuf) (fresh_seated h rb rs shuf).active (by
        have := fresh_active_count h (shuf := shuf) (rb := rb) h1; omega)
      have hin2 : isIn (d.fresh rb rs shuf) i := by
        have : (d.posted rb rs shuf).active = (d.fresh rb rs shuf).active := c2
        unfold isIn at *
        rw [← this]; exact hin
      rw [moved_option hmv3 (by rw [(fresh_seated h rb rs shuf).streetOption]; exact hi) hin2]
      exact getD_replicate _ _ _ _ hi
    · exact getD_replicate _ _ _ _ hi
  refine ⟨?_, ?_, ?_⟩
  · intro i hi
    rw [hcfg] at hi
    show 0 ≤ contribution (d.posted rb rs shuf) i
    rw [(hfin i hi).1]
    have := (f1 i hi).1
    have := (f2 i hi).1
    omega
  · intro i hi
    rw [hcfg] at hi
    show streetBet (d.posted rb rs shuf) i ≤ contribution (d.posted rb rs shuf) i
    rw [(hfin i hi).1, (hfin i hi).2]
    have := (f1 i hi).1
    omega
  · intro i hi hneg
    rw [hcfg] at hi
    change stack (d.posted rb rs shuf) i < 0 at hneg
    have hin : isIn (d.posted rb rs shuf) i := by
      by_contra hni
      have e1 := hm.1 i hi
      rw [(hfin i hi).1, (f1 i hi).2 hni, (f2 i hi).2 hni] at e1
      have := list_getD_nonneg hn.start i
      omega
    exact ⟨hlive.2.1, hin, hopt i hi hin⟩

/-- the size of the bet that is recorded -/
def betOf (fold : Bool) (call bet : Int) : Int := if call ≠ 0 ∧ (bet < call ∨ fold = true) then 0 else bet

theorem acted_nums {d : Dealer} (h : Seated d) (fold : Bool) (call bet : Int) (i : Nat) (hi : i < d.cfg.numPlayers) :
    stack (d.acted fold call bet) i = stack d i - (if d.seat = i then min (stack d d.seat) (betOf fold call bet) else 0) ∧
    contribution (d.acted fold call bet) i =
      contribution d i + (if d.seat = i then min (stack d d.seat) (betOf fold call bet) else 0) ∧
    streetBet (d.acted fold call bet) i =
      streetBet d i + (if d.seat = i then min (stack d d.seat) (betOf fold call bet) else 0) ∧
    (d.acted fold call bet).streetOption.getD i false = (if d.seat = i then true else d.streetOption.getD i false) := by
  unfold stack contribution streetBet Dealer.acted
  simp only []
  rw [getD_modify _ _ _ _ _ (by rw [h.stacks]; exact hi), getD_modify _ _ _ _ _ (by rw [h.potCommits]; exact hi),
    getD_modify _ _ _ _ _ (by rw [h.streetCommits]; exact hi), getD_set _ _ _ _ _ (by rw [h.streetOption]; exact hi)]
  refine ⟨?_, ?_, ?_, ?_⟩
  · split
    · rfl
    · ring
  · split
    · rfl
    · ring
  · split
    · rfl
    · ring
  · rfl

theorem acted_isIn {d : Dealer} (h : Seated d) (fold : Bool) (call bet : Int) (i : Nat) (hi : i < d.cfg.numPlayers) :
    isIn (d.acted fold call bet) i ↔ isIn d i ∧ ¬ (d.seat = i ∧ call ≠ 0 ∧ (bet < call ∨ fold = true)) := by
  unfold isIn Dealer.acted
  simp only []
  split
  · next hf =>
    rw [getD_set _ _ _ _ _ (by rw [h.active]; exact hi)]
    by_cases hs : d.seat = i
    · simp only [hs, if_true]
      constructor
      · intro h; simp at h
      · rintro ⟨-, h2⟩; exact absurd ⟨trivial, hf⟩ h2
    · simp [hs]
  · next hf =>
    constructor
    · intro h2; exact ⟨h2, fun h3 => hf h3.2⟩
    · exact fun h => h.1

/-- After a bet the action moves on, and the round ends or goes on. -/
theorem afterBet_cases (d : Dealer) (fold : Bool) (call bet : Int) :
    ((d.acted fold call bet).moveAction.allAgreed = false ∧
      d.afterBet fold call bet = (d.acted fold call bet).moveAction) ∨
    ((d.acted fold call bet).moveAction.allAgreed = true ∧
      d.afterBet fold call bet = (d.acted fold call bet).moveAction.nextStreet) := by
  unfold Dealer.afterBet
  rw [act_eq]
  cases h : (d.acted fold call bet).moveAction.allAgreed <;> simp

theorem nextStreet_fields (d : Dealer) :
    d.nextStreet.streetCommits = List.replicate d.nextStreet.cfg.numPlayers 0 ∧
    d.nextStreet.streetOption = d.nextStreet.active.map (fun a => !a) ∧ d.nextStreet.streetRaises = 0 ∧
    d.nextStreet.cfg = d.cfg ∧ d.nextStreet.active = d.active ∧ d.nextStreet.stacks = d.stacks ∧
    d.nextStreet.potCommits = d.potCommits ∧ d.nextStreet.pot = d.pot ∧ d.nextStreet.button = d.button ∧
    d.nextStreet.largestRaise = d.largestRaise ∧ d.nextStreet.history = d.history ∧
    d.nextStreet.holeCards = d.holeCards := by
  unfold Dealer.nextStreet
  simp only []
  generalize hg : Dealer.moveAction { d with action := some d.button } = g
  have h3 := dealStreets_fields (g.cfg.numStreets + 1) g
  generalize dealStreets (g.cfg.numStreets + 1) g = f at h3 ⊢
  rw [h3]
  subst hg
  refine ⟨?_, ?_, ?_, ?_, ?_, ?_, ?_, ?_, ?_, ?_, ?_, ?_⟩ <;> first | rfl | trivial

/-- The street after an agreed round -/
theorem nextStreet_street {d : Dealer} (h : d.street < d.cfg.numStreets) :
    d.nextStreet.street = if d.allAllIn = true then d.cfg.numStreets else d.street + 1 := by
  unfold Dealer.nextStreet
  simp only []
  generalize hg : Dealer.moveAction { d with action := some d.button } = g
  have g1 : g.cfg = d.cfg := by rw [← hg]; rfl
  have g2 : g.street = d.street := by rw [← hg]; rfl
  have g3 : g.allAllIn = d.allAllIn := allAllIn_congr (by rw [← hg]; rfl) (by rw [← hg]; rfl)
  show (dealStreets (g.cfg.numStreets + 1) g).street = _
  rw [dealStreets_street (g.cfg.numStreets + 1) g (by rw [g1, g2]; exact h) (by omega), g1, g2, g3]

theorem allAgreed_options {d : Dealer} (h : d.allAgreed = true) (i : Nat) (hi : i < d.streetOption.length) :
    d.streetOption.getD i false = true := by
  unfold Dealer.allAgreed at h
  by_cases ho : d.streetOption.all id = true
  · exact (all_getD false).1 ho i hi
  · simp [ho] at h

theorem betOf_nonneg {d : Dealer} (hd : Seated d) (hp : 0 ≤ d.pot) {b c lo hi : Int} (h : d.betSizes = .ok (c, lo, hi))
    (fold : Bool) : 0 ≤ betOf fold c (cleanBet b c lo hi) := by
  unfold betOf
  split
  · exact le_rfl
  · exact cleanBet_nonneg (betSizes_lo_hi hd hp h)

theorem nn_pot {S : List Int} {d : Dealer} (h : Live S d) (hn : NN d) : 0 ≤ d.pot := by
  rw [h.pot, sum_eq_range]
  apply List.sum_nonneg
  intro x hx
  rw [List.mem_map] at hx
  obtain ⟨i, hi, rfl⟩ := hx
  exact hn.contrib i (by rw [← h.seated.potCommits]; simpa using hi)

theorem afterBet_nn {S : List Int} {d : Dealer} {fold : Bool} {b c lo hi : Int} (hl : Live S d)
    (hS : ∀ s ∈ S, 0 ≤ s) (hc2 : 2 ≤ countTrue d.active)
    (hn : NN d) (hb : d.betSizes = .ok (c, lo, hi)) : NN (d.afterBet fold c (cleanBet b c lo hi)) := by
  have hd := hl.seated
  have hpot := nn_pot hl hn
  have hbet := betOf_nonneg (b := b) hd hpot hb fold
  generalize hx : cleanBet b c lo hi = x at *
  obtain ⟨a, ha, hain⟩ := hl.action
  have hseat : d.seat = a := by unfold Dealer.seat; rw [ha]; rfl
  have hcnt := acted_count hd ha hain hc2 fold c x
  have hs := acted_seated hd fold c x
  have hnums := acted_nums hd fold c x
  have hslt := seat_lt hd
  -- amounts for the seat that acted
  have hnn : NN (d.acted fold c x) := by
    refine ⟨?_, ?_, ?_⟩
    · intro i hi
      change i < d.cfg.numPlayers at hi
      rw [(hnums i hi).2.1]
      have h1 := hn.contrib i hi
      by_cases hsi : d.seat = i
      · rw [if_pos hsi]
        have h2 := hl.money i hi
        have h3 := list_getD_nonneg hS i
        rw [hsi]
        by_cases h4 : stack d i < 0
        · rw [min_eq_left (by omega)]; omega
        · omega
      · rw [if_neg hsi]; omega
    · intro i hi
      change i < d.cfg.numPlayers at hi
      rw [(hnums i hi).2.1, (hnums i hi).2.2.1]
      have := hn.street i hi
      omega
    · intro i hi hneg
      change i < d.cfg.numPlayers at hi
      rw [(hnums i hi).1] at hneg
      by_cases hsi : d.seat = i
      · rw [if_pos hsi, hsi] at hneg
        have := min_le_left (stack d i) (betOf fold c x)
        omega
      · rw [if_neg hsi] at hneg
        obtain ⟨h1, h2, h3⟩ := hn.neg i hi (by omega)
        refine ⟨h1, ?_, ?_⟩
        · rw [acted_isIn hd fold c x i hi]
          exact ⟨h2, fun h => hsi h.1⟩
        · rw [(hnums i hi).2.2.2, if_neg hsi]; exact h3
  obtain ⟨a2, hmv⟩ := moveAction_spec (d := d.acted fold c x) hs.active hcnt
  have hnn2 : NN (d.acted fold c x).moveAction := by
    refine ⟨hnn.contrib, hnn.street, ?_⟩
    intro i hi hneg
    obtain ⟨h1, h2, h3⟩ := hnn.neg i hi hneg
    refine ⟨h1, h2, ?_⟩
    rw [moved_option hmv (by rw [hs.streetOption]; exact hi) h2]
    exact h3
  rcases afterBet_cases d fold c x with ⟨-, h2⟩ | ⟨h1, h2⟩
  · rw [h2]; exact hnn2
  · rw [h2]
    obtain ⟨f1, f2, f3, f4, f5, f6, f7, f8, -⟩ := nextStreet_fields (d.acted fold c x).moveAction
    refine ⟨?_, ?_, ?_⟩
    · intro i hi
      unfold contribution
      rw [f7]
      exact hnn2.contrib i (by rw [← f4]; exact hi)
    · intro i hi
      unfold contribution streetBet
      rw [f7, f1, getD_replicate _ _ _ _ hi]
      exact hnn2.contrib i (by rw [← f4]; exact hi)
    · intro i hi hneg
      exfalso
      unfold stack at hneg
      rw [f6] at hneg
      rw [f4] at hi
      obtain ⟨-, -, h3⟩ := hnn2.neg i hi hneg
      have := allAgreed_options h1 i (by rw [(moveAction_seated hs).streetOption]; exact hi)
      rw [this] at h3
      simp at h3

/-! ## sums of payouts -/

theorem sum_map_neg {α : Type} (l : List α) (f : α → Int) : (l.map fun i => - f i).sum = - (l.map f).sum := by
  induction l with
  | nil => simp
  | cons a l ih => simp only [List.map_cons, List.sum_cons, ih]; ring

theorem sum_map_add {α : Type} (l : List α) (f g : α → Int) :
    (l.map fun i => f i + g i).sum = (l.map f).sum + (l.map g).sum := by
  induction l with
  | nil => simp
  | cons a l ih => simp only [List.map_cons, List.sum_cons, ih]; ring

theorem lost_sum {d : Dealer} (h : Seated d) : (lostList d).sum = - foldedChips d := by
  rw [sum_eq_range]
  have hl : (lostList d).length = d.cfg.numPlayers := by simp [lostList, h.potCommits, h.active]
  rw [hl]
  unfold foldedChips
  rw [← sum_map_neg]
  congr 1
  apply List.map_congr_left
  intro i hi
  rw [List.mem_range] at hi
  unfold lostList contribution
  rw [getD_zipWith _ _ _ _ 0 false _ (by rw [h.potCommits]; exact hi) (by rw [h.active]; exact hi)]
  split <;> ring

theorem winner_sum (act : List Bool) (cs : List Int) (hl : act.length = cs.length) (P : Int) :
    (List.zipWith (fun (a : Bool) c => if a then P - c else 0) act cs).sum =
      P * (countTrue act : Int) - (List.zipWith (fun (a : Bool) c => if a then c else 0) act cs).sum := by
  induction act generalizing cs with
  | nil => simp [countTrue]
  | cons a act ih =>
    cases cs with
    | nil => simp at hl
    | cons c cs =>
      have := ih cs (by simpa using hl)
      simp only [List.zipWith_cons_cons, List.sum_cons, this]
      cases a
      · simp [countTrue]
      · simp only [if_true, countTrue, List.count_cons_self]
        push_cast; ring

theorem lost_won_sum (act : List Bool) (cs : List Int) (hl : act.length = cs.length) :
    (List.zipWith (fun c (a : Bool) => if a then 0 else -1 * c) cs act).sum -
      (List.zipWith (fun (a : Bool) c => if a then c else 0) act cs).sum = - cs.sum := by
  induction act generalizing cs with
  | nil =>
    cases cs with
    | nil => simp
    | cons c cs => simp at hl
  | cons a act ih =>
    cases cs with
    | nil => simp at hl
    | cons c cs =>
      have := ih cs (by simpa using hl)
      simp only [List.zipWith_cons_cons, List.sum_cons]
      cases a <;> simp only [if_true, if_false, Bool.false_eq_true] <;> linarith

/-- one player left: the payouts sum to zero -/
theorem payouts_sum_one {d : Dealer} (h : Seated d) (hp : d.pot = d.potCommits.sum) (hc : countTrue d.active = 1)
    {p : List Int} (hq : d.payouts = .ok p) : p.sum = 0 := by
  rcases payouts_cases hq with ⟨-, rfl⟩ | ⟨h1, -⟩ | ⟨h1, -⟩
  · rw [sum_zipWith_add _ _ (by simp [lostList, h.potCommits, h.active]),
      winner_sum _ _ (by rw [h.active, h.potCommits]), hc]
    have := lost_won_sum d.active d.potCommits (by rw [h.active, h.potCommits])
    unfold lostList
    rw [hp]
    push_cast
    linarith
  · exact absurd hc h1
  · exact absurd hc h1

theorem evalRound_sum {d : Dealer} (h : Seated d) (hp : d.pot = d.potCommits.sum)
    (hpos : ∀ i < d.cfg.numPlayers, 0 ≤ contribution d i) {q : List Int} (hq : d.evalRound = .ok q) :
    q.length = d.cfg.numPlayers ∧ q.sum = d.potCommits.sum ∧ ∀ x ∈ q, 0 ≤ x := by
  obtain ⟨s, hs, hpp⟩ := evalRound_cases hq
  rw [hp] at hpp
  refine potPayouts_sum (evalHands_length hs) h.potCommits ?_ hpp
  intro c hc
  obtain ⟨i, hi, rfl⟩ := (mem_getD 0).1 hc
  exact hpos i (by rw [← h.potCommits]; exact hi)

/-- The sum of the payouts -/
theorem payouts_sum {d : Dealer} (h : Seated d) (hp : d.pot = d.potCommits.sum)
    (hpos : ∀ i < d.cfg.numPlayers, 0 ≤ contribution d i) {p : List Int} (hq : d.payouts = .ok p) :
    p.sum = if countTrue d.active ≠ 1 ∧ d.street < d.cfg.numStreets then - foldedChips d else 0 := by
  by_cases hc : countTrue d.active = 1
  · rw [if_neg (fun hh => hh.1 hc)]; exact payouts_sum_one h hp hc hq
  · rcases payouts_cases hq with ⟨h1, -⟩ | ⟨-, h2, q, hq2, rfl⟩ | ⟨-, h2, rfl⟩
    · exact absurd h1 hc
    · rw [if_neg (by omega)]
      obtain ⟨g1, g2, g3⟩ := evalRound_sum h hp hpos hq2
      rw [sum_zipWith_sub _ _ (by rw [g1, h.potCommits]), g2]
      ring
    · rw [if_pos ⟨hc, h2⟩]; exact lost_sum h

theorem settle_sum {d : Dealer} (h : Seated d) {p : List Int} (hp : p.length = d.cfg.numPlayers) :
    allChips (d.settle p) = d.stacks.sum + p.sum + d.potCommits.sum := by
  unfold allChips Dealer.settle
  simp only []
  rw [sum_zipWith_add _ _ (by simp [h.stacks, hp, h.potCommits]), sum_zipWith_add _ _ (by rw [h.stacks, hp])]
  ring

theorem settle_stack {d : Dealer} (h : Seated d) {p : List Int} (hp : p.length = d.cfg.numPlayers) (i : Nat)
    (hi : i < d.cfg.numPlayers) : stack (d.settle p) i = stack d i + p.getD i 0 + contribution d i := by
  unfold stack Dealer.settle contribution
  simp only []
  rw [getD_zipWith _ _ _ _ 0 0 _ (by simp [h.stacks, hp, hi]) (by rw [h.potCommits]; exact hi),
    getD_zipWith _ _ _ _ 0 0 _ (by rw [h.stacks]; exact hi) (by rw [hp]; exact hi)]

/-- Chips in a live hand are the chips at its start. -/
theorem live_chips {S : List Int} {d : Dealer} (h : Live S d) : allChips d = S.sum := by
  unfold allChips
  rw [h.pot, sum_eq_range d.stacks, sum_eq_range d.potCommits, sum_eq_range S, h.seated.stacks, h.seated.potCommits,
    h.startLen, ← sum_map_add]
  congr 1
  apply List.map_congr_left
  intro i hi
  rw [List.mem_range] at hi
  exact h.money i hi

end Clubs
