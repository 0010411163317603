import Verif.Lemmas.Words

/-! # With few chips the widths make no difference -/

namespace Clubs.Numpy

open Spec

variable {sc : Int → Int} {S : List Int} {d : Dealer}

theorem betSizesM_eq {total : Int} (hf : FewChips sc total d.cfg) (h : Ranged (reach total d.cfg) d) : betSizesM sc d = betSizes d := by
  have hw := hf.words
  have hc := h.call
  have hl := h.raise
  have hp := h.pot
  unfold betSizesM betSizes Dealer.betSizes
  simp only []
  rw [int32_id (by omega) (by omega)]
  generalize pyMax d.streetCommits - d.streetCommits.getD d.seat 0 = call at hc
  cases hr : d.cfg.raiseSizes[d.street]? with
  | none => rfl
  | some r =>
    have hmem := List.mem_of_getElem? hr
    simp only []
    cases r with
    | int n => simp only []; rw [hf.fixed n hmem (n + call) (by omega) (by omega)]; rfl
    | pot =>
      simp only []
      rw [hf.single (d.largestRaise + call) (by omega) (by omega), hf.single (call * 2) (by omega) (by omega),
        hf.single (d.pot + call * 2) (by omega) (by omega)]
      rfl
    | inf =>
      simp only []
      rw [hf.single (d.largestRaise + call) (by omega) (by omega)]
      rfl

theorem observationM_eq {b : Bool} (h : b = true ∨ betSizesM sc d = betSizes d) : observationM sc d b = observation d b := by
  unfold observationM observation Dealer.observation
  rcases h with rfl | h
  · simp only [if_true]
    cases pyGet d.holeCards (match d.action with | some a => (a : Int) | none => -1) <;> rfl
  · rw [h, show betSizes d = d.betSizes from rfl]
    cases (if b = true then Except.ok (0, 0, 0) else d.betSizes : Except Err (Int × Int × Int)) with
    | error e => rfl
    | ok s =>
      obtain ⟨c, lo, hi⟩ := s
      simp only []
      cases pyGet d.holeCards (match d.action with | some a => (a : Int) | none => -1) <;> rfl

theorem lostM_eq {M : Int} (hM : M < 2 ^ 31) {C : List Int} (hC : ∀ x ∈ C, 0 ≤ x ∧ x ≤ M) (A : List Bool) :
    List.zipWith (fun (c : Int) (a : Bool) => int32 (-1 * c * (if !a then 1 else 0))) C A =
      List.zipWith (fun (c : Int) (a : Bool) => -1 * c * (if !a then 1 else 0)) C A := by
  induction C generalizing A with
  | nil => simp
  | cons c C ih =>
    cases A with
    | nil => simp
    | cons a A =>
      have h1 := hC c List.mem_cons_self
      simp only [List.zipWith_cons_cons]
      rw [ih (fun x hx => hC x (List.mem_cons_of_mem _ hx)) A]
      congr 1
      cases a
      · simp only [Bool.not_false, if_true]; exact int32_id (by omega) (by omega)
      · simp only [Bool.not_true, Bool.false_eq_true, if_false]; exact int32_id (by omega) (by omega)

theorem wonM_eq {M pot : Int} (hM : M < 2 ^ 31) {C : List Int} (hC : ∀ x ∈ C, 0 ≤ x ∧ x ≤ M) (hp : 0 ≤ pot ∧ pot ≤ M) (A : List Bool) :
    List.zipWith (fun x y => int32 (x + y)) (List.zipWith (fun (c : Int) (a : Bool) => -1 * c * (if !a then 1 else 0)) C A)
        (List.zipWith (fun (a : Bool) (c : Int) => (if a then 1 else 0) * (pot - c)) A C) =
      List.zipWith (· + ·) (List.zipWith (fun (c : Int) (a : Bool) => -1 * c * (if !a then 1 else 0)) C A)
        (List.zipWith (fun (a : Bool) (c : Int) => (if a then 1 else 0) * (pot - c)) A C) := by
  induction C generalizing A with
  | nil => simp
  | cons c C ih =>
    cases A with
    | nil => simp
    | cons a A =>
      have h1 := hC c List.mem_cons_self
      simp only [List.zipWith_cons_cons]
      rw [ih (fun x hx => hC x (List.mem_cons_of_mem _ hx)) A]
      congr 1
      cases a
      · simp only [Bool.not_false, if_true, Bool.false_eq_true, if_false]; exact int32_id (by omega) (by omega)
      · simp only [Bool.not_true, if_true, Bool.false_eq_true, if_false]; exact int32_id (by omega) (by omega)

theorem payoutsM_eq {M : Int} (hM : M < 2 ^ 31) (hC : ∀ x ∈ d.potCommits, 0 ≤ x ∧ x ≤ M) (hp : 0 ≤ d.pot ∧ d.pot ≤ M) :
    payoutsM d = payouts d := by
  unfold payoutsM payouts
  simp only []
  rw [lostM_eq hM hC, wonM_eq hM hC hp]
  cases evalRound d <;> rfl

theorem actM_eq {w fold : Bool} {c b : Int} (h1 : betOf fold c b = 0 ∨ sc (betOf fold c b - c) = betOf fold c b - c)
    (h2 : InWords (d.acted fold c b)) (h3 : sc (d.acted fold c b).pot = (d.acted fold c b).pot) :
    actM sc w d fold c b = act d fold c b := by
  have key : ∀ e : Dealer, e.streetCommits = d.streetCommits → e.potCommits = d.potCommits → e.stacks = d.stacks →
      e.pot = d.pot → e.seat = d.seat →
      collectBetM sc w e (betOf fold c b) = collectBet e (betOf fold c b) := by
    intro e e1 e2 e3 e4 e5
    have g1 : (collectBet e (betOf fold c b)).pot = (d.acted fold c b).pot := by
      show e.pot + min (e.stacks.getD e.seat 0) _ = d.pot + min (d.stacks.getD d.seat 0) (betOf fold c b)
      rw [e3, e4, e5]
    unfold collectBetM
    simp only []
    rw [g1, h3, ← g1]
    refine store_id ⟨?_, ?_, ?_⟩
    · show ∀ x ∈ e.streetCommits.modify e.seat (· + min (e.stacks.getD e.seat 0) (betOf fold c b)), _
      rw [e1, e3, e5]; exact h2.street
    · show ∀ x ∈ e.potCommits.modify e.seat (· + min (e.stacks.getD e.seat 0) (betOf fold c b)), _
      rw [e2, e3, e5]; exact h2.contrib
    · show ∀ x ∈ e.stacks.modify e.seat (· - min (e.stacks.getD e.seat 0) (betOf fold c b)), _
      rw [e3, e5]; exact h2.stack
  unfold actM act
  simp only []
  rw [show (if c ≠ 0 ∧ (b < c ∨ fold = true) then 0 else b) = betOf fold c b from rfl]
  generalize hx : (if c ≠ 0 ∧ (b < c ∨ fold = true) then { d with active := d.active.set d.seat false } else d) = x
  have hx' : x.streetCommits = d.streetCommits ∧ x.potCommits = d.potCommits ∧ x.stacks = d.stacks ∧ x.pot = d.pot ∧ x.seat = d.seat := by
    rw [← hx]; split <;> exact ⟨rfl, rfl, rfl, rfl, rfl⟩
  obtain ⟨x1, x2, x3, x4, x5⟩ := hx'
  rcases h1 with h1 | h1
  · have k := key x x1 x2 x3 x4 x5
    rw [h1] at k ⊢
    simp only [ne_eq, not_true_eq_false, false_and, if_false]
    rw [k]
  · rw [h1]
    split
    · rw [key { x with largestRaise := betOf fold c b - c, streetRaises := x.streetRaises + 1 } x1 x2 x3 x4 x5]
    · rw [key x x1 x2 x3 x4 x5]

theorem small_of (h : ArrayInHand S d) (hn : NonNegative S d.cfg) (hs : SizesOk d.cfg) :
    (Small (forcedTotal d.cfg) S (atSeat d) ∧ NN (atSeat d) ∧ Live S (atSeat d) ∧
      (d.street < d.cfg.numStreets → 2 ≤ countTrue d.active)) ∨
    ∃ e p, d = e.settle p ∧ Small (forcedTotal e.cfg) S (atSeat e) ∧ NN (atSeat e) ∧ Live S (atSeat e) ∧ payouts e = .ok p ∧
      (done e).all id = true := by
  have := array_induct (P := fun S x => NonNegative S x.cfg → SizesOk x.cfg → NN x ∧ Small (forcedTotal x.cfg) S x)
    (fun d d' rb rs shuf obs hd hs hr hn _ => ⟨dealt_nn hd hr hn, dealt_small hd hr hn⟩)
    (fun S x fold b c lo hi hl hst h2 ih hb hf hn hs => by
      rw [Clubs.afterBet_cfg] at hn hs ⊢
      obtain ⟨i1, i2⟩ := ih hn hs
      rw [afterBet_clean hl.seated (nn_pot hl i1) hs hb hf]
      have hD : 0 ≤ forcedTotal x.cfg := by
        have := List.sum_nonneg hn.antes
        have := List.sum_nonneg hn.blinds
        unfold forcedTotal; omega
      exact ⟨afterBet_nn hl hn.start h2 i1 hb, (afterBet_small hD hl i1 hn.start i2 hb).1⟩) h
  rcases this with ⟨h1, h2⟩ | ⟨e, p, rfl, h1, h2⟩
  · exact .inl ⟨(h1 hn hs).2, (h1 hn hs).1, h2⟩
  · exact .inr ⟨e, p, rfl, (h1 hn hs).2, (h1 hn hs).1, h2⟩

theorem finishM_eq {w : Bool} {total : Int} (hf : FewChips sc total d.cfg) (h : Ranged (reach total d.cfg) d)
    (hs : ∀ p, payouts d = .ok p → (done d).all id = true → ∀ x ∈ (d.settle p).stacks, InWord x) :
    finishM sc w d = finish d := by
  unfold finishM finish
  simp only []
  rw [payoutsM_eq hf.words h.contrib h.pot]
  cases hp : payouts d with
  | error e => rfl
  | ok p =>
    simp only []
    by_cases hd : (done d).all id = true
    · simp only [hd, if_true]
      have h1 := hs p hp hd
      have h2 : (d.settle p).stacks = List.zipWith (· + ·) d.stacks (List.zipWith (· + ·) p d.potCommits) := by
        show List.zipWith (· + ·) (List.zipWith (· + ·) d.stacks p) d.potCommits = _
        rw [zipWith_add_assoc]
      rw [h2] at h1
      rw [map_stackWord h1]
      simp only [observationM_eq (sc := sc) (b := true) (.inl rfl)]
      rfl
    · simp only [hd, Bool.false_eq_true, if_false]
      simp only [observationM_eq (sc := sc) (b := false) (.inr (betSizesM_eq hf h))]
      rfl

/-- after a bet the numbers are in range, before and after the street is closed -/
theorem afterBet_ranged {a : Nat} {bet : PyNum} {b c lo hi : Int} (h : ArrayInHand S d) (hn : NonNegative S d.cfg)
    (hz : SizesOk d.cfg) (hbb : d.cfg.bigBlind ≤ reach S.sum d.cfg) (ha : d.action = some a) (hb : pyRound bet = .ok b)
    (hs : d.betSizes = .ok (c, lo, hi)) :
    Ranged (reach S.sum d.cfg) (afterBet d bet.isNeg c (cleanBet b c lo hi)) ∧
    (∀ x ∈ (d.acted bet.isNeg c (cleanBet b c lo hi)).streetCommits, -reach S.sum d.cfg ≤ x ∧ x ≤ reach S.sum d.cfg) ∧
    (betOf bet.isNeg c (cleanBet b c lo hi) = 0 ∨ (0 ≤ betOf bet.isNeg c (cleanBet b c lo hi) - c ∧
      betOf bet.isNeg c (cleanBet b c lo hi) - c ≤ S.sum)) := by
  rcases small_of h hn hz with ⟨hsm, hnn, hl, h2⟩ | ⟨e, p, rfl, -⟩
  · have htwo : 2 ≤ d.cfg.numPlayers := hl.seated.two
    have hst : d.street < d.cfg.numStreets := by
      by_contra hcon
      rw [show d.betSizes = (atSeat d).betSizes from rfl,
        betSizes_error hl.seated (show d.cfg.numStreets ≤ d.street by omega)] at hs
      simp at hs
    have hs' : (atSeat d).betSizes = .ok (c, lo, hi) := hs
    have hsame := clean_same hl.seated (nn_pot hl hnn) hz hs' (isNeg_of_round hb)
    have hbo : betOf bet.isNeg c (cleanBet b c lo hi) = betOf bet.isNeg c (Clubs.cleanBet b c lo hi) := by
      unfold betOf
      rcases hsame with ⟨g1, g2⟩ | g
      · rw [if_pos g1, if_pos g2]
      · rw [g]
    have hD : 0 ≤ forcedTotal d.cfg := by
      have := List.sum_nonneg hn.antes
      have := List.sum_nonneg hn.blinds
      unfold forcedTotal; omega
    obtain ⟨k1, k2⟩ := afterBet_small (fold := bet.isNeg) (b := b) hD hl hnn hn.start hsm hs'
    have hl2 := afterBet_live hl hst (h2 hst) bet.isNeg c (Clubs.cleanBet b c lo hi)
    have hn2 := afterBet_nn (fold := bet.isNeg) (b := b) hl hn.start (h2 hst) hnn hs'
    have hcfg : ((atSeat d).afterBet bet.isNeg c (Clubs.cleanBet b c lo hi)).cfg = d.cfg := Clubs.afterBet_cfg _ _ _ _
    have hr := ranged_of hl2 hn2 (by rw [hcfg]; exact hn) (by rw [hcfg]; exact hz) (by rw [hcfg]; exact k1) (by rw [hcfg]; exact hbb)
    have he : atSeat (afterBet d bet.isNeg c (cleanBet b c lo hi)) =
        (atSeat d).afterBet bet.isNeg c (Clubs.cleanBet b c lo hi) := by
      rw [afterBet_atSeat (by omega), afterBet_clean hl.seated (nn_pot hl hnn) hz hs' (isNeg_of_round hb)]
    rw [hcfg, ← he] at hr
    refine ⟨⟨hr.street, hr.contrib, hr.stack, hr.call, hr.raise, hr.pot⟩, ?_, ?_⟩
    · have hac : (d.acted bet.isNeg c (cleanBet b c lo hi)).streetCommits =
          ((atSeat d).acted bet.isNeg c (Clubs.cleanBet b c lo hi)).streetCommits := by
        rw [← acted_congr (atSeat d) hsame]; rfl
      rw [hac]
      intro x hx
      have hsa := acted_seated hl.seated bet.isNeg c (Clubs.cleanBet b c lo hi)
      obtain ⟨i, hi', rfl⟩ := (mem_getD 0).1 hx
      rw [hsa.streetCommits] at hi'
      have g1 := k2 i hi'
      obtain ⟨n1, n2, n3, n4⟩ := acted_nums hl.seated bet.isNeg c (Clubs.cleanBet b c lo hi) i hi'
      have g2 := hnn.street i hi'
      have g3 := (contribution_afterBet hl.seated bet.isNeg c (Clubs.cleanBet b c lo hi) i hi').1
      obtain ⟨m1, m2⟩ := small_money hl2 hn2 (by rw [← hcfg] at k1; exact k1)
      have m3 := m2 i (by rw [hcfg]; exact hi')
      have hS := List.sum_nonneg hn.start
      have : reach S.sum d.cfg = S.sum + 2 * forcedTotal d.cfg := rfl
      rw [hcfg] at m1
      change -forcedTotal d.cfg ≤ List.getD _ i 0 at g1
      change List.getD _ i 0 = streetBet (atSeat d) i + _ at n3
      omega
    · rw [hbo]
      exact betOf_range (b := b) hl hnn hn.start hs' bet.isNeg
  · simp [Dealer.settle] at ha

theorem ended_words (h : ArrayInHand S d) (hn : NonNegative S d.cfg) (hz : SizesOk d.cfg) (ha : d.action = none)
    (hw : reach S.sum d.cfg < 2 ^ 31) (hc : allChips d = S.sum) : ∀ x ∈ d.stacks, InWord x := by
  obtain ⟨h1, h2⟩ := seated_of_ended h ha
  have h3 := C69_after_hand h hn hz ha
  have hpos : ∀ x ∈ d.stacks, 0 ≤ x := by
    intro x hx
    obtain ⟨i, hi, rfl⟩ := (mem_getD 0).1 hx
    exact h3 i (by rw [← show d.stacks.length = d.cfg.numPlayers from h1.stacks]; exact hi)
  have hD : 0 ≤ forcedTotal d.cfg := by
    have := List.sum_nonneg hn.antes
    have := List.sum_nonneg hn.blinds
    unfold forcedTotal; omega
  intro x hx
  have h4 := mem_le_sum hpos hx
  have h5 := hpos x hx
  have : reach S.sum d.cfg = S.sum + 2 * forcedTotal d.cfg := rfl
  unfold allChips at hc
  unfold InWord
  omega

theorem array_total (h : ArrayInHand S d) (hn : NonNegative S d.cfg) (hz : SizesOk d.cfg) : allChips d = S.sum := by
  induction h with
  | @dealt d d' rb rs shuf obs hd hs hr => exact array_chips (dealt_live hd (reset_ok_atSeat hd hr)).1
  | @step S d bet h ih =>
    rw [step_cfg] at hn hz
    rw [C69_conserved h hn hz, ih hn hz]

/-! ## `reset` -/

theorem npRoll_mem {α : Type} {l : List α} {a : Nat} {x : α} (h : x ∈ npRoll l a) : x ∈ l := roll_mem h

theorem collect_range {bets : List Int} {s : Bool} (hb : ∀ b ∈ bets, 0 ≤ b) :
    (∀ x ∈ (collectMultipleBets d bets s).stacks, ∃ y ∈ d.stacks, y - bets.sum ≤ x ∧ x ≤ y) ∧
    (∀ x ∈ (collectMultipleBets d bets s).potCommits, ∃ y ∈ d.potCommits, y ≤ x ∧ x ≤ y + bets.sum) ∧
    (∀ x ∈ (collectMultipleBets d bets s).streetCommits, ∃ y ∈ d.streetCommits, y ≤ x ∧ x ≤ y + bets.sum) := by
  have hs0 := List.sum_nonneg hb
  have hbet : ∀ x ∈ List.zipWith (fun (b : Bool) (bet : Int) => if b then bet else 0)
      (List.zipWith (fun (stack : Int) (active : Bool) => decide (stack > 0) && active) d.stacks d.active)
      (npRoll bets (d.action.getD 0)), 0 ≤ x ∧ x ≤ bets.sum := by
    intro x hx
    obtain ⟨a, -, b, h1, rfl⟩ := mem_zipWith_of hx
    have h2 := npRoll_mem h1
    have h3 := hb b h2
    have h4 := mem_le_sum hb h2
    split <;> omega
  unfold collectMultipleBets
  simp only []
  refine ⟨?_, ?_, ?_⟩
  · intro x hx
    obtain ⟨y, h1, b, h2, rfl⟩ := mem_zipWith_of hx
    have := hbet b h2
    exact ⟨y, h1, by omega, by omega⟩
  · intro x hx
    obtain ⟨y, h1, b, h2, rfl⟩ := mem_zipWith_of hx
    have := hbet b h2
    exact ⟨y, h1, by omega, by omega⟩
  · intro x hx
    split at hx
    · obtain ⟨y, h1, b, h2, rfl⟩ := mem_zipWith_of hx
      have := hbet b h2
      exact ⟨y, h1, by omega, by omega⟩
    · exact ⟨x, hx, le_rfl, by omega⟩

/-- the seat that posts first has the arrays of a fresh hand -/
theorem blindStart_arrays (d : Dealer) (rb rs : Bool) (shuf : Shuffle) :
    (blindStart d rb rs shuf).stacks = startStacks d rs ∧
    (blindStart d rb rs shuf).potCommits = List.replicate d.cfg.numPlayers 0 ∧
    (blindStart d rb rs shuf).streetCommits = List.replicate d.cfg.numPlayers 0 := by
  unfold blindStart
  split <;> exact ⟨rfl, rfl, rfl⟩

/-- the table after antes and blinds, with cut numbers -/
def postedM (w : Bool) (d : Dealer) (rb rs : Bool) (shuf : Shuffle) : Dealer :=
  collectMultipleM w (collectMultipleM w (blindStart d rb rs shuf) d.cfg.antes false) d.cfg.blinds true

theorem resetM_eq (sc : Int → Int) (d : Dealer) (w rb rs : Bool) (shuf : Shuffle) :
    (rs = false ∧ countTrue (d.stacks.map fun s => decide (s > 0)) ≤ 1 ∧
      resetM sc ⟨d, w⟩ rb rs shuf = (⟨{ d with active := d.stacks.map fun s => decide (s > 0) }, w || rs⟩, .error .tooFewActivePlayers)) ∨
    ((rs = true ∨ 2 ≤ countTrue (d.stacks.map fun s => decide (s > 0))) ∧
      ((d.cfg.numCommunityCards.length = 0 ∧ resetM sc ⟨d, w⟩ rb rs shuf = (⟨{ d with
          active := (d.fresh rb rs shuf).active
          «stacks» := startStacks d rs
          button := nextButton d rb
          deck := d.deck.shuffle shuf }, w || rs⟩, .error .indexError)) ∨
       (1 ≤ d.cfg.numCommunityCards.length ∧ resetM sc ⟨d, w⟩ rb rs shuf =
          (⟨(postedM (w || rs) d rb rs shuf).moveAction.moveAction, w || rs⟩,
            observationM sc (postedM (w || rs) d rb rs shuf).moveAction.moveAction false)))) := by
  cases rs with
  | false =>
    by_cases hc : countTrue (d.stacks.map fun s => decide (s > 0)) ≤ 1
    · left
      refine ⟨rfl, hc, ?_⟩
      unfold resetM
      exact if_pos ⟨rfl, hc⟩
    · right
      refine ⟨.inr (by omega), ?_⟩
      cases hl : d.cfg.numCommunityCards with
      | nil =>
        left
        refine ⟨rfl, ?_⟩
        unfold resetM
        refine (if_neg (fun h => hc h.2)).trans ?_
        show (match d.cfg.numCommunityCards[0]? with | none => _ | some ncc => _) = _
        rw [hl]; rfl
      | cons ncc l =>
        right
        refine ⟨by simp, ?_⟩
        unfold resetM
        refine (if_neg (fun h => hc h.2)).trans ?_
        have h0 : d.cfg.numCommunityCards.getD 0 0 = ncc := by rw [hl]; rfl
        show (match d.cfg.numCommunityCards[0]? with | none => _ | some ncc => _) = _
        have h1 : d.cfg.numCommunityCards[0]? = some ncc := by rw [hl]; rfl
        rw [h1]
        subst h0
        unfold postedM blindStart fresh Dealer.fresh startStacks
        by_cases h2 : d.cfg.numPlayers > 2
        · simp only [Bool.false_eq_true, if_false, if_pos h2]; rfl
        · simp only [Bool.false_eq_true, if_false, if_neg h2]; rfl
  | true =>
    right
    refine ⟨.inl rfl, ?_⟩
    cases hl : d.cfg.numCommunityCards with
    | nil =>
      left
      refine ⟨rfl, ?_⟩
      unfold resetM
      refine (if_neg (fun h => by simp at h)).trans ?_
      show (match d.cfg.numCommunityCards[0]? with | none => _ | some ncc => _) = _
      rw [hl]; rfl
    | cons ncc l =>
      right
      refine ⟨by simp, ?_⟩
      unfold resetM
      refine (if_neg (fun h => by simp at h)).trans ?_
      have h0 : d.cfg.numCommunityCards.getD 0 0 = ncc := by rw [hl]; rfl
      show (match d.cfg.numCommunityCards[0]? with | none => _ | some ncc => _) = _
      have h1 : d.cfg.numCommunityCards[0]? = some ncc := by rw [hl]; rfl
      rw [h1]
      subst h0
      unfold postedM blindStart fresh Dealer.fresh startStacks
      by_cases h2 : d.cfg.numPlayers > 2
      · simp only [if_true, if_pos h2]; rfl
      · simp only [if_true, if_neg h2]; rfl

theorem postedM_eq {w rb rs : Bool} {shuf : Shuffle} (hn : NonNegative (startStacks d rs) d.cfg)
    (hw : reach (startStacks d rs).sum d.cfg < 2 ^ 31) : postedM w d rb rs shuf = posted d rb rs shuf := by
  obtain ⟨b1, b2, b3⟩ := blindStart_arrays d rb rs shuf
  have hA := List.sum_nonneg hn.antes
  have hB := List.sum_nonneg hn.blinds
  have hS := List.sum_nonneg hn.start
  have hr : reach (startStacks d rs).sum d.cfg = (startStacks d rs).sum + 2 * (d.cfg.antes.sum + d.cfg.blinds.sum) := rfl
  obtain ⟨r1, r2, r3⟩ := collect_range (d := blindStart d rb rs shuf) (s := false) hn.antes
  obtain ⟨q1, q2, q3⟩ := collect_range (d := collectMultipleBets (blindStart d rb rs shuf) d.cfg.antes false) (s := true) hn.blinds
  have t1 : ∀ x ∈ (collectMultipleBets (blindStart d rb rs shuf) d.cfg.antes false).stacks,
      -d.cfg.antes.sum ≤ x ∧ x ≤ (startStacks d rs).sum := by
    intro x hx
    obtain ⟨y, hy, h1, h2⟩ := r1 x hx
    rw [b1] at hy
    have := hn.start y hy
    have := mem_le_sum hn.start hy
    omega
  have t2 : ∀ x ∈ (collectMultipleBets (blindStart d rb rs shuf) d.cfg.antes false).potCommits, 0 ≤ x ∧ x ≤ d.cfg.antes.sum := by
    intro x hx
    obtain ⟨y, hy, h1, h2⟩ := r2 x hx
    rw [b2] at hy
    have := List.eq_of_mem_replicate hy
    omega
  have t3 : ∀ x ∈ (collectMultipleBets (blindStart d rb rs shuf) d.cfg.antes false).streetCommits, 0 ≤ x ∧ x ≤ d.cfg.antes.sum := by
    intro x hx
    obtain ⟨y, hy, h1, h2⟩ := r3 x hx
    rw [b3] at hy
    have := List.eq_of_mem_replicate hy
    omega
  unfold postedM posted collectMultipleM
  rw [store_id (d := collectMultipleBets (blindStart d rb rs shuf) d.cfg.antes false), store_id]
  · refine ⟨?_, ?_, ?_⟩
    · intro x hx
      obtain ⟨y, hy, h1, h2⟩ := q3 x hx
      have := t3 y hy
      unfold InWord; omega
    · intro x hx
      obtain ⟨y, hy, h1, h2⟩ := q2 x hx
      have := t2 y hy
      unfold InWord; omega
    · intro x hx
      obtain ⟨y, hy, h1, h2⟩ := q1 x hx
      have := t1 y hy
      unfold InWord; omega
  · refine ⟨?_, ?_, ?_⟩
    · intro x hx
      have := t3 x hx
      unfold InWord; omega
    · intro x hx
      have := t2 x hx
      unfold InWord; omega
    · intro x hx
      have := t1 x hx
      unfold InWord; omega

/-- a new hand has its numbers in range -/
theorem dealt_ranged {d' : Dealer} {rb rs : Bool} {shuf : Shuffle} {obs : Observation} (hd : Seated (atSeat d))
    (h : reset d rb rs shuf = (d', .ok obs)) (hn : NonNegative (startStacks d rs) d.cfg) (hz : SizesOk d.cfg)
    (hbb : d.cfg.bigBlind ≤ reach (startStacks d rs).sum d.cfg) : Ranged (reach (startStacks d rs).sum d.cfg) d' := by
  have hr := reset_ok_atSeat hd h
  have hcfg : d'.cfg = d.cfg := by
    have := reset_cfg d rb rs shuf
    rw [h] at this; exact this
  have hn' : NonNegative (startStacks (atSeat d) rs) (atSeat d').cfg := by
    show NonNegative (startStacks d rs) d'.cfg
    rw [hcfg]; exact hn
  have h1 := ranged_of (dealt_live hd hr).1 (dealt_nn hd hr hn') hn' (by show SizesOk d'.cfg; rw [hcfg]; exact hz)
    (dealt_small hd hr hn') (by show d'.cfg.bigBlind ≤ reach (startStacks d rs).sum d'.cfg; rw [hcfg]; exact hbb)
  change Ranged (reach (startStacks d rs).sum d'.cfg) (atSeat d') at h1
  rw [hcfg] at h1
  exact ⟨h1.street, h1.contrib, h1.stack, h1.call, h1.raise, h1.pot⟩

theorem reset_succeeds (hd : Seated (atSeat d)) {rb rs : Bool} {shuf : Shuffle}
    (h1 : rs = true ∨ 2 ≤ countTrue (d.stacks.map fun s => decide (s > 0))) (h2 : 1 ≤ d.cfg.numCommunityCards.length) :
    ∃ obs, (reset d rb rs shuf).2 = .ok obs := by
  obtain ⟨-, e⟩ := reset_atSeat hd rb rs shuf
  obtain ⟨hl, h0, -⟩ := posted_live (rb := rb) (shuf := shuf) hd h1 h2
  obtain ⟨obs, ho⟩ := live_observation hl (by rw [h0]; have := hl.oneStreet; omega)
  rcases Clubs.reset_eq (atSeat d) rb rs shuf with ⟨r1, r2, -⟩ | ⟨-, ⟨h3, -⟩ | ⟨-, e'⟩⟩
  · rcases h1 with h1 | h1
    · rw [r1] at h1; simp at h1
    · exact absurd r2 (Nat.not_le.mpr h1)
  · have : d.cfg.numCommunityCards.length = 0 := h3
    omega
  · rw [e', ho] at e
    cases hx : (reset d rb rs shuf).2 with
    | ok o => exact ⟨o, rfl⟩
    | error x => rw [hx] at e; simp [Except.map] at e

theorem new_zero {a : DealerArgs} {shuf : Shuffle} (h : new a shuf = .ok d) :
    (∀ x ∈ d.streetCommits, x = 0) ∧ ∀ x ∈ d.potCommits, x = 0 := by
  unfold new Dealer.new at h
  simp only [bind, Except.bind, pure, Except.pure] at h
  iterate 11
    split at h
    · simp at h
  simp only [Except.ok.injEq] at h
  subst h
  exact ⟨fun _ hx => List.eq_of_mem_replicate hx, fun _ hx => List.eq_of_mem_replicate hx⟩

/-! ## concrete runs -/

def machineSteps (sc : Int → Int) : Machine → List Int → Machine
  | m, [] => m
  | m, b :: bs => machineSteps sc (stepM sc m (.fin b)).1 bs

theorem machineSteps_reachable {sc : Int → Int} {m : Machine} (h : MachineReachable sc m) (bs : List Int) :
    MachineReachable sc (machineSteps sc m bs) := by
  induction bs generalizing m with
  | nil => exact h
  | cons b bs ih => exact ih (.step _ h)

/-- A table, from a computation: a new table, `reset` with the button at seat 0, bets. -/
theorem machine_exists (sc : Int → Int) (a : DealerArgs) (rs : Bool) (bs : List Int) {P : Machine → Prop} [DecidablePred P]
    (h : (newM a id).bind (fun m => .ok (decide (P (machineSteps sc (resetM sc m true rs id).1 bs)))) = (.ok true : Except Err Bool)) :
    ∃ m, MachineReachable sc m ∧ P m := by
  cases hn : newM a id with
  | error e => rw [hn] at h; simp [Except.bind] at h
  | ok m =>
    rw [hn] at h
    simp only [Except.bind, Except.ok.injEq, decide_eq_true_eq] at h
    exact ⟨_, machineSteps_reachable (.reset true rs isShuffle_id (.new isShuffle_id hn)) bs, h⟩

end Clubs.Numpy
