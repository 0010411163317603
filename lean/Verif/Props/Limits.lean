import Verif.Props.Betting
import Verif.Props.NumpyReplay
import Verif.Lemmas.Play
import Verif.Lemmas.NumpyPlay
import Verif.Spec.Limits

/-!
# Property C100: a limit that nobody reaches changes nothing
-/

namespace Clubs

open Spec

variable {S : List Int} {d d' : Dealer} {rs : List RaiseSize} {nr : List NumRaises}

theorem allAllIn_relimit (d : Dealer) : (relimit rs nr d).allAllIn = d.allAllIn := rfl

theorem dealStreets_relimit (fuel : Nat) (d : Dealer) : dealStreets fuel (relimit rs nr d) = relimit rs nr (dealStreets fuel d) := by
  induction fuel generalizing d with
  | zero => rfl
  | succ fuel ih =>
    unfold dealStreets
    simp only []
    by_cases h : d.street + 1 ≥ d.cfg.numStreets
    · rw [if_pos h, if_pos (show (relimit rs nr d).street + 1 ≥ (relimit rs nr d).cfg.numStreets from h)]
      rfl
    · rw [if_neg h, if_neg (show ¬ (relimit rs nr d).street + 1 ≥ (relimit rs nr d).cfg.numStreets from h)]
      generalize hx : ({ d with
        street := d.street + 1
        communityCards := d.communityCards ++ (d.deck.draw (d.cfg.numCommunityCards.getD (d.street + 1) 0)).1
        deck := (d.deck.draw (d.cfg.numCommunityCards.getD (d.street + 1) 0)).2 } : Dealer) = x
      have hy : ({ relimit rs nr d with
        street := (relimit rs nr d).street + 1
        communityCards := (relimit rs nr d).communityCards ++
          ((relimit rs nr d).deck.draw ((relimit rs nr d).cfg.numCommunityCards.getD ((relimit rs nr d).street + 1) 0)).1
        deck := ((relimit rs nr d).deck.draw ((relimit rs nr d).cfg.numCommunityCards.getD ((relimit rs nr d).street + 1) 0)).2 } : Dealer) =
          relimit rs nr x := by rw [← hx]; rfl
      rw [hy, allAllIn_relimit]
      split
      · rfl
      · exact ih x

theorem nextStreet_relimit (d : Dealer) : (relimit rs nr d).nextStreet = relimit rs nr d.nextStreet := by
  unfold Dealer.nextStreet
  simp only []
  have h : ({ relimit rs nr d with action := some (relimit rs nr d).button } : Dealer).moveAction =
      relimit rs nr ({ d with action := some d.button } : Dealer).moveAction := rfl
  rw [h]
  generalize ({ d with action := some d.button } : Dealer).moveAction = x
  have h2 : (relimit rs nr x).cfg.numStreets = x.cfg.numStreets := rfl
  rw [h2, dealStreets_relimit]
  rfl

theorem act_relimit (d : Dealer) (fold : Bool) (c b : Int) : (relimit rs nr d).act fold c b = relimit rs nr (d.act fold c b) := by
  unfold Dealer.act
  simp only []
  by_cases h1 : c ≠ 0 ∧ (b < c ∨ fold = true)
  · rw [if_pos h1, if_pos h1, if_pos h1]
    simp only [ne_eq, not_true_eq_false, false_and, if_false]
    rfl
  · rw [if_neg h1, if_neg h1, if_neg h1]
    have h2 : (relimit rs nr d).largestRaise = d.largestRaise := rfl
    rw [h2]
    by_cases h3 : b ≠ 0 ∧ b - c ≥ d.largestRaise
    · rw [if_pos h3, if_pos h3]; rfl
    · rw [if_neg h3, if_neg h3]; rfl

theorem afterBet_relimit (d : Dealer) (fold : Bool) (c b : Int) :
    (relimit rs nr d).afterBet fold c b = relimit rs nr (d.afterBet fold c b) := by
  unfold Dealer.afterBet
  rw [act_relimit]
  have h : (relimit rs nr (d.act fold c b)).allAgreed = (d.act fold c b).allAgreed := rfl
  rw [h]
  split
  · exact nextStreet_relimit _
  · rfl

/-- only the sizes of raises depend on the limits -/
theorem betSizes_relimit (h1 : rs.length = d.cfg.raiseSizes.length) (h2 : nr.length = d.cfg.numRaises.length) :
    (∃ e, d.betSizes = .error e ∧ (relimit rs nr d).betSizes = .error e) ∨
    ∃ c lo hi lo' hi', d.betSizes = .ok (c, lo, hi) ∧ (relimit rs nr d).betSizes = .ok (c, lo', hi') := by
  have e1 : (relimit rs nr d).betSizes = ({ d with cfg := { d.cfg with raiseSizes := rs, numRaises := nr } } : Dealer).betSizes := rfl
  rw [e1]
  unfold Dealer.betSizes
  simp only []
  by_cases hx : d.street < rs.length
  · have a1 : rs[d.street]? = some rs[d.street] := List.getElem?_eq_getElem hx
    have hx' : d.street < d.cfg.raiseSizes.length := by omega
    have a2 : d.cfg.raiseSizes[d.street]? = some d.cfg.raiseSizes[d.street] := List.getElem?_eq_getElem hx'
    rw [a1, a2]
    simp only []
    by_cases hy : d.street < nr.length
    · have a3 : nr[d.street]? = some nr[d.street] := List.getElem?_eq_getElem hy
      have hy' : d.street < d.cfg.numRaises.length := by omega
      have a4 : d.cfg.numRaises[d.street]? = some d.cfg.numRaises[d.street] := List.getElem?_eq_getElem hy'
      rw [a3, a4]
      exact .inr ⟨_, _, _, _, _, rfl, rfl⟩
    · rw [List.getElem?_eq_none (by omega : nr.length ≤ d.street), List.getElem?_eq_none (by omega : d.cfg.numRaises.length ≤ d.street)]
      exact .inl ⟨_, rfl, rfl⟩
  · rw [List.getElem?_eq_none (by omega : rs.length ≤ d.street), List.getElem?_eq_none (by omega : d.cfg.raiseSizes.length ≤ d.street)]
    exact .inl ⟨_, rfl, rfl⟩

theorem observation_relimit (h1 : rs.length = d.cfg.raiseSizes.length) (h2 : nr.length = d.cfg.numRaises.length) (done : Bool) :
    ((relimit rs nr d).observation done).map sansRaises = (d.observation done).map sansRaises := by
  unfold Dealer.observation
  have e1 : (relimit rs nr d).holeCards = d.holeCards := rfl
  have e2 : (relimit rs nr d).action = d.action := rfl
  rw [e1, e2]
  cases done with
  | true =>
    simp only [if_true]
    cases pyGet d.holeCards (match d.action with | some a => (a : Int) | none => -1) with
    | error e => rfl
    | ok x => rfl
  | false =>
    simp only [Bool.false_eq_true, if_false]
    rcases betSizes_relimit h1 h2 with ⟨e, g1, g2⟩ | ⟨c, lo, hi, lo', hi', g1, g2⟩
    · rw [g1, g2]
    · rw [g1, g2]
      simp only []
      cases pyGet d.holeCards (match d.action with | some a => (a : Int) | none => -1) with
      | error e => rfl
      | ok x => rfl

theorem finish_relimit (h1 : rs.length = d.cfg.raiseSizes.length) (h2 : nr.length = d.cfg.numRaises.length) :
    (relimit rs nr d).finish.1 = relimit rs nr d.finish.1 ∧
    sansRaisesOut (relimit rs nr d).finish.2 = sansRaisesOut d.finish.2 := by
  have e1 : (relimit rs nr d).done = d.done := rfl
  have e2 : (relimit rs nr d).payouts = d.payouts := rfl
  unfold Dealer.finish
  simp only []
  rw [e1, e2]
  cases d.payouts with
  | error e => exact ⟨rfl, rfl⟩
  | ok p =>
    simp only []
    have key : ∀ (x : Dealer) (b : Bool), rs.length = x.cfg.raiseSizes.length → nr.length = x.cfg.numRaises.length →
        sansRaisesOut (match (relimit rs nr x).observation b with
          | .error e => .error e
          | .ok obs => .ok (obs, p, d.done)) =
        sansRaisesOut (match x.observation b with
          | .error e => .error e
          | .ok obs => .ok (obs, p, d.done)) := by
      intro x b g1 g2
      have := observation_relimit (d := x) g1 g2 b
      cases h3 : (relimit rs nr x).observation b with
      | error e =>
        cases h4 : x.observation b with
        | error e' => rw [h3, h4] at this; simp only [Except.map, Except.error.injEq] at this; rw [this]
        | ok o => rw [h3, h4] at this; simp [Except.map] at this
      | ok o' =>
        cases h4 : x.observation b with
        | error e' => rw [h3, h4] at this; simp [Except.map] at this
        | ok o =>
          rw [h3, h4] at this
          simp only [Except.map, Except.ok.injEq] at this
          simp only [sansRaisesOut, Except.map, this]
    cases hall : d.done.all id with
    | true =>
      simp only [if_true]
      exact ⟨rfl, key (d.settle p) true h1 h2⟩
    | false =>
      simp only [Bool.false_eq_true, if_false]
      exact ⟨trivial, key d false h1 h2⟩

/-- A bet that is moved to the same size under both limits does the same. -/
theorem step_relimit {bet : PyNum} {a : Nat} (ha : d.action = some a) (h1 : rs.length = d.cfg.raiseSizes.length)
    (h2 : nr.length = d.cfg.numRaises.length)
    (hc : ∀ b c lo hi lo' hi', pyRound bet = .ok b → d.betSizes = .ok (c, lo, hi) → (relimit rs nr d).betSizes = .ok (c, lo', hi') →
      cleanBet b c lo hi = cleanBet b c lo' hi') :
    ((relimit rs nr d).step bet).1 = relimit rs nr (d.step bet).1 ∧
    sansRaisesOut ((relimit rs nr d).step bet).2 = sansRaisesOut (d.step bet).2 := by
  have ha' : (relimit rs nr d).action = some a := ha
  rcases step_some ha bet with ⟨e, hr, he⟩ | ⟨b, e, hr, hs, he⟩ | ⟨b, c, lo, hi, hr, hs, he⟩
  · rcases step_some ha' bet with ⟨e', hr', he'⟩ | ⟨b', e', hr', hs', he'⟩ | ⟨b', c', lo', hi', hr', hs', he'⟩
    · rw [hr] at hr'; cases hr'
      rw [he, he']; exact ⟨rfl, rfl⟩
    · rw [hr] at hr'; cases hr'
    · rw [hr] at hr'; cases hr'
  · rcases step_some ha' bet with ⟨e', hr', he'⟩ | ⟨b', e', hr', hs', he'⟩ | ⟨b', c', lo', hi', hr', hs', he'⟩
    · rw [hr] at hr'; cases hr'
    · rcases betSizes_relimit h1 h2 with ⟨e'', g1, g2⟩ | ⟨c, lo, hi, lo', hi', g1, g2⟩
      · rw [g1] at hs; rw [g2] at hs'
        cases hs; cases hs'
        rw [he, he']; exact ⟨rfl, rfl⟩
      · rw [g1] at hs; cases hs
    · rcases betSizes_relimit h1 h2 with ⟨e'', g1, g2⟩ | ⟨c, lo, hi, lo', hi', g1, g2⟩
      · rw [g2] at hs'; cases hs'
      · rw [g1] at hs; cases hs
  · rcases step_some ha' bet with ⟨e', hr', he'⟩ | ⟨b', e', hr', hs', he'⟩ | ⟨b', c', lo', hi', hr', hs', he'⟩
    · rw [hr] at hr'; cases hr'
    · rcases betSizes_relimit h1 h2 with ⟨e'', g1, g2⟩ | ⟨c, lo, hi, lo', hi', g1, g2⟩
      · rw [g1] at hs; cases hs
      · rw [g2] at hs'; cases hs'
    · rcases betSizes_relimit h1 h2 with ⟨e'', g1, g2⟩ | ⟨c1, lo1, hi1, lo2, hi2, g1, g2⟩
      · rw [g1] at hs; cases hs
      · rw [hs] at g1
        rw [hs'] at g2
        simp only [Except.ok.injEq, Prod.mk.injEq] at g1 g2
        obtain ⟨rfl, rfl, rfl⟩ := g1
        obtain ⟨rfl, rfl, rfl⟩ := g2
        rw [hr] at hr'
        simp only [Except.ok.injEq] at hr'
        subst hr'
        rw [he, he', afterBet_relimit, ← hc b _ lo hi lo' hi' hr hs hs']
        have hcfg : (d.afterBet bet.isNeg c' (cleanBet b c' lo hi)).cfg = d.cfg := afterBet_cfg d _ _ _
        exact finish_relimit (by rw [hcfg]; exact h1) (by rw [hcfg]; exact h2)

/-! ## which bets are moved to the same size -/

/-- the conditions of `cleanBet_nearest` -/
def Ordered (c lo hi : Int) : Prop := (c < lo ∧ lo ≤ hi) ∨ (c ≤ lo ∧ lo = hi) ∨ (lo = 0 ∧ hi = 0)

theorem clean_offered {b c lo hi : Int} (hc : 0 ≤ c) (ho : Ordered c lo hi) (hb : b = 0 ∨ b = c ∨ (lo ≤ b ∧ b ≤ hi)) :
    cleanBet b c lo hi = b := by
  have h := cleanBet_nearest (b := b) hc ho b hb
  rw [sub_self, abs_zero] at h
  rcases h with h | ⟨h, -⟩
  · exact absurd h (not_lt.2 (abs_nonneg _))
  · rw [abs_eq_zero] at h; omega

theorem clean_looser {b c lo hi lo' hi' : Int} (hc : 0 ≤ c) (ho : Ordered c lo hi) (ho' : Ordered c lo' hi')
    (h1 : ∀ v, lo ≤ v ∧ v ≤ hi → v = 0 ∨ v = c ∨ (lo' ≤ v ∧ v ≤ hi'))
    (h2 : ∀ v, lo' ≤ v ∧ v ≤ hi' → (v = 0 ∨ v = c ∨ (lo ≤ v ∧ v ≤ hi)) ∨ (c < v ∧ hi < v)) (hb : b ≤ c ∨ b ≤ hi) :
    cleanBet b c lo hi = cleanBet b c lo' hi' := by
  have hle : ∀ {lo hi : Int}, Ordered c lo hi → lo ≤ hi := by
    intro lo hi h; unfold Ordered at h; omega
  have n1 := cleanBet_nearest (b := b) hc ho
  have n2 := cleanBet_nearest (b := b) hc ho'
  have l1 := cleanBet_legal (b := b) (c := c) (hle ho)
  have l2 := cleanBet_legal (b := b) (c := c) (hle ho')
  have hlh := hle ho
  generalize cleanBet b c lo hi = x at n1 l1 ⊢
  generalize cleanBet b c lo' hi' = y at n2 l2 ⊢
  have lx : x = 0 ∨ x = c ∨ (lo' ≤ x ∧ x ≤ hi') := by
    rcases l1 with h | h | h
    · exact .inl h
    · exact .inr (.inl h)
    · exact h1 x h
  have ny := n2 x lx
  have ly : (y = 0 ∨ y = c ∨ (lo ≤ y ∧ y ≤ hi)) ∨ (c < y ∧ hi < y) := by
    rcases l2 with h | h | h
    · exact .inl (.inl h)
    · exact .inl (.inr (.inl h))
    · exact h2 y h
  rcases ly with h | ⟨h3, h4⟩
  · have nx := n1 y h
    simp only [abs_eq_max_neg] at nx ny
    omega
  · exfalso
    have k1 := n2 c (.inr (.inl rfl))
    have k2 : hi < b ∨ |y - b| < |hi - b| ∨ (|y - b| = |hi - b| ∧ y ≤ hi) := by
      by_cases hh : hi < b
      · exact .inl hh
      · refine .inr (n2 hi ?_)
        exact h1 hi ⟨hlh, le_refl _⟩
    simp only [abs_eq_max_neg] at k1 k2
    omega

/-- the sizes offered are ordered -/
theorem ordered_of_shows {obs : Observation} {a : Nat} (h : InHand S d) (ha : d.action = some a) (hsh : Shows d obs) (hs0 : 0 ≤ stack d a)
    (hb : 0 < d.cfg.bigBlind) (hr : RaisesOk d.cfg) (hmm : obs.minRaise ≤ obs.maxRaise) :
    0 ≤ obs.call ∧ Ordered obs.call obs.minRaise obs.maxRaise := by
  obtain ⟨o1, o2, o3, o4, o5, o6⟩ := sizes_order h ha hsh hs0 (by omega) hr
  refine ⟨o1, ?_⟩
  unfold Ordered
  omega

/-- two tables that differ in the limits only -/
theorem sizes_both {obs obs' : Observation} {a : Nat} (h : InHand S d) (h' : InHand S (relimit rs nr d)) (ha : d.action = some a)
    (hsh : Shows d obs) (hsh' : Shows (relimit rs nr d) obs') :
    rs.length = d.cfg.raiseSizes.length ∧ nr.length = d.cfg.numRaises.length ∧ d.betSizes = .ok (obs.call, obs.minRaise, obs.maxRaise) ∧
      (relimit rs nr d).betSizes = .ok (obs.call, obs'.minRaise, obs'.maxRaise) ∧ obs'.call = obs.call := by
  have ha' : (relimit rs nr d).action = some a := ha
  have s1 := (live_of_action h ha).1.seated
  have s2 := (live_of_action h' ha').1.seated
  have e1 : rs.length = d.cfg.raiseSizes.length := s2.raiseSizes.trans s1.raiseSizes.symm
  have e2 : nr.length = d.cfg.numRaises.length := s2.numRaises.trans s1.numRaises.symm
  have b1 := shows_sizes hsh ha
  have b2 := shows_sizes hsh' ha'
  rcases betSizes_relimit e1 e2 with ⟨e, g1, -⟩ | ⟨c, lo, hi, lo', hi', g1, g2⟩
  · rw [g1] at b1; cases b1
  · have hc : obs'.call = obs.call := by
      rw [g1] at b1
      rw [g2] at b2
      simp only [Except.ok.injEq, Prod.mk.injEq] at b1 b2
      omega
    rw [hc] at b2
    exact ⟨e1, e2, b1, b2, hc⟩

/-- **C100**: A bet of a size that is offered under both limits does the same under both: table, payouts, done flags and observation, apart
from the sizes of raises that the observation offers next. -/
theorem C100_offered {obs obs' : Observation} {a : Nat} {b : Int} (h : InHand S d) (h' : InHand S (relimit rs nr d)) (ha : d.action = some a)
    (hsh : Shows d obs) (hsh' : Shows (relimit rs nr d) obs') (hs0 : 0 ≤ stack d a) (hb : 0 < d.cfg.bigBlind) (hr : RaisesOk d.cfg)
    (hr' : RaisesOk (relimit rs nr d).cfg) (hmm : obs.minRaise ≤ obs.maxRaise) (hmm' : obs'.minRaise ≤ obs'.maxRaise)
    (hl : Legal obs b) (hl' : Legal obs' b) :
    ((relimit rs nr d).step (.fin b)).1 = relimit rs nr (d.step (.fin b)).1 ∧
    sansRaisesOut ((relimit rs nr d).step (.fin b)).2 = sansRaisesOut (d.step (.fin b)).2 := by
  obtain ⟨e1, e2, b1, b2, hc⟩ := sizes_both h h' ha hsh hsh'
  obtain ⟨c0, o1⟩ := ordered_of_shows h ha hsh hs0 hb hr hmm
  obtain ⟨-, o2⟩ := ordered_of_shows h' (show (relimit rs nr d).action = some a from ha) hsh' hs0 hb hr' hmm'
  rw [hc] at o2
  refine step_relimit ha e1 e2 fun b' c lo hi lo' hi' hb' hs hs' => ?_
  have hbb : b' = b := by
    simp only [pyRound, Except.ok.injEq] at hb'
    have := rounded_unique (roundHalfEven_rounded (b : Rat)) (c := b) (by unfold Rounded; simp)
    omega
  subst hbb
  rw [b1] at hs
  rw [b2] at hs'
  simp only [Except.ok.injEq, Prod.mk.injEq] at hs hs'
  obtain ⟨rfl, rfl, rfl⟩ := hs
  obtain ⟨-, rfl, rfl⟩ := hs'
  rw [clean_offered c0 o1 hl, clean_offered c0 o2 (by unfold Legal at hl'; rw [hc] at hl'; exact hl')]

/-- what looser limits mean for the sizes offered -/
theorem looser_sizes {c lo hi lo' hi' : Int} (hlo : Looser d.cfg.raiseSizes rs d.cfg.numRaises nr) (hs0 : 0 ≤ stack d d.seat)
    (h1 : d.betSizes = .ok (c, lo, hi)) (h2 : (relimit rs nr d).betSizes = .ok (c, lo', hi')) :
    (lo = 0 ∧ hi = 0) ∨ (lo' = lo ∧ hi ≤ hi') := by
  obtain ⟨x, y, hx, hy, q1, q2, q3⟩ := betSizes_spec h1
  obtain ⟨x', y', hx', hy', p1, p2, p3⟩ := betSizes_spec h2
  have e1 : streetBet (relimit rs nr d) (relimit rs nr d).seat = streetBet d d.seat := rfl
  have e2 : stack (relimit rs nr d) (relimit rs nr d).seat = stack d d.seat := rfl
  have e3 : (relimit rs nr d).streetCommits = d.streetCommits := rfl
  have e4 : (relimit rs nr d).streetRaises = d.streetRaises := rfl
  have e5 : (relimit rs nr d).largestRaise = d.largestRaise := rfl
  have e6 : (relimit rs nr d).pot = d.pot := rfl
  have e7 : (relimit rs nr d).cfg.bigBlind = d.cfg.bigBlind := rfl
  rw [e1, e2, e3, e4, e5] at p2 p3
  rw [e6, e7] at p3
  obtain ⟨x'', hx'', hxx⟩ := hlo.sizes _ _ hx
  obtain ⟨y'', hy'', hyy⟩ := hlo.raises _ _ hy
  have hxe : x'' = x' := by
    have : rs[d.street]? = some x' := hx'
    rw [hx''] at this; simpa using this
  have hye : y'' = y' := by
    have : nr[d.street]? = some y' := hy'
    rw [hy''] at this; simpa using this
  subst hxe hye
  by_cases hcap : y.reached d.streetRaises = true ∨ (d.streetRaises ≠ 0 ∧ pyMax d.streetCommits - streetBet d d.seat < d.largestRaise)
  · have := q2 hcap
    omega
  · right
    have hcap' : ¬ (y''.reached d.streetRaises = true ∨
        (d.streetRaises ≠ 0 ∧ pyMax d.streetCommits - streetBet d d.seat < d.largestRaise)) := by
      rw [not_or] at hcap ⊢
      refine ⟨?_, hcap.2⟩
      rcases hyy with rfl | rfl | ⟨m, n, rfl, rfl, hmn⟩
      · exact hcap.1
      · simp [NumRaises.reached]
      · have := hcap.1
        simp only [NumRaises.reached, decide_eq_true_eq] at this ⊢
        omega
    have g1 := q3 hcap
    have g2 := p3 hcap'
    rcases hxx with rfl | ⟨rfl, rfl⟩
    · cases x'' <;> simp only [] at g1 g2 <;> omega
    · simp only [] at g1 g2
      omega

/-- **C100**: Lifting a pot limit, or allowing more raises, changes nothing for bets up to the largest size that was offered before. -/
theorem C100_looser {obs obs' : Observation} {a : Nat} {q : Rat} {b : Int} (h : InHand S d) (h' : InHand S (relimit rs nr d))
    (hlo : Looser d.cfg.raiseSizes rs d.cfg.numRaises nr) (ha : d.action = some a)
    (hsh : Shows d obs) (hsh' : Shows (relimit rs nr d) obs') (hs0 : 0 ≤ stack d a) (hb : 0 < d.cfg.bigBlind) (hr : RaisesOk d.cfg)
    (hr' : RaisesOk (relimit rs nr d).cfg) (hmm : obs.minRaise ≤ obs.maxRaise) (hmm' : obs'.minRaise ≤ obs'.maxRaise)
    (hq : Rounded q b) (hle : b ≤ obs.call ∨ b ≤ obs.maxRaise) :
    ((relimit rs nr d).step (.fin q)).1 = relimit rs nr (d.step (.fin q)).1 ∧
    sansRaisesOut ((relimit rs nr d).step (.fin q)).2 = sansRaisesOut (d.step (.fin q)).2 := by
  obtain ⟨e1, e2, b1, b2, hc⟩ := sizes_both h h' ha hsh hsh'
  obtain ⟨c0, o1⟩ := ordered_of_shows h ha hsh hs0 hb hr hmm
  obtain ⟨-, o2⟩ := ordered_of_shows h' (show (relimit rs nr d).action = some a from ha) hsh' hs0 hb hr' hmm'
  rw [hc] at o2
  have hl := looser_sizes hlo (by rw [seat_some ha]; exact hs0) b1 b2
  refine step_relimit ha e1 e2 fun b' c lo hi lo' hi' hb' hs hs' => ?_
  have hbb : b' = b := by
    simp only [pyRound, Except.ok.injEq] at hb'
    have := rounded_unique (roundHalfEven_rounded q) hq
    omega
  subst hbb
  rw [b1] at hs
  rw [b2] at hs'
  simp only [Except.ok.injEq, Prod.mk.injEq] at hs hs'
  obtain ⟨rfl, rfl, rfl⟩ := hs
  obtain ⟨-, rfl, rfl⟩ := hs'
  unfold Ordered at o1 o2
  refine clean_looser c0 o1 o2 ?_ ?_ hle
  · intro v hv
    omega
  · intro v hv
    omega

/-- **C100**: Dealing does not depend on the limits, apart from the sizes that the observation offers. -/
theorem C100_reset (hd : Seated d) (h1 : rs.length = d.cfg.numStreets) (h2 : nr.length = d.cfg.numStreets) (rb rst : Bool) (shuf : Shuffle) :
    ((relimit rs nr d).reset rb rst shuf).1 = relimit rs nr (d.reset rb rst shuf).1 ∧
    ((relimit rs nr d).reset rb rst shuf).2.map sansRaises = (d.reset rb rst shuf).2.map sansRaises := by
  have hp : (relimit rs nr d).posted rb rst shuf = relimit rs nr (d.posted rb rst shuf) := by
    unfold Dealer.posted Dealer.blindStart
    have e1 : (relimit rs nr d).cfg.numPlayers = d.cfg.numPlayers := rfl
    rw [e1]
    split <;> rfl
  rcases reset_eq d rb rst shuf with ⟨g1, g2, g⟩ | ⟨g1, g⟩
  · rcases reset_eq (relimit rs nr d) rb rst shuf with ⟨-, -, k⟩ | ⟨k1, -⟩
    · rw [g, k]; exact ⟨rfl, rfl⟩
    · exfalso
      have k1' : rst = true ∨ 2 ≤ countTrue (d.stacks.map fun s => decide (s > 0)) := k1
      rcases k1' with k1' | k1'
      · rw [g1] at k1'; cases k1'
      · omega
  · rcases reset_eq (relimit rs nr d) rb rst shuf with ⟨k1, k2, -⟩ | ⟨-, k⟩
    · exfalso
      have k2' : countTrue (d.stacks.map fun s => decide (s > 0)) ≤ 1 := k2
      rcases g1 with g1 | g1
      · rw [g1] at k1; cases k1
      · omega
    · have hlen : (relimit rs nr d).cfg.numCommunityCards.length = d.cfg.numCommunityCards.length := rfl
      rw [hlen] at k
      rcases g with ⟨g2, g⟩ | ⟨g2, g⟩
      · rcases k with ⟨-, k⟩ | ⟨k2, -⟩
        · rw [g, k]; exact ⟨rfl, rfl⟩
        · omega
      · rcases k with ⟨k2, -⟩ | ⟨-, k⟩
        · omega
        · rw [g, k, hp]
          refine ⟨rfl, ?_⟩
          have hcfg : (d.posted rb rst shuf).moveAction.moveAction.cfg = d.cfg := by
            have := reset_cfg d rb rst shuf
            rw [g] at this
            exact this
          exact observation_relimit (d := (d.posted rb rst shuf).moveAction.moveAction) (by rw [hcfg, h1, hd.raiseSizes])
            (by rw [hcfg, h2, hd.numRaises]) false

/-- **C100**: A whole hand in which nobody bets more than the limits allow is, bet by bet, the hand without the limits. -/
theorem C100_hand (h : InHand S d) (h' : InHand S (relimit rs nr d)) (hlo : Looser d.cfg.raiseSizes rs d.cfg.numRaises nr)
    (hb : 0 < d.cfg.bigBlind) (hr : RaisesOk d.cfg) (hr' : RaisesOk (relimit rs nr d).cfg) (bets : List Rat)
    (hw : ∀ l q, l ++ [q] <+: bets → Within (Spec.afterBets d (l.map .fin)) (Spec.afterBets (relimit rs nr d) (l.map .fin)) q) :
    Spec.afterBets (relimit rs nr d) (bets.map .fin) = relimit rs nr (Spec.afterBets d (bets.map .fin)) ∧
    ∀ l q, l ++ [q] <+: bets → sansRaisesOut ((Spec.afterBets (relimit rs nr d) (l.map .fin)).step (.fin q)).2 =
      sansRaisesOut ((Spec.afterBets d (l.map .fin)).step (.fin q)).2 := by
  induction bets generalizing d with
  | nil => exact ⟨rfl, fun l q hl => by simp at hl⟩
  | cons b bets ih =>
    obtain ⟨obs, obs', a, x, w1, w2, w3, w4, w5, w6, w7, w8⟩ := hw [] b ⟨bets, rfl⟩
    obtain ⟨s1, s2⟩ := C100_looser h h' hlo w3 w1 w2 w4 hb hr hr' w5 w6 w7 w8
    have hcfg : (d.step (.fin b)).1.cfg = d.cfg := step_cfg d _
    have hi' : InHand S (relimit rs nr (d.step (.fin b)).1) := by rw [← s1]; exact .step _ h'
    have := ih (d := (d.step (.fin b)).1) (.step _ h) hi' (by rw [hcfg]; exact hlo) (by rw [hcfg]; exact hb) (by rw [hcfg]; exact hr)
      (by
        show RaisesOk { (d.step (.fin b)).1.cfg with raiseSizes := rs, numRaises := nr }
        rw [hcfg]; exact hr')
      (fun l q hl => by
        have := hw (b :: l) q (by rw [List.cons_append]; exact (List.prefix_cons_inj b).2 hl)
        simp only [Spec.afterBets, List.map_cons, List.foldl_cons] at this ⊢
        rw [s1] at this
        exact this)
    refine ⟨?_, ?_⟩
    · show Spec.afterBets ((relimit rs nr d).step (.fin b)).1 _ = relimit rs nr (Spec.afterBets (d.step (.fin b)).1 _)
      rw [s1]; exact this.1
    · intro l q hl
      cases l with
      | nil =>
        obtain ⟨r, hr⟩ := hl
        simp only [List.nil_append, List.singleton_append, List.cons.injEq] at hr
        obtain ⟨rfl, -⟩ := hr
        exact s2
      | cons y l =>
        rw [List.cons_append] at hl
        obtain ⟨rfl, hl'⟩ := List.cons_prefix_cons.1 hl
        have := this.2 l q hl'
        simp only [Spec.afterBets, List.map_cons, List.foldl_cons] at this ⊢
        rw [s1]; exact this

/-! ## examples -/

/-- check `Within` along some whole bets -/
def withinRun (d d' : Dealer) (obs obs' : Observation) : List Int → Bool
  | [] => true
  | b :: bs =>
    (match d.action with | some a => decide (0 ≤ stack d a) | none => false) && decide (obs.minRaise ≤ obs.maxRaise) &&
    decide (obs'.minRaise ≤ obs'.maxRaise) && decide (b ≤ obs.call ∨ b ≤ obs.maxRaise) &&
    match d.step (.fin b), d'.step (.fin b) with
    | (e, .ok o), (e', .ok o') => withinRun e e' o.1 o'.1 bs
    | _, _ => false

theorem within_of_run {d d' : Dealer} {obs obs' : Observation} (hs : Shows d obs) (hs' : Shows d' obs') {bets : List Int}
    (h : withinRun d d' obs obs' bets = true) (l : List Rat) (q : Rat) (hl : l ++ [q] <+: bets.map (fun b : Int => (b : Rat))) :
    Within (Spec.afterBets d (l.map .fin)) (Spec.afterBets d' (l.map .fin)) q := by
  induction bets generalizing d d' obs obs' l with
  | nil => simp at hl
  | cons b bets ih =>
    unfold withinRun at h
    simp only [Bool.and_eq_true, decide_eq_true_eq] at h
    obtain ⟨⟨⟨⟨h1, h2⟩, h3⟩, h4⟩, h5⟩ := h
    cases l with
    | nil =>
      obtain ⟨r, hr⟩ := hl
      simp only [List.nil_append, List.singleton_append, List.map_cons, List.cons.injEq] at hr
      obtain ⟨rfl, -⟩ := hr
      cases ha : d.action with
      | none => rw [ha] at h1; cases h1
      | some a =>
        rw [ha] at h1
        exact ⟨obs, obs', a, b, hs, hs', ha, of_decide_eq_true h1, h2, h3, by unfold Rounded; simp, h4⟩
    | cons y l =>
      rw [List.cons_append, List.map_cons] at hl
      obtain ⟨rfl, hl'⟩ := List.cons_prefix_cons.1 hl
      split at h5
      · next e o e' o' g g' =>
        have := ih (.inr ⟨_, _, _, _, g⟩) (.inr ⟨_, _, _, _, g'⟩) h5 l hl'
        simp only [Spec.afterBets, List.map_cons, List.foldl_cons] at this ⊢
        rw [g, g']; exact this
      · cases h5

/-- a table with limits and the same without, from a computation -/
theorem limits_exist (a : DealerArgs) (rs : List RaiseSize) (nr : List NumRaises) {P : Dealer → Observation → Observation → Prop}
    [∀ d o o', Decidable (P d o o')]
    (h : (Dealer.new a id).bind (fun d => .ok (match d.reset true true id, (relimit rs nr d).reset true true id with
      | (e, .ok o), (_, .ok o') => decide (rs.length = d.cfg.numStreets ∧ nr.length = d.cfg.numStreets ∧ P e o o')
      | _, _ => false)) = .ok true) :
    ∃ S d obs obs', InHand S d ∧ InHand S (relimit rs nr d) ∧ Shows d obs ∧ Shows (relimit rs nr d) obs' ∧ P d obs obs' := by
  cases ht : Dealer.new a id with
  | error x => rw [ht] at h; cases h
  | ok d =>
    rw [ht] at h
    simp only [Except.bind, Except.ok.injEq] at h
    have hi : IsShuffle id := fun _ => .refl _
    have hseat := reachable_seated (.new hi ht)
    split at h
    · next e o e' o' g g' =>
      rw [decide_eq_true_eq] at h
      obtain ⟨h1, h2, h3⟩ := h
      have := (C100_reset hseat h1 h2 true true id).1
      rw [g, g'] at this
      have this : e' = relimit rs nr e := this
      subst this
      have hseat' : Seated (relimit rs nr d) := ⟨hseat.two, hseat.blinds, hseat.antes, h1, h2, hseat.community, hseat.active, hseat.potCommits,
        hseat.stacks, hseat.streetCommits, hseat.streetOption, hseat.button, hseat.action⟩
      exact ⟨_, e, o, o', .dealt hseat hi g, show InHand (startStacks (relimit rs nr d) true) _ from .dealt hseat' hi g', .inl ⟨_, _, _, _, g⟩, .inl ⟨_, _, _, _, g'⟩, h3⟩
    · cases h

/-- two streets with pot limit and at most two raises -/
def potTable : DealerArgs := { small 3 [1, 2, 0] 40 with raiseSizes := .scalar .pot, numRaises := .scalar (.fin 2) }

/-- the hypotheses of `C100_hand`, `C100_looser`: a hand with two raises on the first street and a bet of the pot on the second -/
example : ∃ S d obs obs', InHand S d ∧ InHand S (relimit [.inf, .inf] [.inf, .inf] d) ∧ Shows d obs ∧
    Shows (relimit [.inf, .inf] [.inf, .inf] d) obs' ∧ d.cfg.raiseSizes = [.pot, .pot] ∧ d.cfg.numRaises = [.fin 2, .fin 2] ∧
    0 < d.cfg.bigBlind ∧ obs.maxRaise = 7 ∧ obs'.maxRaise = 40 ∧
    withinRun d (relimit [.inf, .inf] [.inf, .inf] d) obs obs' [5, -1, 9, 6, 3, 4, 17, -1] = true ∧
    (Spec.afterBets d ([5, -1, 9, 6, 3, 4, 17, -1].map .fin)).action = none :=
  limits_exist potTable [.inf, .inf] [.inf, .inf] (by decide +kernel)

example : Looser [.pot, .pot] [.inf, .inf] [.fin 2, .fin 2] [.inf, .inf] := by
  constructor
  · rintro (_ | _ | i) x hx
    · exact ⟨.inf, rfl, .inr ⟨by simpa using hx.symm, rfl⟩⟩
    · exact ⟨.inf, rfl, .inr ⟨by simpa using hx.symm, rfl⟩⟩
    · simp at hx
  · rintro (_ | _ | i) x hx
    · exact ⟨.inf, rfl, .inr (.inl rfl)⟩
    · exact ⟨.inf, rfl, .inr (.inl rfl)⟩
    · simp at hx

/-- the hypotheses of `C100_offered`: fixed raises of 4 chips and the same without a limit, where a bet of 6 is offered by both -/
example : ∃ S d obs obs', InHand S d ∧ InHand S (relimit [.inf, .inf] [.inf, .inf] d) ∧ Shows d obs ∧
    Shows (relimit [.inf, .inf] [.inf, .inf] d) obs' ∧ d.cfg.raiseSizes = [.int 4, .int 4] ∧ d.action = some 0 ∧ 0 ≤ stack d 0 ∧
    0 < d.cfg.bigBlind ∧ obs.minRaise ≤ obs.maxRaise ∧ obs'.minRaise ≤ obs'.maxRaise ∧ (obs.minRaise ≤ 6 ∧ 6 ≤ obs.maxRaise) ∧
    (obs'.minRaise ≤ 6 ∧ 6 ≤ obs'.maxRaise) ∧ obs.minRaise ≠ obs'.minRaise ∧ obs.maxRaise ≠ obs'.maxRaise :=
  limits_exist { small 3 [1, 2, 0] 40 with raiseSizes := .scalar (.int 4) } [.inf, .inf] [.inf, .inf] (by decide +kernel)

/-- a bet above the pot limit does not do the same without it: 7 chips against 20 -/
example : ∃ S d obs obs', InHand S d ∧ InHand S (relimit [.inf, .inf] [.inf, .inf] d) ∧ Shows d obs ∧
    Shows (relimit [.inf, .inf] [.inf, .inf] d) obs' ∧ (d.step (.fin 20)).1.pot = 10 ∧
    ((relimit [.inf, .inf] [.inf, .inf] d).step (.fin 20)).1.pot = 23 :=
  limits_exist potTable [.inf, .inf] [.inf, .inf] (by decide +kernel)

end Clubs

namespace Clubs.Numpy

open Spec

variable {S : List Int} {d d' : Dealer} {rs : List RaiseSize} {nr : List NumRaises}

theorem dealStreets_relimit (fuel : Nat) (d : Dealer) : dealStreets fuel (relimit rs nr d) = relimit rs nr (dealStreets fuel d) := by
  induction fuel generalizing d with
  | zero => rfl
  | succ fuel ih =>
    unfold dealStreets
    simp only []
    by_cases h : d.street + 1 ≥ d.cfg.numStreets
    · rw [if_pos h, if_pos (show (relimit rs nr d).street + 1 ≥ (relimit rs nr d).cfg.numStreets from h)]
      rfl
    · rw [if_neg h, if_neg (show ¬ (relimit rs nr d).street + 1 ≥ (relimit rs nr d).cfg.numStreets from h)]
      generalize hx : ({ d with
        street := d.street + 1
        communityCards := d.communityCards ++ (d.deck.draw (d.cfg.numCommunityCards.getD (d.street + 1) 0)).1
        deck := (d.deck.draw (d.cfg.numCommunityCards.getD (d.street + 1) 0)).2 } : Dealer) = x
      have hy : ({ relimit rs nr d with
        street := (relimit rs nr d).street + 1
        communityCards := (relimit rs nr d).communityCards ++
          ((relimit rs nr d).deck.draw ((relimit rs nr d).cfg.numCommunityCards.getD ((relimit rs nr d).street + 1) 0)).1
        deck := ((relimit rs nr d).deck.draw ((relimit rs nr d).cfg.numCommunityCards.getD ((relimit rs nr d).street + 1) 0)).2 } : Dealer) =
          relimit rs nr x := by rw [← hx]; rfl
      rw [hy, show allAllIn (relimit rs nr x) = allAllIn x from rfl]
      split
      · rfl
      · exact ih x

theorem nextStreet_relimit (d : Dealer) : nextStreet (relimit rs nr d) = relimit rs nr (nextStreet d) := by
  unfold nextStreet
  simp only []
  have h : moveAction ({ relimit rs nr d with action := some (relimit rs nr d).button } : Dealer) =
      relimit rs nr (moveAction ({ d with action := some d.button } : Dealer)) := rfl
  rw [h]
  generalize moveAction ({ d with action := some d.button } : Dealer) = x
  have h2 : (relimit rs nr x).cfg.numStreets = x.cfg.numStreets := rfl
  rw [h2, dealStreets_relimit]
  rfl

theorem afterBet_relimit (d : Dealer) (fold : Bool) (c b : Int) :
    afterBet (relimit rs nr d) fold c b = relimit rs nr (afterBet d fold c b) := by
  unfold afterBet
  have h0 : act (relimit rs nr d) fold c b = relimit rs nr (act d fold c b) := by
    rw [act_shared, act_shared]; exact act_relimit d fold c b
  rw [h0]
  have h : allAgreed (relimit rs nr (act d fold c b)) = allAgreed (act d fold c b) := rfl
  rw [h]
  split
  · exact nextStreet_relimit _
  · rfl

theorem finish_relimit (h1 : rs.length = d.cfg.raiseSizes.length) (h2 : nr.length = d.cfg.numRaises.length) :
    (finish (relimit rs nr d)).1 = relimit rs nr (finish d).1 ∧
    sansRaisesOut (finish (relimit rs nr d)).2 = sansRaisesOut (finish d).2 := by
  have e1 : done (relimit rs nr d) = done d := rfl
  have e2 : payouts (relimit rs nr d) = payouts d := rfl
  unfold finish
  simp only []
  rw [e1, e2]
  cases payouts d with
  | error e => exact ⟨rfl, rfl⟩
  | ok p =>
    simp only []
    have key : ∀ (x : Dealer) (b : Bool), rs.length = x.cfg.raiseSizes.length → nr.length = x.cfg.numRaises.length →
        sansRaisesOut (match observation (relimit rs nr x) b with
          | .error e => .error e
          | .ok obs => .ok (obs, p, done d)) =
        sansRaisesOut (match observation x b with
          | .error e => .error e
          | .ok obs => .ok (obs, p, done d)) := by
      intro x b g1 g2
      have := observation_relimit (d := x) g1 g2 b
      unfold observation
      cases h3 : (relimit rs nr x).observation b with
      | error e =>
        cases h4 : x.observation b with
        | error e' => rw [h3, h4] at this; simp only [Except.map, Except.error.injEq] at this; rw [this]
        | ok o => rw [h3, h4] at this; simp [Except.map] at this
      | ok o' =>
        cases h4 : x.observation b with
        | error e' => rw [h3, h4] at this; simp [Except.map] at this
        | ok o =>
          rw [h3, h4] at this
          simp only [Except.map, Except.ok.injEq] at this
          simp only [sansRaisesOut, Except.map, this]
    cases hall : (done d).all id with
    | true =>
      simp only [if_true]
      exact ⟨rfl, key { d with
        action := none
        pot := 0
        «stacks» := List.zipWith (· + ·) d.stacks (List.zipWith (· + ·) p d.potCommits) } true h1 h2⟩
    | false =>
      simp only [Bool.false_eq_true, if_false]
      exact ⟨trivial, key d false h1 h2⟩

/-- the sizes on offer are ordered -/
theorem sizes_ordered {x : Dealer} {a : Nat} {c lo hi : Int} (hd : Seated x) (ha : x.action = some a)
    (hsz : x.betSizes = .ok (c, lo, hi)) (hlr : x.cfg.bigBlind ≤ x.largestRaise) (hs0 : 0 ≤ stack x a) (hb : 0 < x.cfg.bigBlind)
    (hr : RaisesOk x.cfg) (hmm : lo ≤ hi) : 0 ≤ c ∧ Ordered c lo hi := by
  have hseat := seat_some ha
  obtain ⟨rs, nr, hrs, -, h1, h2, h3⟩ := betSizes_spec hsz
  have hc0 := call_nonneg hd
  rw [hseat] at *
  have hrs' : ∀ n, rs = .int n → 0 ≤ n := fun n hn => hr n (by
    rw [← hn]; exact List.mem_of_getElem? hrs)
  unfold Ordered
  generalize pyMax x.streetCommits - streetBet x a = t at *
  by_cases hcap : nr.reached x.streetRaises = true ∨ (x.streetRaises ≠ 0 ∧ t < x.largestRaise)
  · have := h2 hcap
    omega
  · have h4 := h3 hcap
    cases rs with
    | int n =>
      have := hrs' n rfl
      simp only [] at h4
      omega
    | pot => simp only [] at h4; omega
    | inf => simp only [] at h4; omega

/-- the largest raise is at least the big blind -/
theorem raise_ge_of_array (h : ArrayInHand S d) : d.cfg.bigBlind ≤ d.largestRaise := by
  have := array_induct (P := fun _ d => d.cfg.bigBlind ≤ d.largestRaise)
    (fun d d' rb rs shuf obs hd hs hr => by rw [dealt_raise hr])
    (fun S d fold b c lo hi hl hst h2 ih hb hf => by
      obtain ⟨f1, -, -, -, -, f6, -⟩ := afterBet_fields d fold c (cleanBet b c lo hi)
      rw [f1, f6]
      have h1 : (d.acted fold c (cleanBet b c lo hi)).largestRaise =
          if betOf fold c (cleanBet b c lo hi) ≠ 0 ∧ betOf fold c (cleanBet b c lo hi) - c ≥ d.largestRaise then
            betOf fold c (cleanBet b c lo hi) - c else d.largestRaise := rfl
      rw [h1]
      split <;> omega) h
  rcases this with ⟨h1, -⟩ | ⟨e, p, rfl, h1, -⟩
  · exact h1
  · exact h1

/-- `obs` is what `reset` or `step` of the array engine returned when it left the table in state `d` (as `Shows`) -/
def ArrayShows (d : Dealer) (obs : Observation) : Prop :=
  (∃ d0 rb rs shuf, reset d0 rb rs shuf = (d, .ok obs)) ∨ ∃ d0 bet payouts done, step d0 bet = (d, .ok (obs, payouts, done))

theorem shown_sizes {obs : Observation} {a : Nat} (h : ArrayShows d obs) (ha : d.action = some a) :
    d.betSizes = .ok (obs.call, obs.minRaise, obs.maxRaise) := by
  refine observation_sizes (d := d) ?_
  rcases h with ⟨d0, rb, rs, shuf, hr⟩ | ⟨d0, bet, p, dn, hs⟩
  · rcases reset_eq d0 rb rs shuf with ⟨-, -, g⟩ | ⟨-, ⟨-, g⟩ | ⟨-, g⟩⟩
    · rw [hr] at g; simp at g
    · rw [hr] at g; simp at g
    · rw [hr] at g
      simp only [Prod.mk.injEq] at g
      rw [← g.1] at g
      exact g.2.symm
  · cases ha0 : d0.action with
    | none =>
      have := step_none ha0 bet
      rw [hs] at this
      simp only at this
      subst this
      rw [ha] at ha0; simp at ha0
    | some a0 =>
      rcases step_some ha0 bet with ⟨e, -, he⟩ | ⟨b, e, -, -, he⟩ | ⟨b, c, lo, hi, -, -, he⟩
      · rw [hs] at he; simp at he
      · rw [hs] at he; simp at he
      · rw [hs] at he
        rcases finish_cases (afterBet d0 bet.isNeg c (cleanBet b c lo hi)) with
          ⟨e, -, hf⟩ | ⟨q, -, -, hf, -⟩ | ⟨q, -, -, hf1, hf2⟩
        · rw [hf] at he; simp at he
        · rw [← he] at hf
          simp only at hf
          rw [hf] at ha; simp [Dealer.settle] at ha
        · rw [← he] at hf1 hf2
          simp only at hf1 hf2
          rw [hf1]
          cases ho : (afterBet d0 bet.isNeg c (cleanBet b c lo hi)).observation false with
          | error e => rw [show observation _ false = _ from ho] at hf2; simp [Except.map] at hf2
          | ok o =>
            rw [show observation _ false = _ from ho] at hf2
            simp only [Except.map, Except.ok.injEq, Prod.mk.injEq] at hf2
            rw [hf2.1]

/-- A bet that the other engine moves to the same size under both limits does the same. -/
theorem step_relimit {bet : PyNum} {a : Nat} (ha : d.action = some a) (hd : Seated (atSeat d)) (hp : 0 ≤ d.pot) (hz : SizesOk d.cfg)
    (hd' : Seated (atSeat (relimit rs nr d))) (hz' : SizesOk (relimit rs nr d).cfg)
    (hc : ∀ b c lo hi lo' hi', pyRound bet = .ok b → d.betSizes = .ok (c, lo, hi) → (relimit rs nr d).betSizes = .ok (c, lo', hi') →
      Clubs.cleanBet b c lo hi = Clubs.cleanBet b c lo' hi') :
    (step (relimit rs nr d) bet).1 = relimit rs nr (step d bet).1 ∧
    sansRaisesOut (step (relimit rs nr d) bet).2 = sansRaisesOut (step d bet).2 := by
  have ha' : (relimit rs nr d).action = some a := ha
  have h1 : rs.length = d.cfg.raiseSizes.length := hd'.raiseSizes.trans hd.raiseSizes.symm
  have h2 : nr.length = d.cfg.numRaises.length := hd'.numRaises.trans hd.numRaises.symm
  rcases step_some ha bet with ⟨e, hr, he⟩ | ⟨b, e, hr, hs, he⟩ | ⟨b, c, lo, hi, hr, hs, he⟩
  · rcases step_some ha' bet with ⟨e', hr', he'⟩ | ⟨b', e', hr', hs', he'⟩ | ⟨b', c', lo', hi', hr', hs', he'⟩
    · rw [hr] at hr'; cases hr'
      rw [he, he']; exact ⟨rfl, rfl⟩
    · rw [hr] at hr'; cases hr'
    · rw [hr] at hr'; cases hr'
  · rcases step_some ha' bet with ⟨e', hr', he'⟩ | ⟨b', e', hr', hs', he'⟩ | ⟨b', c', lo', hi', hr', hs', he'⟩
    · rw [hr] at hr'; cases hr'
    · rcases betSizes_relimit h1 h2 with ⟨e'', g1, g2⟩ | ⟨c, lo, hi, lo', hi', g1, g2⟩
      · rw [g1] at hs; rw [g2] at hs'
        cases hs; cases hs'
        rw [he, he']; exact ⟨rfl, rfl⟩
      · rw [g1] at hs; cases hs
    · rcases betSizes_relimit h1 h2 with ⟨e'', g1, g2⟩ | ⟨c, lo, hi, lo', hi', g1, g2⟩
      · rw [g2] at hs'; cases hs'
      · rw [g1] at hs; cases hs
  · rcases step_some ha' bet with ⟨e', hr', he'⟩ | ⟨b', e', hr', hs', he'⟩ | ⟨b', c', lo', hi', hr', hs', he'⟩
    · rw [hr] at hr'; cases hr'
    · rcases betSizes_relimit h1 h2 with ⟨e'', g1, g2⟩ | ⟨c, lo, hi, lo', hi', g1, g2⟩
      · rw [g1] at hs; cases hs
      · rw [g2] at hs'; cases hs'
    · have hs : d.betSizes = .ok (c, lo, hi) := hs
      have hs' : (relimit rs nr d).betSizes = .ok (c', lo', hi') := hs'
      rcases betSizes_relimit h1 h2 with ⟨e'', g1, g2⟩ | ⟨c1, lo1, hi1, lo2, hi2, g1, g2⟩
      · rw [g1] at hs; cases hs
      · rw [hs] at g1
        rw [hs'] at g2
        simp only [Except.ok.injEq, Prod.mk.injEq] at g1 g2
        obtain ⟨rfl, rfl, rfl⟩ := g1
        obtain ⟨rfl, rfl, rfl⟩ := g2
        rw [hr] at hr'
        simp only [Except.ok.injEq] at hr'
        subst hr'
        rw [he, he', afterBet_congr (clean_same hd hp hz (show (atSeat d).betSizes = _ from hs) (isNeg_of_round hr)),
          afterBet_congr (clean_same hd' hp hz' (show (atSeat (relimit rs nr d)).betSizes = _ from hs') (isNeg_of_round hr)),
          afterBet_relimit, ← hc b _ lo hi lo' hi' hr hs hs']
        have hcfg : (afterBet d bet.isNeg c' (Clubs.cleanBet b c' lo hi)).cfg = d.cfg := afterBet_cfg d _ _ _
        exact finish_relimit (by rw [hcfg]; exact h1) (by rw [hcfg]; exact h2)

/-- two tables of the array engine that differ in the limits only -/
theorem sizes_both {obs obs' : Observation} {a : Nat} (h : ArrayInHand S d) (h' : ArrayInHand S (relimit rs nr d)) (hn : NonNegative S d.cfg)
    (ha : d.action = some a) (hsh : ArrayShows d obs) (hsh' : ArrayShows (relimit rs nr d) obs') (hs0 : 0 ≤ stack d a)
    (hb : 0 < d.cfg.bigBlind) (hr : RaisesOk d.cfg) (hr' : RaisesOk (relimit rs nr d).cfg) (hmm : obs.minRaise ≤ obs.maxRaise)
    (hmm' : obs'.minRaise ≤ obs'.maxRaise) :
    Seated (atSeat d) ∧ Seated (atSeat (relimit rs nr d)) ∧ 0 ≤ d.pot ∧ d.betSizes = .ok (obs.call, obs.minRaise, obs.maxRaise) ∧
      (relimit rs nr d).betSizes = .ok (obs.call, obs'.minRaise, obs'.maxRaise) ∧ obs'.call = obs.call ∧ 0 ≤ obs.call ∧
      Ordered obs.call obs.minRaise obs.maxRaise ∧ Ordered obs.call obs'.minRaise obs'.maxRaise := by
  have ha' : (relimit rs nr d).action = some a := ha
  obtain ⟨hso, hl, -⟩ := sound_of_action h hn ⟨hb.le, hr⟩ ha
  have s1 := hl.seated
  have s2 := (live_of_array h' ha').1.seated
  have e1 : rs.length = d.cfg.raiseSizes.length := s2.raiseSizes.trans s1.raiseSizes.symm
  have e2 : nr.length = d.cfg.numRaises.length := s2.numRaises.trans s1.numRaises.symm
  have b1 := shown_sizes hsh ha
  have b2 := shown_sizes hsh' ha'
  have hc : obs'.call = obs.call := by
    rcases betSizes_relimit e1 e2 with ⟨e, g1, -⟩ | ⟨c, lo, hi, lo', hi', g1, g2⟩
    · rw [g1] at b1; cases b1
    · rw [g1] at b1
      rw [g2] at b2
      simp only [Except.ok.injEq, Prod.mk.injEq] at b1 b2
      omega
  rw [hc] at b2
  obtain ⟨c0, o1⟩ := sizes_ordered (x := atSeat d) s1 ha b1 (raise_ge_of_array (d := d) h) hs0 hb hr hmm
  obtain ⟨-, o2⟩ := sizes_ordered (x := atSeat (relimit rs nr d)) s2 ha' b2 (raise_ge_of_array (d := relimit rs nr d) h') hs0 hb hr' hmm'
  exact ⟨s1, s2, nn_pot (d := atSeat d) hl hso.nn, b1, b2, hc, c0, o1, o2⟩

/-- **C100** for the array engine: a bet of a size that is offered under both limits does the same under both. -/
theorem C100_offered {obs obs' : Observation} {a : Nat} {b : Int} (h : ArrayInHand S d) (h' : ArrayInHand S (relimit rs nr d))
    (hn : NonNegative S d.cfg) (ha : d.action = some a) (hsh : ArrayShows d obs) (hsh' : ArrayShows (relimit rs nr d) obs')
    (hs0 : 0 ≤ stack d a) (hb : 0 < d.cfg.bigBlind) (hr : RaisesOk d.cfg) (hr' : RaisesOk (relimit rs nr d).cfg)
    (hmm : obs.minRaise ≤ obs.maxRaise) (hmm' : obs'.minRaise ≤ obs'.maxRaise) (hl : Legal obs b) (hl' : Legal obs' b) :
    (step (relimit rs nr d) (.fin b)).1 = relimit rs nr (step d (.fin b)).1 ∧
    sansRaisesOut (step (relimit rs nr d) (.fin b)).2 = sansRaisesOut (step d (.fin b)).2 := by
  obtain ⟨s1, s2, hp, b1, b2, hc, c0, o1, o2⟩ := sizes_both h h' hn ha hsh hsh' hs0 hb hr hr' hmm hmm'
  refine step_relimit ha s1 hp ⟨hb.le, hr⟩ s2 ⟨hb.le, hr'⟩ fun b' c lo hi lo' hi' hb' hs hs' => ?_
  have hbb : b' = b := by
    simp only [pyRound, Except.ok.injEq] at hb'
    have := rounded_unique (roundHalfEven_rounded (b : Rat)) (c := b) (by unfold Rounded; simp)
    omega
  subst hbb
  rw [b1] at hs
  rw [b2] at hs'
  simp only [Except.ok.injEq, Prod.mk.injEq] at hs hs'
  obtain ⟨rfl, rfl, rfl⟩ := hs
  obtain ⟨-, rfl, rfl⟩ := hs'
  rw [clean_offered c0 o1 hl, clean_offered c0 o2 (by unfold Legal at hl'; rw [hc] at hl'; exact hl')]

/-- **C100** for the array engine: lifting a pot limit, or allowing more raises, changes nothing for bets up to the largest size that was
offered before. -/
theorem C100_looser {obs obs' : Observation} {a : Nat} {q : Rat} {b : Int} (h : ArrayInHand S d) (h' : ArrayInHand S (relimit rs nr d))
    (hn : NonNegative S d.cfg) (hlo : Looser d.cfg.raiseSizes rs d.cfg.numRaises nr) (ha : d.action = some a)
    (hsh : ArrayShows d obs) (hsh' : ArrayShows (relimit rs nr d) obs') (hs0 : 0 ≤ stack d a) (hb : 0 < d.cfg.bigBlind) (hr : RaisesOk d.cfg)
    (hr' : RaisesOk (relimit rs nr d).cfg) (hmm : obs.minRaise ≤ obs.maxRaise) (hmm' : obs'.minRaise ≤ obs'.maxRaise)
    (hq : Rounded q b) (hle : b ≤ obs.call ∨ b ≤ obs.maxRaise) :
    (step (relimit rs nr d) (.fin q)).1 = relimit rs nr (step d (.fin q)).1 ∧
    sansRaisesOut (step (relimit rs nr d) (.fin q)).2 = sansRaisesOut (step d (.fin q)).2 := by
  obtain ⟨s1, s2, hp, b1, b2, hc, c0, o1, o2⟩ := sizes_both h h' hn ha hsh hsh' hs0 hb hr hr' hmm hmm'
  have hl := looser_sizes hlo (by rw [seat_some ha]; exact hs0) b1 b2
  refine step_relimit ha s1 hp ⟨hb.le, hr⟩ s2 ⟨hb.le, hr'⟩ fun b' c lo hi lo' hi' hb' hs hs' => ?_
  have hbb : b' = b := by
    simp only [pyRound, Except.ok.injEq] at hb'
    have := rounded_unique (roundHalfEven_rounded q) hq
    omega
  subst hbb
  rw [b1] at hs
  rw [b2] at hs'
  simp only [Except.ok.injEq, Prod.mk.injEq] at hs hs'
  obtain ⟨rfl, rfl, rfl⟩ := hs
  obtain ⟨-, rfl, rfl⟩ := hs'
  unfold Ordered at o1 o2
  refine clean_looser c0 o1 o2 ?_ ?_ hle
  · intro v hv
    omega
  · intro v hv
    omega

/-- **C100** for the array engine: dealing does not depend on the limits, apart from the sizes that the observation offers. -/
theorem C100_reset (hd : Seated (atSeat d)) (h1 : rs.length = d.cfg.numStreets) (h2 : nr.length = d.cfg.numStreets) (rb rst : Bool)
    (shuf : Shuffle) :
    (reset (relimit rs nr d) rb rst shuf).1 = relimit rs nr (reset d rb rst shuf).1 ∧
    (reset (relimit rs nr d) rb rst shuf).2.map sansRaises = (reset d rb rst shuf).2.map sansRaises := by
  have hp : posted (relimit rs nr d) rb rst shuf = relimit rs nr (posted d rb rst shuf) := by
    unfold posted blindStart
    have e1 : (relimit rs nr d).cfg.numPlayers = d.cfg.numPlayers := rfl
    rw [e1]
    split <;> rfl
  rcases reset_eq d rb rst shuf with ⟨g1, g2, g⟩ | ⟨g1, g⟩
  · rcases reset_eq (relimit rs nr d) rb rst shuf with ⟨-, -, k⟩ | ⟨k1, -⟩
    · rw [g, k]; exact ⟨rfl, rfl⟩
    · exfalso
      have k1' : rst = true ∨ 2 ≤ countTrue (d.stacks.map fun s => decide (s > 0)) := k1
      rcases k1' with k1' | k1'
      · rw [g1] at k1'; cases k1'
      · omega
  · rcases reset_eq (relimit rs nr d) rb rst shuf with ⟨k1, k2, -⟩ | ⟨-, k⟩
    · exfalso
      have k2' : countTrue (d.stacks.map fun s => decide (s > 0)) ≤ 1 := k2
      rcases g1 with g1 | g1
      · rw [g1] at k1; cases k1
      · omega
    · have hlen : (relimit rs nr d).cfg.numCommunityCards.length = d.cfg.numCommunityCards.length := rfl
      rw [hlen] at k
      rcases g with ⟨g2, g⟩ | ⟨g2, g⟩
      · rcases k with ⟨-, k⟩ | ⟨k2, -⟩
        · rw [g, k]; exact ⟨rfl, rfl⟩
        · omega
      · rcases k with ⟨k2, -⟩ | ⟨-, k⟩
        · omega
        · rw [g, k, hp]
          refine ⟨rfl, ?_⟩
          have hcfg : (posted d rb rst shuf).moveAction.moveAction.cfg = d.cfg := by
            have := reset_cfg d rb rst shuf
            rw [g] at this
            exact this
          exact observation_relimit (d := (posted d rb rst shuf).moveAction.moveAction) (by rw [hcfg, h1]; exact hd.raiseSizes.symm)
            (by rw [hcfg, h2]; exact hd.numRaises.symm) false

/-- the bet `q` at the first table is not more than what is offered there (as `Within`) -/
def ArrayWithin (d d' : Dealer) (q : Rat) : Prop :=
  ∃ obs obs' a b, ArrayShows d obs ∧ ArrayShows d' obs' ∧ d.action = some a ∧ 0 ≤ stack d a ∧ obs.minRaise ≤ obs.maxRaise ∧
    obs'.minRaise ≤ obs'.maxRaise ∧ Rounded q b ∧ (b ≤ obs.call ∨ b ≤ obs.maxRaise)

/-- **C100** for the array engine: a whole hand in which nobody bets more than the limits allow is, bet by bet, the hand without the
limits. -/
theorem C100_hand (h : ArrayInHand S d) (h' : ArrayInHand S (relimit rs nr d)) (hn : NonNegative S d.cfg)
    (hlo : Looser d.cfg.raiseSizes rs d.cfg.numRaises nr)
    (hb : 0 < d.cfg.bigBlind) (hr : RaisesOk d.cfg) (hr' : RaisesOk (relimit rs nr d).cfg) (bets : List Rat)
    (hw : ∀ l q, l ++ [q] <+: bets → ArrayWithin (arrayAfter d (l.map .fin)) (arrayAfter (relimit rs nr d) (l.map .fin)) q) :
    arrayAfter (relimit rs nr d) (bets.map .fin) = relimit rs nr (arrayAfter d (bets.map .fin)) ∧
    ∀ l q, l ++ [q] <+: bets → sansRaisesOut (step (arrayAfter (relimit rs nr d) (l.map .fin)) (.fin q)).2 =
      sansRaisesOut (step (arrayAfter d (l.map .fin)) (.fin q)).2 := by
  induction bets generalizing d with
  | nil => exact ⟨rfl, fun l q hl => by simp at hl⟩
  | cons b bets ih =>
    obtain ⟨obs, obs', a, x, w1, w2, w3, w4, w5, w6, w7, w8⟩ := hw [] b ⟨bets, rfl⟩
    obtain ⟨s1, s2⟩ := C100_looser h h' hn hlo w3 w1 w2 w4 hb hr hr' w5 w6 w7 w8
    have hcfg : (step d (.fin b)).1.cfg = d.cfg := step_cfg d _
    have hi' : ArrayInHand S (relimit rs nr (step d (.fin b)).1) := by rw [← s1]; exact .step _ h'
    have := ih (d := (step d (.fin b)).1) (.step _ h) hi' (by rw [hcfg]; exact hn) (by rw [hcfg]; exact hlo) (by rw [hcfg]; exact hb)
      (by rw [hcfg]; exact hr)
      (by
        show RaisesOk { (step d (.fin b)).1.cfg with raiseSizes := rs, numRaises := nr }
        rw [hcfg]; exact hr')
      (fun l q hl => by
        have := hw (b :: l) q (by rw [List.cons_append]; exact (List.prefix_cons_inj b).2 hl)
        simp only [arrayAfter, List.map_cons, List.foldl_cons] at this ⊢
        rw [s1] at this
        exact this)
    refine ⟨?_, ?_⟩
    · show arrayAfter (step (relimit rs nr d) (.fin b)).1 _ = relimit rs nr (arrayAfter (step d (.fin b)).1 _)
      rw [s1]; exact this.1
    · intro l q hl
      cases l with
      | nil =>
        obtain ⟨r, hr⟩ := hl
        simp only [List.nil_append, List.singleton_append, List.cons.injEq] at hr
        obtain ⟨rfl, -⟩ := hr
        exact s2
      | cons y l =>
        rw [List.cons_append] at hl
        obtain ⟨rfl, hl'⟩ := List.cons_prefix_cons.1 hl
        have := this.2 l q hl'
        simp only [arrayAfter, List.map_cons, List.foldl_cons] at this ⊢
        rw [s1]; exact this

/-! ## examples -/

/-- check `ArrayWithin` along some whole bets -/
def withinRun (d d' : Dealer) (obs obs' : Observation) : List Int → Bool
  | [] => true
  | b :: bs =>
    (match d.action with | some a => decide (0 ≤ stack d a) | none => false) && decide (obs.minRaise ≤ obs.maxRaise) &&
    decide (obs'.minRaise ≤ obs'.maxRaise) && decide (b ≤ obs.call ∨ b ≤ obs.maxRaise) &&
    match step d (.fin b), step d' (.fin b) with
    | (e, .ok o), (e', .ok o') => withinRun e e' o.1 o'.1 bs
    | _, _ => false

theorem within_of_run {d d' : Dealer} {obs obs' : Observation} (hs : ArrayShows d obs) (hs' : ArrayShows d' obs') {bets : List Int}
    (h : withinRun d d' obs obs' bets = true) (l : List Rat) (q : Rat) (hl : l ++ [q] <+: bets.map (fun b : Int => (b : Rat))) :
    ArrayWithin (arrayAfter d (l.map .fin)) (arrayAfter d' (l.map .fin)) q := by
  induction bets generalizing d d' obs obs' l with
  | nil => simp at hl
  | cons b bets ih =>
    unfold withinRun at h
    simp only [Bool.and_eq_true, decide_eq_true_eq] at h
    obtain ⟨⟨⟨⟨h1, h2⟩, h3⟩, h4⟩, h5⟩ := h
    cases l with
    | nil =>
      obtain ⟨r, hr⟩ := hl
      simp only [List.nil_append, List.singleton_append, List.map_cons, List.cons.injEq] at hr
      obtain ⟨rfl, -⟩ := hr
      cases ha : d.action with
      | none => rw [ha] at h1; cases h1
      | some a =>
        rw [ha] at h1
        exact ⟨obs, obs', a, b, hs, hs', ha, of_decide_eq_true h1, h2, h3, by unfold Rounded; simp, h4⟩
    | cons y l =>
      rw [List.cons_append, List.map_cons] at hl
      obtain ⟨rfl, hl'⟩ := List.cons_prefix_cons.1 hl
      split at h5
      · next e o e' o' g g' =>
        have := ih (.inr ⟨_, _, _, _, g⟩) (.inr ⟨_, _, _, _, g'⟩) h5 l hl'
        simp only [arrayAfter, List.map_cons, List.foldl_cons] at this ⊢
        rw [g, g']; exact this
      · cases h5

/-- a table with limits and the same without, from a computation -/
theorem limits_exist (a : DealerArgs) (rs : List RaiseSize) (nr : List NumRaises) {P : Dealer → Observation → Observation → Prop}
    [∀ d o o', Decidable (P d o o')]
    (h : (Numpy.new a id).bind (fun d => .ok (match reset d true true id, reset (relimit rs nr d) true true id with
      | (e, .ok o), (_, .ok o') => decide (rs.length = d.cfg.numStreets ∧ nr.length = d.cfg.numStreets ∧
          (∀ s ∈ startStacks d true, 0 ≤ s) ∧ (∀ s ∈ e.cfg.blinds, 0 ≤ s) ∧ (∀ s ∈ e.cfg.antes, 0 ≤ s) ∧ P e o o')
      | _, _ => false)) = .ok true) :
    ∃ S d obs obs', ArrayInHand S d ∧ ArrayInHand S (relimit rs nr d) ∧ NonNegative S d.cfg ∧ ArrayShows d obs ∧
      ArrayShows (relimit rs nr d) obs' ∧ P d obs obs' := by
  cases ht : Numpy.new a id with
  | error x => rw [ht] at h; cases h
  | ok d =>
    rw [ht] at h
    simp only [Except.bind, Except.ok.injEq] at h
    have hi : IsShuffle id := fun _ => .refl _
    have hseat : Seated (atSeat d) := new_atSeat ht
    split at h
    · next e o e' o' g g' =>
      rw [decide_eq_true_eq] at h
      obtain ⟨h1, h2, n1, n2, n3, h3⟩ := h
      have := (C100_reset hseat h1 h2 true true id).1
      rw [g, g'] at this
      have this : e' = relimit rs nr e := this
      subst this
      have hseat' : Seated (atSeat (relimit rs nr d)) := ⟨hseat.two, hseat.blinds, hseat.antes, h1, h2, hseat.community, hseat.active,
        hseat.potCommits, hseat.stacks, hseat.streetCommits, hseat.streetOption, hseat.button, hseat.action⟩
      exact ⟨_, e, o, o', .dealt hseat hi g, show ArrayInHand (startStacks (relimit rs nr d) true) _ from .dealt hseat' hi g',
        ⟨n1, n2, n3⟩, .inl ⟨_, _, _, _, g⟩, .inl ⟨_, _, _, _, g'⟩, h3⟩
    · cases h

/-- the hypotheses of `C100_hand`, `C100_looser`: a hand with two raises on the first street and a bet of the pot on the second -/
example : ∃ S d obs obs', ArrayInHand S d ∧ ArrayInHand S (relimit [.inf, .inf] [.inf, .inf] d) ∧ NonNegative S d.cfg ∧ ArrayShows d obs ∧
    ArrayShows (relimit [.inf, .inf] [.inf, .inf] d) obs' ∧ d.cfg.raiseSizes = [.pot, .pot] ∧ d.cfg.numRaises = [.fin 2, .fin 2] ∧
    0 < d.cfg.bigBlind ∧ obs.maxRaise = 7 ∧ obs'.maxRaise = 40 ∧
    withinRun d (relimit [.inf, .inf] [.inf, .inf] d) obs obs' [5, -1, 9, 6, 3, 4, 17, -1] = true ∧
    (arrayAfter d ([5, -1, 9, 6, 3, 4, 17, -1].map .fin)).action = none :=
  limits_exist potTable [.inf, .inf] [.inf, .inf] (by decide +kernel)

/-- the hypotheses of `C100_offered`: fixed raises of 4 chips and the same without a limit, where a bet of 6 is offered by both -/
example : ∃ S d obs obs', ArrayInHand S d ∧ ArrayInHand S (relimit [.inf, .inf] [.inf, .inf] d) ∧ NonNegative S d.cfg ∧ ArrayShows d obs ∧
    ArrayShows (relimit [.inf, .inf] [.inf, .inf] d) obs' ∧ d.cfg.raiseSizes = [.int 4, .int 4] ∧ d.action = some 0 ∧ 0 ≤ stack d 0 ∧
    0 < d.cfg.bigBlind ∧ obs.minRaise ≤ obs.maxRaise ∧ obs'.minRaise ≤ obs'.maxRaise ∧ (obs.minRaise ≤ 6 ∧ 6 ≤ obs.maxRaise) ∧
    (obs'.minRaise ≤ 6 ∧ 6 ≤ obs'.maxRaise) ∧ obs.minRaise ≠ obs'.minRaise ∧ obs.maxRaise ≠ obs'.maxRaise :=
  limits_exist { small 3 [1, 2, 0] 40 with raiseSizes := .scalar (.int 4) } [.inf, .inf] [.inf, .inf] (by decide +kernel)

end Clubs.Numpy
