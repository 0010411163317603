import Verif.Lemmas.Steps

/-! # Bets as they are seen from outside -/

namespace Clubs

open Spec

/-- A step that returns: the bet was placed, and the hand goes on or was settled. -/
structure View (S : List Int) (d d' : Dealer) (bet : PyNum) (out : StepOut) (b c lo hi : Int) (x : Dealer) (p : List Int) : Prop where
  round : pyRound bet = .ok b
  sizes : d.betSizes = .ok (c, lo, hi)
  eq : x = d.afterBet bet.isNeg c (cleanBet b c lo hi)
  live : Live S x
  pay : x.payouts = .ok p
  paid : out.2.1 = p
  done : out.2.2 = x.done
  res : (d' = x ∧ x.done.all id = false ∧ x.observation false = .ok out.1) ∨
    (d' = x.settle p ∧ x.done.all id = true ∧ (x.settle p).observation true = .ok out.1)

theorem step_view {S : List Int} {d d' : Dealer} {a : Nat} {bet : PyNum} {out : StepOut} (h : InHand S d)
    (ha : d.action = some a) (hs : d.step bet = (d', .ok out)) :
    ∃ b c lo hi x p, View S d d' bet out b c lo hi x p := by
  cases step_cases h ha bet with
  | refused e h => rw [hs] at h; simp at h
  | stuck b c lo hi e x hb hs' hx hlx hp h => rw [hs] at h; simp at h
  | goesOn b c lo hi p x obs hb hs' hx hlx hp hd ho h =>
    rw [hs] at h
    simp only [Prod.mk.injEq, Except.ok.injEq] at h
    exact ⟨b, c, lo, hi, x, p, hb, hs', hx, hlx, hp, by rw [h.2], by rw [h.2], .inl ⟨h.1, hd, by rw [h.2]; exact ho⟩⟩
  | ended b c lo hi p x obs hb hs' hx hlx hp hd ho h =>
    rw [hs] at h
    simp only [Prod.mk.injEq, Except.ok.injEq] at h
    exact ⟨b, c, lo, hi, x, p, hb, hs', hx, hlx, hp, by rw [h.2], by rw [h.2], .inr ⟨h.1, hd, by rw [h.2]; exact ho⟩⟩

variable {S : List Int} {d d' : Dealer} {bet : PyNum} {out : StepOut} {b c lo hi : Int} {x : Dealer} {p : List Int}

/-- fields that settling a hand leaves alone -/
theorem View.same (v : View S d d' bet out b c lo hi x p) :
    d'.cfg = x.cfg ∧ d'.active = x.active ∧ d'.button = x.button ∧ d'.communityCards = x.communityCards ∧
    d'.deck = x.deck ∧ d'.history = x.history ∧ d'.holeCards = x.holeCards ∧ d'.largestRaise = x.largestRaise ∧
    d'.potCommits = x.potCommits ∧ d'.street = x.street ∧ d'.streetCommits = x.streetCommits ∧
    d'.streetOption = x.streetOption ∧ d'.streetRaises = x.streetRaises := by
  rcases v.res with ⟨rfl, -⟩ | ⟨rfl, -⟩
  · refine ⟨rfl, rfl, rfl, rfl, rfl, rfl, rfl, rfl, rfl, rfl, rfl, rfl, rfl⟩
  · refine ⟨rfl, rfl, rfl, rfl, rfl, rfl, rfl, rfl, rfl, rfl, rfl, rfl, rfl⟩

theorem View.cfg (v : View S d d' bet out b c lo hi x p) : d'.cfg = d.cfg := by
  rw [v.same.1, v.eq, afterBet_cfg]

theorem seat_some {a : Nat} (ha : d.action = some a) : d.seat = a := by
  unfold Dealer.seat; rw [ha]; rfl

theorem View.moved (v : View S d d' bet out b c lo hi x p) (h : Seated d) (i : Nat) (hi' : i < d.cfg.numPlayers) :
    Spec.moved d d' i = if d.seat = i then min (stack d d.seat) (betOf bet.isNeg c (cleanBet b c lo hi)) else 0 := by
  unfold Spec.moved
  have h1 : contribution d' i = contribution x i := by unfold contribution; rw [v.same.2.2.2.2.2.2.2.2.1]
  rw [h1, v.eq, (contribution_afterBet h _ _ _ i hi').1]
  omega

/-- bet sizes of an observation -/
theorem observation_sizes {obs : Observation} (h : d.observation false = .ok obs) :
    d.betSizes = .ok (obs.call, obs.minRaise, obs.maxRaise) := by
  unfold Dealer.observation at h
  simp only [Bool.false_eq_true, if_false] at h
  cases hb : d.betSizes with
  | error e => rw [hb] at h; simp at h
  | ok t =>
    obtain ⟨c, lo, hi⟩ := t
    rw [hb] at h
    simp only [] at h
    split at h
    · simp at h
    · simp only [Except.ok.injEq] at h
      subst h; rfl

/-- what is shown while somebody is to act -/
theorem shows_observation {obs : Observation} {a : Nat} (h : Shows d obs) (ha : d.action = some a) :
    d.observation false = .ok obs := by
  rcases h with ⟨d0, rb, rs, shuf, hr⟩ | ⟨d0, bet, p, dn, hs⟩
  · exact (reset_ok hr).2.2.2
  · cases ha0 : d0.action with
    | none =>
      have := step_none ha0 bet
      rw [hs] at this
      simp only at this
      subst this
      rw [ha] at ha0; simp at ha0
    | some a0 =>
      rcases step_some ha0 bet with ⟨e, -, he⟩ | ⟨b, e, -, -, he⟩ | ⟨b, c, lo, hi, -, -, he⟩
      · rw [hs] at he; simp at he
      · rw [hs] at he; simp at he
      · rw [hs] at he
        rcases finish_cases (d0.afterBet bet.isNeg c (cleanBet b c lo hi)) with
          ⟨e, -, hf⟩ | ⟨q, -, -, hf, -⟩ | ⟨q, -, -, hf1, hf2⟩
        · rw [hf] at he; simp at he
        · rw [← he] at hf
          simp only at hf
          rw [hf] at ha; simp [Dealer.settle] at ha
        · rw [← he] at hf1 hf2
          simp only at hf1 hf2
          rw [hf1]
          cases ho : (d0.afterBet bet.isNeg c (cleanBet b c lo hi)).observation false with
          | error e => rw [ho] at hf2; simp [Except.map] at hf2
          | ok o =>
            rw [ho] at hf2
            simp only [Except.map, Except.ok.injEq, Prod.mk.injEq] at hf2
            rw [hf2.1]

theorem shows_sizes {obs : Observation} {a : Nat} (h : Shows d obs) (ha : d.action = some a) :
    d.betSizes = .ok (obs.call, obs.minRaise, obs.maxRaise) := observation_sizes (shows_observation h ha)

/-- the chosen bet is affordable -/
theorem cleanBet_le (h : d.betSizes = .ok (c, lo, hi)) (b : Int) : cleanBet b c lo hi ≤ max 0 (stack d d.seat) := by
  obtain ⟨h1, h2, h3⟩ := betSizes_le h
  rcases cleanBet_cases b c lo hi with ⟨-, -, -, e⟩ | ⟨-, -, -, e⟩ | ⟨-, -, -, e⟩ | ⟨-, -, -, e⟩ <;> rw [e] <;> omega

/-- the invariant of the largest raise -/
def RaiseInv (d : Dealer) : Prop := d.cfg.bigBlind ≤ d.largestRaise ∧ d.largestRaise ≤ max d.cfg.bigBlind d.pot

theorem dealt_raise {rb rs : Bool} {shuf : Shuffle} {obs : Observation} (hr : d.reset rb rs shuf = (d', .ok obs)) :
    d'.largestRaise = d'.cfg.bigBlind := by
  obtain ⟨-, -, rfl, -⟩ := reset_ok hr
  show (d.blindStart rb rs shuf).largestRaise = (d.blindStart rb rs shuf).cfg.bigBlind
  unfold Dealer.blindStart
  split <;> rfl

theorem dealt_covered {d d' : Dealer} {rb rs : Bool} {shuf : Shuffle} {obs : Observation} (h : Seated d)
    (hr : d.reset rb rs shuf = (d', .ok obs)) (hn : NonNegative (startStacks d rs) d'.cfg)
    (hcov : Covers (startStacks d rs) d'.cfg) : ∀ i < d'.cfg.numPlayers, 0 ≤ stack d' i := by
  obtain ⟨h1, h2, rfl, -⟩ := reset_ok hr
  have hcfg : ((d.posted rb rs shuf).moveAction.moveAction).cfg = d.cfg := blindStart_cfg d rb rs shuf
  rw [hcfg] at hn hcov ⊢
  obtain ⟨c1, -, -, -, -, -, -, -, -, -, c6, -, -, -⟩ := blindStart_same d rb rs shuf
  have hb := blindStart_seated h rb rs shuf
  have ha : d.cfg.antes.length = (d.blindStart rb rs shuf).cfg.numPlayers := by rw [c1]; exact h.antes
  have hbl : d.cfg.blinds.length = ((d.blindStart rb rs shuf).collectMultipleBets d.cfg.antes false).cfg.numPlayers := by
    show _ = (d.blindStart rb rs shuf).cfg.numPlayers
    rw [c1]; exact h.blinds
  have hb1 := collectMultipleBets_seated hb false ha
  have m1 := collectMultipleBets_money hb false ha
  have m2 := collectMultipleBets_money hb1 true hbl
  intro i hi
  have g1 := (m1.1 i (by rw [c1]; exact hi)).1
  have g2 := (m2.1 i (by show i < (d.blindStart rb rs shuf).cfg.numPlayers; rw [c1]; exact hi)).1
  have e1 : stack (d.blindStart rb rs shuf) i = (startStacks d rs).getD i 0 := by unfold stack; rw [c6]; rfl
  have hslt : (d.blindStart rb rs shuf).seat < d.cfg.numPlayers := by
    have := seat_lt hb; rw [c1] at this; exact this
  have f1 := forcedBets_getD hb ha i (by rw [c1]; exact hi)
  have f2 := forcedBets_getD hb1 hbl i (by show i < (d.blindStart rb rs shuf).cfg.numPlayers; rw [c1]; exact hi)
  rw [roll_getD _ _ _ _ (by rw [h.antes]; exact hslt) (by rw [h.antes]; exact hi), h.antes] at f1
  rw [show ((d.blindStart rb rs shuf).collectMultipleBets d.cfg.antes false).seat = (d.blindStart rb rs shuf).seat from rfl,
    roll_getD _ _ _ _ (by rw [h.blinds]; exact hslt) (by rw [h.blinds]; exact hi), h.blinds] at f2
  have hj : (i + (d.cfg.numPlayers - (d.blindStart rb rs shuf).seat)) % d.cfg.numPlayers < d.cfg.numPlayers :=
    Nat.mod_lt _ (by omega)
  generalize (i + (d.cfg.numPlayers - (d.blindStart rb rs shuf).seat)) % d.cfg.numPlayers = j at hj f1 f2
  have hs0 := list_getD_nonneg hn.start i
  have ha0 := list_getD_nonneg hn.antes j
  have hb0 := list_getD_nonneg hn.blinds j
  show 0 ≤ stack (d.posted rb rs shuf) i
  unfold Dealer.posted
  rw [g2]
  unfold stack at g1 e1
  simp only [e1] at f1
  simp only [g1, e1] at f2
  rw [f2]
  show 0 ≤ List.getD _ i 0 - _
  rw [g1, e1]
  rcases hcov i hi with hz | hz
  · rw [hz] at f1
    rw [if_neg (by omega)] at f1
    rw [f1, hz, if_neg (by omega)]
    omega
  · have hz := hz j hj
    by_cases hc1 : (startStacks d rs).getD i 0 > 0 ∧ (d.blindStart rb rs shuf).active.getD i false = true
    · rw [if_pos hc1] at f1
      rw [f1]
      split <;> omega
    · rw [if_neg hc1] at f1
      rw [f1]
      split <;> omega

theorem afterBet_raise {fold : Bool} (hl : Live S d) (hn : NN d) (hi' : RaiseInv d) (hb : d.betSizes = .ok (c, lo, hi))
    (hs0 : 0 ≤ stack d d.seat) : RaiseInv (d.afterBet fold c (cleanBet b c lo hi)) := by
  obtain ⟨f1, -, -, -, -, f6, f7, -⟩ := afterBet_fields d fold c (cleanBet b c lo hi)
  unfold RaiseInv at *
  rw [f1, f6, f7]
  have hp := nn_pot hl hn
  have hx := cleanBet_le hb b
  have hx0 := betOf_nonneg (b := b) hl.seated hp hb fold
  have hc : c = min (toCall d d.seat) (stack d d.seat) := by
    obtain ⟨rs, nr, -, -, h1, -⟩ := betSizes_spec hb
    exact h1
  have hc0 := call_nonneg hl.seated
  have h1 : (d.acted fold c (cleanBet b c lo hi)).largestRaise =
      if betOf fold c (cleanBet b c lo hi) ≠ 0 ∧ betOf fold c (cleanBet b c lo hi) - c ≥ d.largestRaise then
        betOf fold c (cleanBet b c lo hi) - c else d.largestRaise := rfl
  have h2 : (d.acted fold c (cleanBet b c lo hi)).pot =
      d.pot + min (stack d d.seat) (betOf fold c (cleanBet b c lo hi)) := rfl
  rw [h1, h2]
  have h3 : betOf fold c (cleanBet b c lo hi) ≤ max 0 (cleanBet b c lo hi) := by unfold betOf; split <;> omega
  unfold toCall at hc
  split <;> omega

/-- the largest raise is at least the big blind -/
theorem raise_ge_of_inHand (h : InHand S d) : d.cfg.bigBlind ≤ d.largestRaise := by
  have := inHand_induct (P := fun _ d => d.cfg.bigBlind ≤ d.largestRaise)
    (fun d d' rb rs shuf obs hd hs hr => by rw [dealt_raise hr])
    (fun S d fold b c lo hi _ hl hst h2 ih hb => by
      obtain ⟨f1, -, -, -, -, f6, -⟩ := afterBet_fields d fold c (cleanBet b c lo hi)
      rw [f1, f6]
      have h1 : (d.acted fold c (cleanBet b c lo hi)).largestRaise =
          if betOf fold c (cleanBet b c lo hi) ≠ 0 ∧ betOf fold c (cleanBet b c lo hi) - c ≥ d.largestRaise then
            betOf fold c (cleanBet b c lo hi) - c else d.largestRaise := rfl
      rw [h1]
      split <;> omega) h
  rcases this with ⟨h1, -⟩ | ⟨e, p, rfl, h1, -⟩
  · exact h1
  · exact h1

/-- while a hand is running, if the stacks cover the blinds -/
theorem covered_of_inHand (h : InHand S d) (hn : NonNegative S d.cfg) (hcov : Covers S d.cfg) (ha : d.action ≠ none) :
    NN d ∧ RaiseInv d ∧ ∀ i < d.cfg.numPlayers, 0 ≤ stack d i := by
  have := inHand_induct (P := fun S d => NonNegative S d.cfg → Covers S d.cfg → NN d ∧ RaiseInv d ∧
      ∀ i < d.cfg.numPlayers, 0 ≤ stack d i)
    (fun d d' rb rs shuf obs hd hs hr hn hc => ⟨dealt_nn hd hr hn, by
      have h1 := dealt_raise hr
      unfold RaiseInv
      omega, dealt_covered hd hr hn hc⟩)
    (fun S d fold b c lo up _ hl hst h2 ih hb hn hc => by
      rw [afterBet_cfg] at hn hc
      obtain ⟨i1, i2, i3⟩ := ih hn hc
      refine ⟨afterBet_nn hl hn.start h2 i1 hb, afterBet_raise hl i1 i2 hb (i3 _ (seat_lt hl.seated)), ?_⟩
      intro i hi
      rw [afterBet_cfg] at hi
      rw [(contribution_afterBet hl.seated fold c (cleanBet b c lo up) i hi).2]
      have h3 := i3 i hi
      split
      · next h4 => rw [h4]; have := min_le_left (stack d i) (betOf fold c (cleanBet b c lo up)); omega
      · omega) h
  rcases this with ⟨h1, -⟩ | ⟨e, p, rfl, -⟩
  · exact h1 hn hcov
  · exact absurd rfl ha

end Clubs
