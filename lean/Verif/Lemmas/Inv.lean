import Verif.Lemmas.Pot2

/-! # Invariants of a hand -/

namespace Clubs

open Spec

/-! ## payouts -/

theorem mapM_except_length {α β : Type} (f : α → Except Err β) (l : List α) (l' : List β)
    (h : l.mapM f = .ok l') : l'.length = l.length := by
  induction l generalizing l' with
  | nil =>
    rw [List.mapM_nil] at h
    cases h; rfl
  | cons a l ih =>
    rw [List.mapM_cons] at h
    cases ha : f a with
    | error e => rw [ha] at h; cases h
    | ok b =>
      rw [ha] at h
      cases hl : l.mapM f with
      | error e => rw [hl] at h; cases h
      | ok bs =>
        rw [hl] at h
        cases h
        simp [ih bs hl]

theorem evalHands_length {d : Dealer} {hole : List (List Card)} {comm : List Card} {s : List Int}
    (h : d.evalHands hole comm = .ok s) : s.length = d.cfg.numPlayers := by
  have := mapM_except_length _ _ _ h
  simpa using this

/-- what the folded players have lost -/
def lostList (d : Dealer) : List Int := List.zipWith (fun c (a : Bool) => if a then 0 else -1 * c) d.potCommits d.active

/-- `_payouts` by cases -/
theorem payouts_cases {d : Dealer} {p : List Int} (h : d.payouts = .ok p) :
    (countTrue d.active = 1 ∧ p = List.zipWith (· + ·) (lostList d)
      (List.zipWith (fun (a : Bool) c => if a then d.pot - c else 0) d.active d.potCommits)) ∨
    (countTrue d.active ≠ 1 ∧ d.cfg.numStreets ≤ d.street ∧ ∃ q, d.evalRound = .ok q ∧
      p = List.zipWith (· - ·) q d.potCommits) ∨
    (countTrue d.active ≠ 1 ∧ d.street < d.cfg.numStreets ∧ p = lostList d) := by
  unfold Dealer.payouts at h
  simp only [] at h
  split at h
  · next h1 =>
    simp only [Except.ok.injEq] at h
    exact .inl ⟨h1, h.symm⟩
  · next h1 =>
    right
    split at h
    · next h2 =>
      left
      cases hq : d.evalRound with
      | error e => rw [hq] at h; simp at h
      | ok q =>
        rw [hq] at h
        simp only [Except.ok.injEq] at h
        exact ⟨h1, h2, q, rfl, h.symm⟩
    · next h2 =>
      right
      simp only [Except.ok.injEq] at h
      exact ⟨h1, by omega, h.symm⟩

theorem evalRound_cases {d : Dealer} {q : List Int} (h : d.evalRound = .ok q) :
    ∃ s, d.evalHands d.holeCards d.communityCards = .ok s ∧
      potPayouts d.cfg.numPlayers d.button d.worstHand d.pot d.potCommits s = .ok q := by
  unfold Dealer.evalRound at h
  cases hs : d.evalHands d.holeCards d.communityCards with
  | error e => rw [hs] at h; simp at h
  | ok s => rw [hs] at h; exact ⟨s, rfl, h⟩

theorem payouts_length {d : Dealer} (hd : Seated d) {p : List Int} (h : d.payouts = .ok p) :
    p.length = d.cfg.numPlayers := by
  rcases payouts_cases h with ⟨-, rfl⟩ | ⟨-, -, q, hq, rfl⟩ | ⟨-, -, rfl⟩
  · simp [lostList, hd.potCommits, hd.active]
  · obtain ⟨s, -, hp⟩ := evalRound_cases hq
    simp [potPayouts_length hp, hd.potCommits]
  · simp [lostList, hd.potCommits, hd.active]

/-! ## every dealer is seated -/

theorem finish_seated {d : Dealer} (h : Seated d) : Seated d.finish.1 := by
  rcases finish_cases d with ⟨e, -, he⟩ | ⟨p, hp, -, he, -⟩ | ⟨p, -, -, he, -⟩
  · rw [he]; exact h
  · rw [he]; exact settle_seated h (payouts_length h hp)
  · rw [he]; exact h

theorem step_seated {d : Dealer} (h : Seated d) (bet : PyNum) : Seated (d.step bet).1 := by
  cases ha : d.action with
  | none => rw [step_none ha]; exact h
  | some a =>
    rcases step_some ha bet with ⟨e, -, he⟩ | ⟨b, e, -, -, he⟩ | ⟨b, c, lo, hi, -, -, he⟩
    · rw [he]; exact h
    · rw [he]; exact h
    · rw [he]; exact finish_seated (afterBet_seated h _ _ _)

theorem checkInp_length {α : Type} {v : ListOr α} {n : Int} {l : List α} (h : checkInp v n = .ok l) :
    l.length = n.toNat := by
  unfold checkInp at h
  cases v with
  | scalar a =>
    simp only [Except.ok.injEq] at h
    rw [← h]; exact List.length_replicate
  | list l' =>
    simp only at h
    split at h
    · simp at h
    · simp only [Except.ok.injEq] at h
      subst h; omega

theorem new_seated {a : DealerArgs} {shuf : Shuffle} {d : Dealer} (h : Dealer.new a shuf = .ok d) : Seated d := by
  unfold Dealer.new at h
  simp only [bind, Except.bind, pure, Except.pure] at h
  split at h
  · simp at h
  next blinds hb =>
  split at h
  · simp at h
  next antes han =>
  split at h
  · simp at h
  next rsz hrs =>
  split at h
  · simp at h
  next nr hnr =>
  split at h
  · simp at h
  next ncc hncc =>
  split at h
  · simp at h
  next bb hbb =>
  split at h
  · simp at h
  next rsz' hrs' =>
  split at h
  · simp at h
  next nr' hnr' =>
  split at h
  · simp at h
  next deck hdeck =>
  split at h
  · simp at h
  next ev hev =>
  split at h
  · simp at h
  next pos hpos =>
  simp only [Except.ok.injEq] at h
  subst h
  have hn : 2 ≤ a.numPlayers.toNat := by
    have := checkInp_length hb
    by_contra hlt
    have hl : blinds.length ≤ 1 := by omega
    unfold pyGet at hbb
    simp only [] at hbb
    rw [if_neg (by omega), if_neg (by omega)] at hbb
    rw [List.getElem?_eq_none (by simpa using hl)] at hbb
    simp at hbb
  exact {
    two := hn
    blinds := checkInp_length hb
    antes := checkInp_length han
    raiseSizes := by rw [mapM_except_length _ _ _ hrs']; exact checkInp_length hrs
    numRaises := by rw [mapM_except_length _ _ _ hnr']; exact checkInp_length hnr
    community := checkInp_length hncc
    active := List.length_replicate
    potCommits := List.length_replicate
    «stacks» := List.length_replicate
    streetCommits := List.length_replicate
    streetOption := List.length_replicate
    button := by show 0 < a.numPlayers.toNat; omega
    action := by intro x hx; simp at hx }

/-- Every dealer object has the shape `Seated`. -/
theorem reachable_seated {d : Dealer} (h : Reachable d) : Seated d := by
  induction h with
  | new _ h => exact new_seated h
  | reset rb rs _ _ ih => exact reset_seated ih rb rs _
  | step bet _ ih => exact step_seated ih bet
  | trick _ _ _ ih => exact { ih with }
  | untrick _ ih => exact { ih with }

/-! ## facts about `act` and `nextStreet` -/

/-- The fields of the state after a bet, before the end of the hand is checked. -/
theorem afterBet_fields (d : Dealer) (fold : Bool) (call bet : Int) :
    (d.afterBet fold call bet).cfg = d.cfg ∧
    (d.afterBet fold call bet).active = (d.acted fold call bet).active ∧
    (d.afterBet fold call bet).button = d.button ∧
    (d.afterBet fold call bet).history = (d.acted fold call bet).history ∧
    (d.afterBet fold call bet).holeCards = d.holeCards ∧
    (d.afterBet fold call bet).largestRaise = (d.acted fold call bet).largestRaise ∧
    (d.afterBet fold call bet).pot = (d.acted fold call bet).pot ∧
    (d.afterBet fold call bet).potCommits = (d.acted fold call bet).potCommits ∧
    (d.afterBet fold call bet).stacks = (d.acted fold call bet).stacks := by
  unfold Dealer.afterBet
  split
  · unfold Dealer.nextStreet
    simp only []
    generalize hg : Dealer.moveAction { d.act fold call bet with action := some (d.act fold call bet).button } = g
    have h3 := dealStreets_fields (g.cfg.numStreets + 1) g
    generalize dealStreets (g.cfg.numStreets + 1) g = f at h3 ⊢
    rw [h3]
    subst hg
    rw [act_eq]
    refine ⟨rfl, rfl, rfl, rfl, rfl, rfl, rfl, rfl, rfl⟩
  · rw [act_eq]
    refine ⟨rfl, rfl, rfl, rfl, rfl, rfl, rfl, rfl, rfl⟩

/-- Invariant of a hand from the deal to the moment before it ends. -/
structure Live (S : List Int) (d : Dealer) : Prop where
  seated : Seated d
  startLen : S.length = d.cfg.numPlayers
  holeLen : d.holeCards.length = d.cfg.numPlayers
  oneStreet : 1 ≤ d.cfg.numStreets
  street : d.street ≤ d.cfg.numStreets
  action : ∃ a, d.action = some a ∧ isIn d a
  one : 1 ≤ countTrue d.active
  money : ∀ i < d.cfg.numPlayers, stack d i + contribution d i = S.getD i 0
  pot : d.pot = d.potCommits.sum

theorem dealHole_length (k : Int) (n : Nat) (deck : Deck) : (dealHole k n deck).1.length = n := by
  induction n generalizing deck with
  | zero => rfl
  | succ n ih => simp [dealHole, ih]

/-- the forced bet of a seat -/
theorem forcedBets_getD {d : Dealer} (h : Seated d) {bets : List Int} (hb : bets.length = d.cfg.numPlayers)
    (i : Nat) (hi : i < d.cfg.numPlayers) :
    (d.forcedBets bets).getD i 0 = if d.stacks.getD i 0 > 0 ∧ d.active.getD i false = true then (roll bets d.seat).getD i 0 else 0 := by
  unfold Dealer.forcedBets
  have h1 : i < (d.stacks.zip (d.active.zip (roll bets d.seat))).length := by
    simp [h.stacks, h.active, roll_length, hb, hi]
  simp only []
  rw [getD_eq _ _ _ (by simpa using h1)]
  simp only [List.getElem_map, List.getElem_zip]
  have e1 : d.stacks.getD i 0 = d.stacks[i]'(by rw [h.stacks]; exact hi) := getD_eq _ _ _ _
  have e2 : d.active.getD i false = d.active[i]'(by rw [h.active]; exact hi) := getD_eq _ _ _ _
  have e3 : (roll bets d.seat).getD i 0 = (roll bets d.seat)[i]'(by rw [roll_length, hb]; exact hi) := getD_eq _ _ _ _
  rw [e1, e2, e3]

theorem collectMultipleBets_money {d : Dealer} (h : Seated d) {bets : List Int} (b : Bool)
    (hb : bets.length = d.cfg.numPlayers) :
    (∀ i < d.cfg.numPlayers, stack (d.collectMultipleBets bets b) i = stack d i - (d.forcedBets bets).getD i 0 ∧
      contribution (d.collectMultipleBets bets b) i = contribution d i + (d.forcedBets bets).getD i 0 ∧
      streetBet (d.collectMultipleBets bets b) i =
        streetBet d i + if b = true then (d.forcedBets bets).getD i 0 else 0) ∧
    (d.pot = d.potCommits.sum → (d.collectMultipleBets bets b).pot = (d.collectMultipleBets bets b).potCommits.sum) := by
  have hl := forcedBets_length h hb
  constructor
  · intro i hi
    refine ⟨?_, ?_, ?_⟩
    · exact getD_zipWith _ _ _ _ _ _ _ (by rw [h.stacks]; exact hi) (by rw [hl]; exact hi)
    · exact getD_zipWith _ _ _ _ _ _ _ (by rw [h.potCommits]; exact hi) (by rw [hl]; exact hi)
    · cases b with
      | true =>
        simp only [if_true]
        exact getD_zipWith _ _ _ _ _ _ _ (by rw [h.streetCommits]; exact hi) (by rw [hl]; exact hi)
      | false => simp [streetBet, Dealer.collectMultipleBets]
  · intro hp
    show d.pot + _ = (List.zipWith (· + ·) d.potCommits (d.forcedBets bets)).sum
    rw [sum_zipWith_add _ _ (by rw [h.potCommits, hl]), hp]

theorem fresh_active_count {d : Dealer} (h : Seated d) {rb rs : Bool} {shuf : Shuffle}
    (hc : rs = true ∨ 2 ≤ countTrue (d.stacks.map fun s => decide (s > 0))) :
    2 ≤ countTrue (d.fresh rb rs shuf).active := by
  show 2 ≤ countTrue (if rs = true then _ else _)
  cases rs with
  | true => simp only [if_true]; rw [countTrue_replicate]; exact h.two
  | false =>
    rcases hc with hc | hc
    · simp at hc
    · simpa using hc

theorem blindStart_same (d : Dealer) (rb rs : Bool) (shuf : Shuffle) :
    let b := d.blindStart rb rs shuf
    let f := d.fresh rb rs shuf
    b.cfg = f.cfg ∧ b.active = f.active ∧ b.button = f.button ∧ b.communityCards = f.communityCards ∧
    b.deck = f.deck ∧ b.history = f.history ∧ b.holeCards = f.holeCards ∧ b.largestRaise = f.largestRaise ∧
    b.pot = f.pot ∧ b.potCommits = f.potCommits ∧ b.stacks = f.stacks ∧ b.street = f.street ∧
    b.streetCommits = f.streetCommits ∧ b.streetRaises = f.streetRaises := by
  unfold Dealer.blindStart
  split <;> exact ⟨rfl, rfl, rfl, rfl, rfl, rfl, rfl, rfl, rfl, rfl, rfl, rfl, rfl, rfl⟩

theorem startStacks_length {d : Dealer} (h : Seated d) (rs : Bool) : (startStacks d rs).length = d.cfg.numPlayers := by
  unfold startStacks; split
  · exact List.length_replicate
  · exact h.stacks

theorem posted_money {d : Dealer} (h : Seated d) (rb rs : Bool) (shuf : Shuffle) :
    (∀ i < d.cfg.numPlayers, stack (d.posted rb rs shuf) i + contribution (d.posted rb rs shuf) i =
      (startStacks d rs).getD i 0) ∧
    (d.posted rb rs shuf).pot = (d.posted rb rs shuf).potCommits.sum := by
  have hb := blindStart_seated h rb rs shuf
  obtain ⟨c1, -, -, -, -, -, -, -, c2, c3, c4, -⟩ := blindStart_same d rb rs shuf
  have ha : d.cfg.antes.length = (d.blindStart rb rs shuf).cfg.numPlayers := by rw [c1]; exact h.antes
  have hbl : d.cfg.blinds.length = ((d.blindStart rb rs shuf).collectMultipleBets d.cfg.antes false).cfg.numPlayers := by
    show _ = (d.blindStart rb rs shuf).cfg.numPlayers
    rw [c1]; exact h.blinds
  have m1 := collectMultipleBets_money hb false ha
  have m2 := collectMultipleBets_money (collectMultipleBets_seated hb false ha) true hbl
  constructor
  · intro i hi
    have e1 := m1.1 i (by rw [c1]; exact hi)
    have e2 := m2.1 i (by show _ < (d.blindStart rb rs shuf).cfg.numPlayers; rw [c1]; exact hi)
    have e3 : stack (d.blindStart rb rs shuf) i = (startStacks d rs).getD i 0 := by unfold stack; rw [c4]; rfl
    have e4 : contribution (d.blindStart rb rs shuf) i = 0 := by
      unfold contribution; rw [c3]; exact getD_replicate _ _ _ _ hi
    unfold Dealer.posted
    rw [e2.1, e2.2.1, e1.1, e1.2.1, e3, e4]
    ring
  · apply m2.2
    apply m1.2
    rw [c2, c3]
    show (0 : Int) = (List.replicate _ 0).sum
    simp

theorem posted_live {d : Dealer} {rb rs : Bool} {shuf : Shuffle} (h : Seated d)
    (h1 : rs = true ∨ 2 ≤ countTrue (d.stacks.map fun s => decide (s > 0))) (h2 : 1 ≤ d.cfg.numCommunityCards.length) :
    Live (startStacks d rs) (d.posted rb rs shuf).moveAction.moveAction ∧
    (d.posted rb rs shuf).moveAction.moveAction.street = 0 ∧
    2 ≤ countTrue (d.posted rb rs shuf).moveAction.moveAction.active := by
  obtain ⟨c1, c2, -, -, -, -, c3, -, -, -, -, c4, -, -⟩ := blindStart_same d rb rs shuf
  have hcfg : (d.posted rb rs shuf).cfg = d.cfg := c1
  have hact : (d.posted rb rs shuf).active = (d.fresh rb rs shuf).active := c2
  have hcount : 2 ≤ countTrue (d.posted rb rs shuf).active := by
    rw [hact]; exact fresh_active_count h h1
  have hs := posted_seated h rb rs shuf
  have hs1 := moveAction_seated hs
  obtain ⟨a, ha⟩ := moveAction_spec (d := (d.posted rb rs shuf).moveAction) hs1.active
    (show 1 ≤ countTrue (d.posted rb rs shuf).active by omega)
  have hm := posted_money h rb rs shuf
  have hst : (d.posted rb rs shuf).street = 0 := c4
  refine ⟨?_, hst, hcount⟩
  refine ⟨moveAction_seated hs1, ?_, ?_, ?_, ?_, ?_, ?_, ?_, ?_⟩
  · show _ = (d.posted rb rs shuf).cfg.numPlayers
    rw [hcfg]; exact startStacks_length h rs
  · show (d.posted rb rs shuf).holeCards.length = (d.posted rb rs shuf).cfg.numPlayers
    rw [hcfg, show (d.posted rb rs shuf).holeCards = (d.fresh rb rs shuf).holeCards from c3]
    exact dealHole_length _ _ _
  · show 1 ≤ (d.posted rb rs shuf).cfg.numStreets
    rw [hcfg, ← h.community]; exact h2
  · show (d.posted rb rs shuf).street ≤ _
    rw [hst]; omega
  · exact ⟨a, by rw [ha.eq], ha.isIn⟩
  · show 1 ≤ countTrue (d.posted rb rs shuf).active
    omega
  · intro i hi
    exact hm.1 i (by rw [← hcfg]; exact hi)
  · exact hm.2

theorem dealt_live {d d' : Dealer} {rb rs : Bool} {shuf : Shuffle} {obs : Observation} (h : Seated d)
    (hr : d.reset rb rs shuf = (d', .ok obs)) : Live (startStacks d rs) d' ∧ d'.street = 0 ∧ 2 ≤ countTrue d'.active := by
  obtain ⟨h1, h2, rfl, -⟩ := reset_ok hr
  exact posted_live h h1 h2

theorem acted_count {d : Dealer} (h : Seated d) {a : Nat} (ha : d.action = some a) (hin : isIn d a)
    (hc : 2 ≤ countTrue d.active) (fold : Bool) (call bet : Int) :
    1 ≤ countTrue (d.acted fold call bet).active := by
  have hseat : d.seat = a := by unfold Dealer.seat; rw [ha]; rfl
  show 1 ≤ countTrue (if _ then _ else _)
  split
  · have := countTrue_set_false d.active d.seat (by rw [h.active]; exact seat_lt h) (by rw [hseat]; exact hin)
    omega
  · omega

theorem acted_money {d : Dealer} (h : Seated d) (fold : Bool) (call bet : Int) :
    (∀ i < d.cfg.numPlayers, stack (d.acted fold call bet) i + contribution (d.acted fold call bet) i =
      stack d i + contribution d i) ∧
    (d.pot = d.potCommits.sum → (d.acted fold call bet).pot = (d.acted fold call bet).potCommits.sum) := by
  constructor
  · intro i hi
    unfold stack contribution Dealer.acted
    simp only []
    rw [getD_modify _ _ _ _ _ (by rw [h.stacks]; exact hi), getD_modify _ _ _ _ _ (by rw [h.potCommits]; exact hi)]
    split <;> ring
  · intro hp
    show _ = (d.potCommits.modify d.seat (· + _)).sum
    rw [sum_modify_add _ _ _ (by rw [h.potCommits]; exact seat_lt h), ← hp]
    rfl

/-- action and street after a bet -/
theorem afterBet_action {d : Dealer} (h : Seated d) (hst : d.street < d.cfg.numStreets) (fold : Bool) (call bet : Int)
    (hc : 1 ≤ countTrue (d.acted fold call bet).active) :
    (∃ a, (d.afterBet fold call bet).action = some a ∧ isIn (d.afterBet fold call bet) a) ∧
    (d.afterBet fold call bet).street ≤ d.cfg.numStreets := by
  have hs := acted_seated h fold call bet
  unfold Dealer.afterBet
  split
  · have hs2 := act_seated h fold call bet
    have hc2 : 1 ≤ countTrue ({ d.act fold call bet with action := some (d.act fold call bet).button } : Dealer).active := by
      rw [act_eq]; exact hc
    obtain ⟨a, ha⟩ := moveAction_spec (d := { d.act fold call bet with action := some (d.act fold call bet).button })
      hs2.active hc2
    unfold Dealer.nextStreet
    simp only []
    have hcfg : (d.act fold call bet).cfg = d.cfg := by rw [act_eq]; rfl
    have hst2 : (d.act fold call bet).street = d.street := by rw [act_eq]; rfl
    generalize hg : Dealer.moveAction { d.act fold call bet with action := some (d.act fold call bet).button } = g at ha ⊢
    have g1 : g.cfg = d.cfg := by rw [← hg]; exact hcfg
    have g2 : g.street = d.street := by rw [← hg]; exact hst2
    have g3 : g.action = some a := by rw [ha.eq]
    have g4 : isIn g a := by
      have := ha.isIn
      rw [ha.eq]; exact this
    have h3 := dealStreets_fields (g.cfg.numStreets + 1) g
    have h4 := dealStreets_street (g.cfg.numStreets + 1) g (by rw [g1, g2]; exact hst) (by omega)
    refine ⟨⟨a, ?_, ?_⟩, ?_⟩
    · show (dealStreets (g.cfg.numStreets + 1) g).action = some a
      rw [h3]; exact g3
    · show (dealStreets (g.cfg.numStreets + 1) g).active.getD a false = true
      rw [h3]; exact g4
    · show (dealStreets (g.cfg.numStreets + 1) g).street ≤ _
      rw [h4, g1, g2]; split <;> omega
  · rw [act_eq]
    obtain ⟨a, ha⟩ := moveAction_spec (d := d.acted fold call bet) hs.active hc
    refine ⟨⟨a, by rw [ha.eq], by rw [ha.eq]; exact ha.isIn⟩, ?_⟩
    show d.street ≤ _
    omega

theorem afterBet_live {S : List Int} {d : Dealer} (h : Live S d) (hst : d.street < d.cfg.numStreets)
    (hc : 2 ≤ countTrue d.active) (fold : Bool) (call bet : Int) : Live S (d.afterBet fold call bet) := by
  obtain ⟨f1, f2, f3, f4, f5, f6, f7, f8, f9⟩ := afterBet_fields d fold call bet
  obtain ⟨a, ha, hin⟩ := h.action
  have hc1 := acted_count h.seated ha hin hc fold call bet
  obtain ⟨g1, g2⟩ := afterBet_action h.seated hst fold call bet hc1
  have hm := acted_money h.seated fold call bet
  refine ⟨afterBet_seated h.seated _ _ _, ?_, ?_, ?_, ?_, g1, ?_, ?_, ?_⟩
  · rw [f1]; exact h.startLen
  · rw [f1, f5]; exact h.holeLen
  · rw [f1]; exact h.oneStreet
  · rw [f1]; exact g2
  · rw [f2]; exact hc1
  · intro i hi
    rw [f1] at hi
    have := hm.1 i hi
    unfold stack contribution at *
    rw [f8, f9, this]
    exact h.money i hi
  · rw [f7, f8]; exact hm.2 h.pot

/-- A running hand: additionally two players are in. -/
theorem live_of_running {S : List Int} {d : Dealer} (h : InHand S d) :
    (Live S d ∧ (d.street < d.cfg.numStreets → 2 ≤ countTrue d.active)) ∨
    ∃ e p, d = e.settle p ∧ Live S e ∧ e.payouts = .ok p ∧ e.done.all id = true := by
  induction h with
  | dealt hd hs hr =>
    obtain ⟨h1, h2, h3⟩ := dealt_live hd hr
    exact .inl ⟨h1, fun _ => h3⟩
  | @step S d bet h ih =>
    rcases ih with ⟨hl, h2⟩ | ⟨e, p, rfl, hl, hp, hd⟩
    · obtain ⟨a, ha, hin⟩ := hl.action
      rcases step_some ha bet with ⟨e, -, he⟩ | ⟨b, e, -, -, he⟩ | ⟨b, c, lo, hi, -, hb, he⟩
      · rw [he]; exact .inl ⟨hl, h2⟩
      · rw [he]; exact .inl ⟨hl, h2⟩
      · rw [he]
        by_cases hst : d.street < d.cfg.numStreets
        · have hl2 := afterBet_live hl hst (h2 hst) bet.isNeg c (cleanBet b c lo hi)
          generalize d.afterBet bet.isNeg c (cleanBet b c lo hi) = e at hl2 ⊢
          rcases finish_cases e with ⟨x, hx, he⟩ | ⟨p, hp, hd, he, -⟩ | ⟨p, hp, hd, he, -⟩
          · rw [he]
            refine .inl ⟨hl2, ?_⟩
            intro hst
            exfalso
            change e.street < e.cfg.numStreets at hst
            unfold Dealer.payouts at hx
            simp only [] at hx
            split at hx
            · simp at hx
            · split at hx
              · omega
              · simp at hx
          · rw [he]; exact .inr ⟨e, p, rfl, hl2, hp, hd⟩
          · rw [he]
            refine .inl ⟨hl2, fun hst => ?_⟩
            by_contra hcon
            unfold Dealer.done at hd
            rw [if_pos (.inr (by omega))] at hd
            simp at hd
        · rw [betSizes_error hl.seated (by omega)] at hb
          simp at hb
    · right
      rw [step_none (by rfl)]
      exact ⟨e, p, rfl, hl, hp, hd⟩

/-- Induction over the states of a hand. -/
theorem inHand_induct {P : List Int → Dealer → Prop}
    (h0 : ∀ (d d' : Dealer) (rb rs : Bool) (shuf : Shuffle) (obs : Observation), Seated d → IsShuffle shuf →
      d.reset rb rs shuf = (d', .ok obs) → P (startStacks d rs) d')
    (h1 : ∀ (S : List Int) (d : Dealer) (fold : Bool) (b c lo hi : Int), InHand S d → Live S d →
      d.street < d.cfg.numStreets → 2 ≤ countTrue d.active → P S d → d.betSizes = .ok (c, lo, hi) →
      P S (d.afterBet fold c (cleanBet b c lo hi)))
    {S : List Int} {d : Dealer} (h : InHand S d) :
    (P S d ∧ Live S d ∧ (d.street < d.cfg.numStreets → 2 ≤ countTrue d.active)) ∨
    ∃ e p, d = e.settle p ∧ P S e ∧ Live S e ∧ e.payouts = .ok p ∧ e.done.all id = true := by
  induction h with
  | dealt hd hs hr =>
    obtain ⟨g1, g2, g3⟩ := dealt_live hd hr
    exact .inl ⟨h0 _ _ _ _ _ _ hd hs hr, g1, fun _ => g3⟩
  | @step S d bet h ih =>
    rcases ih with ⟨hP, hl, h2⟩ | ⟨e, p, rfl, hP, hl, hp, hd⟩
    · obtain ⟨a, ha, hin⟩ := hl.action
      rcases step_some ha bet with ⟨e, -, he⟩ | ⟨b, e, -, -, he⟩ | ⟨b, c, lo, hi, -, hb, he⟩
      · rw [he]; exact .inl ⟨hP, hl, h2⟩
      · rw [he]; exact .inl ⟨hP, hl, h2⟩
      · by_cases hst : d.street < d.cfg.numStreets
        · have hl2 := afterBet_live hl hst (h2 hst) bet.isNeg c (cleanBet b c lo hi)
          have hP2 := h1 S d bet.isNeg b c lo hi h hl hst (h2 hst) hP hb
          have hin2 := live_of_running (InHand.step bet h)
          rw [he] at hin2 ⊢
          generalize d.afterBet bet.isNeg c (cleanBet b c lo hi) = e at hl2 hP2 hin2 ⊢
          rcases finish_cases e with ⟨x, hx, he⟩ | ⟨p, hp, hd, he, -⟩ | ⟨p, hp, hd, he, -⟩
          · rw [he] at hin2 ⊢
            rcases hin2 with h | ⟨e', p', h, -⟩
            · exact .inl ⟨hP2, hl2, h.2⟩
            · exfalso
              obtain ⟨a', ha', -⟩ := hl2.action
              simp only [] at h
              rw [h] at ha'
              simp [Dealer.settle] at ha'
          · rw [he]; exact .inr ⟨e, p, rfl, hP2, hl2, hp, hd⟩
          · rw [he] at hin2 ⊢
            rcases hin2 with h | ⟨e', p', h, -⟩
            · exact .inl ⟨hP2, hl2, h.2⟩
            · exfalso
              obtain ⟨a', ha', -⟩ := hl2.action
              rw [h] at ha'
              simp [Dealer.settle] at ha'
        · rw [betSizes_error hl.seated (by omega)] at hb
          simp at hb
    · right
      rw [step_none (by rfl)]
      exact ⟨e, p, rfl, hP, hl, hp, hd⟩

end Clubs
