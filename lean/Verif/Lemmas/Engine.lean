import Verif.Lemmas.Lists
import Verif.Spec.Table

/-! # The engine's methods field by field; the shape invariant -/

namespace Clubs

open Spec

/-! ## moving the action -/

/-- result of `moveLoop` -/
structure MoveSpec (n start idx fuel : Nat) (active : List Bool) (opt : List Bool) (a : Nat) (opt' : List Bool) :
    Prop where
  length : opt'.length = opt.length
  /-- the first active seat -/
  found : (∃ k, idx ≤ k ∧ k < idx + fuel ∧ active.getD ((start + k) % n) false = true) →
    ∃ k, idx ≤ k ∧ k < idx + fuel ∧ a = (start + k) % n ∧ active.getD a false = true ∧
      (∀ j, idx ≤ j → j < k → active.getD ((start + j) % n) false = false) ∧
      (∀ p, p < opt.length → (opt'.getD p false = true ↔
        opt.getD p false = true ∨ ∃ j, idx ≤ j ∧ j < k ∧ (start + j) % n = p))

theorem moveLoop_spec (n start : Nat) (active : List Bool) (fuel idx action : Nat) (opt : List Bool) :
    MoveSpec n start idx fuel active opt (moveLoop n start active fuel idx action opt).1
      (moveLoop n start active fuel idx action opt).2 := by
  induction fuel generalizing idx action opt with
  | zero =>
    refine ⟨rfl, ?_⟩
    rintro ⟨k, h1, h2, -⟩; omega
  | succ fuel ih =>
    rw [moveLoop]
    by_cases h : active.getD ((start + idx) % n) false = true
    · rw [if_pos h]
      refine ⟨rfl, fun _ => ⟨idx, le_refl _, by omega, rfl, h, fun j _ _ => by omega, fun p hp => ?_⟩⟩
      have : ¬ ∃ j, idx ≤ j ∧ j < idx ∧ (start + j) % n = p := by
        rintro ⟨j, h1, h2, -⟩; omega
      simp only [this, or_false]
    · rw [if_neg h]
      have hi := ih (idx + 1) ((start + idx) % n) (opt.set ((start + idx) % n) true)
      refine ⟨by rw [hi.length, List.length_set], ?_⟩
      rintro ⟨k, h1, h2, h3⟩
      have hk : k ≠ idx := by rintro rfl; exact h h3
      obtain ⟨k', g1, g2, g3, g4, g5, g6⟩ := hi.found ⟨k, by omega, by omega, h3⟩
      refine ⟨k', by omega, by omega, g3, g4, ?_, ?_⟩
      · intro j hj hj2
        by_cases e : j = idx
        · subst e; simpa using h
        · exact g5 j (by omega) hj2
      · intro p hp
        rw [g6 p (by rw [List.length_set]; exact hp), getD_set _ _ _ _ _ hp]
        by_cases e : (start + idx) % n = p
        · rw [if_pos e]
          have : ∃ j, idx ≤ j ∧ j < k' ∧ (start + j) % n = p := ⟨idx, le_refl _, by omega, e⟩
          simp only [this, or_true, true_or]
        · rw [if_neg e]
          apply or_congr Iff.rfl
          constructor
          · rintro ⟨j, a, b, c⟩; exact ⟨j, by omega, b, c⟩
          · rintro ⟨j, a, b, c⟩
            refine ⟨j, ?_, b, c⟩
            rcases Nat.lt_or_ge idx j with h | h
            · exact h
            · have hj : j = idx := by omega
              subst hj; exact absurd c e

theorem moveLoop_lt (n start : Nat) (active : List Bool) (fuel idx action : Nat) (opt : List Bool)
    (hn : 0 < n) (ha : action < n) : (moveLoop n start active fuel idx action opt).1 < n := by
  induction fuel generalizing idx action opt with
  | zero => exact ha
  | succ fuel ih =>
    rw [moveLoop]
    split
    · exact Nat.mod_lt _ hn
    · exact ih _ _ _ (Nat.mod_lt _ hn)

/-- every seat is reached in one round -/
theorem round_reach {n s t : Nat} (ht : t < n) : ∃ k, 1 ≤ k ∧ k < 1 + n ∧ (s + k) % n = t := by
  have hs : s % n < n := Nat.mod_lt _ (by omega)
  by_cases h : s % n < t
  · refine ⟨t - s % n, by omega, by omega, ?_⟩
    rw [Nat.add_mod, Nat.mod_eq_of_lt (show t - s % n < n by omega), show s % n + (t - s % n) = t by omega,
      Nat.mod_eq_of_lt ht]
  · by_cases h2 : s % n = t
    · refine ⟨n, by omega, by omega, ?_⟩
      rw [Nat.add_mod_right, h2]
    · refine ⟨t + n - s % n, by omega, by omega, ?_⟩
      rw [Nat.add_mod, Nat.mod_eq_of_lt (show t + n - s % n < n by omega), show s % n + (t + n - s % n) = t + n by omega,
        Nat.add_mod_right, Nat.mod_eq_of_lt ht]

/-- What `_move_action` does when somebody is still in. -/
structure Moved (d d' : Dealer) (a : Nat) : Prop where
  eq : d' = { d with action := some a, streetOption := d'.streetOption }
  length : d'.streetOption.length = d.streetOption.length
  lt : a < d.cfg.numPlayers
  isIn : isIn d a
  /-- the seats passed -/
  between : ∃ k, 1 ≤ k ∧ k ≤ d.cfg.numPlayers ∧ a = (d.seat + k) % d.cfg.numPlayers ∧
    (∀ j, 1 ≤ j → j < k → ¬ Spec.isIn d ((d.seat + j) % d.cfg.numPlayers)) ∧
    ∀ p, p < d.streetOption.length → (d'.streetOption.getD p false = true ↔
      d.streetOption.getD p false = true ∨ ∃ j, 1 ≤ j ∧ j < k ∧ (d.seat + j) % d.cfg.numPlayers = p)

theorem moveAction_spec {d : Dealer} (hl : d.active.length = d.cfg.numPlayers) (h1 : 1 ≤ countTrue d.active) :
    ∃ a, Moved d d.moveAction a := by
  obtain ⟨t, ht, hta⟩ := countTrue_pos.1 h1
  rw [hl] at ht
  have hs := moveLoop_spec d.cfg.numPlayers d.seat d.active d.cfg.numPlayers 1 d.seat d.streetOption
  obtain ⟨k0, k1, k2, k3⟩ := round_reach (s := d.seat) ht
  obtain ⟨k, g1, g2, g3, g4, g5, g6⟩ := hs.found ⟨k0, k1, k2, by rw [k3]; exact hta⟩
  refine ⟨_, ⟨rfl, hs.length, ?_, g4, k, g1, by omega, g3, ?_, ?_⟩⟩
  · rw [g3]; exact Nat.mod_lt _ (by omega)
  · intro j hj hj2 hin
    have := g5 j hj hj2
    unfold Spec.isIn at hin
    rw [hin] at this; simp at this
  · intro p hp
    exact g6 p hp

theorem Moved.first {d d' : Dealer} {a : Nat} (h : Moved d d' a) :
    FirstAfter d.cfg.numPlayers (Spec.isIn d) d.seat a := by
  obtain ⟨k, k1, k2, k3, k4, -⟩ := h.between
  exact ⟨k, k1, k2, k3, h.isIn, k4⟩

theorem moveAction_fields (d : Dealer) : d.moveAction.cfg = d.cfg ∧ d.moveAction.active = d.active ∧
    d.moveAction.button = d.button ∧ d.moveAction.communityCards = d.communityCards ∧
    d.moveAction.deck = d.deck ∧ d.moveAction.history = d.history ∧ d.moveAction.holeCards = d.holeCards ∧
    d.moveAction.largestRaise = d.largestRaise ∧ d.moveAction.pot = d.pot ∧
    d.moveAction.potCommits = d.potCommits ∧ d.moveAction.stacks = d.stacks ∧ d.moveAction.street = d.street ∧
    d.moveAction.streetCommits = d.streetCommits ∧ d.moveAction.streetRaises = d.streetRaises := by
  refine ⟨rfl, rfl, rfl, rfl, rfl, rfl, rfl, rfl, rfl, rfl, rfl, rfl, rfl, rfl⟩

theorem moveAction_seated {d : Dealer} (h : Seated d) : Seated d.moveAction := by
  have hn := h.two
  have hseat : d.seat < d.cfg.numPlayers := by
    unfold Dealer.seat
    cases ha : d.action with
    | none => simp; omega
    | some a => simpa using h.action a ha
  refine { h with streetOption := ?_, action := ?_ }
  · show (moveLoop _ _ _ _ _ _ _).2.length = _
    rw [(moveLoop_spec _ _ _ _ _ _ _).length]; exact h.streetOption
  · intro a ha
    simp only [Dealer.moveAction, Option.some.injEq] at ha
    rw [← ha]
    exact moveLoop_lt _ _ _ _ _ _ _ (by omega) hseat

theorem seat_lt {d : Dealer} (h : Seated d) : d.seat < d.cfg.numPlayers := by
  have hn := h.two
  unfold Dealer.seat
  cases ha : d.action with
  | none => simp; omega
  | some a => simpa using h.action a ha

/-! ## the other methods -/

theorem collectBet_seated {d : Dealer} (h : Seated d) (b : Int) : Seated (d.collectBet b) := by
  refine { h with potCommits := ?_, streetCommits := ?_, «stacks» := ?_ }
  · simpa [Dealer.collectBet] using h.potCommits
  · simpa [Dealer.collectBet] using h.stacks
  · simpa [Dealer.collectBet] using h.streetCommits

theorem roll_length {α : Type} (l : List α) (a : Nat) : (roll l a).length = l.length := by
  unfold roll
  split
  · rfl
  · simp

theorem forcedBets_length {d : Dealer} (h : Seated d) {bets : List Int} (hb : bets.length = d.cfg.numPlayers) :
    (d.forcedBets bets).length = d.cfg.numPlayers := by
  unfold Dealer.forcedBets
  simp [roll_length, h.stacks, h.active, hb]

theorem collectMultipleBets_seated {d : Dealer} (h : Seated d) {bets : List Int} (b : Bool)
    (hb : bets.length = d.cfg.numPlayers) : Seated (d.collectMultipleBets bets b) := by
  have hf := forcedBets_length h hb
  refine { h with potCommits := ?_, streetCommits := ?_, «stacks» := ?_ }
  · simp [Dealer.collectMultipleBets, hf, h.potCommits]
  · simp [Dealer.collectMultipleBets, hf, h.stacks]
  · cases b <;> simp [Dealer.collectMultipleBets, hf, h.streetCommits]

/-- `act` before the action moves on (`engine.py:375-389`) -/
def Dealer.acted (d : Dealer) (fold : Bool) (call bet : Int) : Dealer :=
  let folds := call ≠ 0 ∧ (bet < call ∨ fold = true)
  let bet' := if folds then 0 else bet
  let full := bet' ≠ 0 ∧ bet' - call ≥ d.largestRaise
  let amt := min (d.stacks.getD d.seat 0) bet'
  { d with
    active := if folds then d.active.set d.seat false else d.active
    largestRaise := if full then bet' - call else d.largestRaise
    streetRaises := if full then d.streetRaises + 1 else d.streetRaises
    pot := d.pot + amt
    potCommits := d.potCommits.modify d.seat (· + amt)
    streetCommits := d.streetCommits.modify d.seat (· + amt)
    «stacks» := d.stacks.modify d.seat (· - amt)
    history := d.history ++ [(d.seat, bet', fold)]
    streetOption := d.streetOption.set d.seat true }

theorem act_eq (d : Dealer) (fold : Bool) (call bet : Int) : d.act fold call bet = (d.acted fold call bet).moveAction := by
  unfold Dealer.act Dealer.acted
  by_cases h1 : call ≠ 0 ∧ (bet < call ∨ fold = true)
  · simp only [if_pos h1]
    by_cases h2 : (0 : Int) ≠ 0 ∧ 0 - call ≥ d.largestRaise
    · exact absurd rfl h2.1
    · simp only [if_neg h2]; rfl
  · simp only [if_neg h1]
    by_cases h2 : bet ≠ 0 ∧ bet - call ≥ d.largestRaise
    · simp only [if_pos h2]; rfl
    · simp only [if_neg h2]; rfl

theorem acted_seat (d : Dealer) (fold : Bool) (call bet : Int) : (d.acted fold call bet).seat = d.seat := rfl

theorem acted_seated {d : Dealer} (h : Seated d) (fold : Bool) (call bet : Int) : Seated (d.acted fold call bet) := by
  refine { h with potCommits := ?_, streetCommits := ?_, «stacks» := ?_, active := ?_, streetOption := ?_ }
  · show (if _ then _ else _ : List Bool).length = _
    split
    · rw [List.length_set]; exact h.active
    · exact h.active
  · simpa [Dealer.acted] using h.potCommits
  · simpa [Dealer.acted] using h.stacks
  · simpa [Dealer.acted] using h.streetCommits
  · simpa [Dealer.acted] using h.streetOption

theorem act_seated {d : Dealer} (h : Seated d) (fold : Bool) (call bet : Int) : Seated (d.act fold call bet) := by
  rw [act_eq]; exact moveAction_seated (acted_seated h fold call bet)

/-- what `dealStreets` changes -/
theorem dealStreets_fields (fuel : Nat) (d : Dealer) :
    (dealStreets fuel d) = { d with
      street := (dealStreets fuel d).street
      communityCards := (dealStreets fuel d).communityCards
      deck := (dealStreets fuel d).deck } := by
  induction fuel generalizing d with
  | zero => rfl
  | succ fuel ih =>
    rw [dealStreets]
    simp only []
    split
    · rfl
    · split
      · rfl
      · conv_lhs => rw [ih]

theorem allAllIn_congr {d d' : Dealer} (h1 : d.active = d'.active) (h2 : d.stacks = d'.stacks) :
    d.allAllIn = d'.allAllIn := by
  unfold Dealer.allAllIn; rw [h1, h2]

/-- the street after the loop: one further, or all dealt -/
theorem dealStreets_street (fuel : Nat) (d : Dealer) (h : d.street < d.cfg.numStreets)
    (hf : d.cfg.numStreets ≤ d.street + fuel) :
    (dealStreets fuel d).street = if d.allAllIn = true then d.cfg.numStreets else d.street + 1 := by
  induction fuel generalizing d with
  | zero => omega
  | succ fuel ih =>
    rw [dealStreets]
    simp only []
    by_cases h1 : d.street + 1 ≥ d.cfg.numStreets
    · rw [if_pos h1]
      simp only []
      split <;> omega
    · rw [if_neg h1]
      split
      · next h2 =>
        have : d.allAllIn = false := by
          simpa [Dealer.allAllIn] using h2
        simp [this]
      · next h2 =>
        have : d.allAllIn = true := by
          simpa [Dealer.allAllIn] using h2
        rw [ih]
        · rw [if_pos this]; exact if_pos this
        · simp only []; omega
        · simp only []; omega

/-- The loop does not depend on the fuel, if there is enough. -/
theorem dealStreets_fuel (f g : Nat) (d : Dealer) (hf : d.cfg.numStreets < d.street + f)
    (hg : d.cfg.numStreets < d.street + g) (hp : 1 ≤ f ∧ 1 ≤ g) : dealStreets f d = dealStreets g d := by
  induction f generalizing g d with
  | zero => omega
  | succ f ih =>
    cases g with
    | zero => omega
    | succ g =>
      rw [dealStreets, dealStreets]
      simp only []
      split
      · rfl
      · next h =>
        split
        · rfl
        · apply ih
          · simp only []; omega
          · simp only []; omega
          · omega

theorem nextStreet_seated {d : Dealer} (h : Seated d) : Seated d.nextStreet := by
  unfold Dealer.nextStreet
  simp only []
  have h1 : Seated { d with action := some d.button } :=
    { h with action := by intro a ha; simp at ha; rw [← ha]; exact h.button }
  have h2 := moveAction_seated h1
  generalize hd : Dealer.moveAction { d with action := some d.button } = e at h2 ⊢
  have h3 := dealStreets_fields (e.cfg.numStreets + 1) e
  generalize dealStreets (e.cfg.numStreets + 1) e = f at h3 ⊢
  rw [h3]
  exact { h2 with
    streetCommits := by simp
    streetOption := by simpa using h2.active }

/-- the state before the end of the hand is checked (`engine.py:375-415`) -/
def Dealer.afterBet (d : Dealer) (fold : Bool) (call bet : Int) : Dealer :=
  if (d.act fold call bet).allAgreed then (d.act fold call bet).nextStreet else d.act fold call bet

/-- the end of the hand (`engine.py:419-427`) -/
def Dealer.settle (d : Dealer) (payouts : List Int) : Dealer :=
  { d with
    action := none
    pot := 0
    «stacks» := List.zipWith (· + ·) (List.zipWith (· + ·) d.stacks payouts) d.potCommits }

theorem afterBet_seated {d : Dealer} (h : Seated d) (fold : Bool) (call bet : Int) :
    Seated (d.afterBet fold call bet) := by
  unfold Dealer.afterBet
  split
  · exact nextStreet_seated (act_seated h _ _ _)
  · exact act_seated h _ _ _

/-- `finish` -/
theorem finish_cases (d : Dealer) :
    (∃ e, d.payouts = .error e ∧ d.finish = (d, .error e)) ∨
    (∃ p, d.payouts = .ok p ∧ d.done.all id = true ∧ d.finish.1 = d.settle p ∧
      d.finish.2 = ((d.settle p).observation true).map fun o => (o, p, d.done)) ∨
    (∃ p, d.payouts = .ok p ∧ d.done.all id = false ∧ d.finish.1 = d ∧
      d.finish.2 = (d.observation false).map fun o => (o, p, d.done)) := by
  unfold Dealer.finish
  cases hp : d.payouts with
  | error e => exact .inl ⟨e, rfl, rfl⟩
  | ok p =>
    right
    simp only []
    cases hd : d.done.all id with
    | true =>
      left
      refine ⟨p, rfl, rfl, rfl, ?_⟩
      simp only [if_true]
      show (match (d.settle p).observation true with | .error e => _ | .ok obs => _) = _
      cases (d.settle p).observation true <;> rfl
    | false =>
      right
      refine ⟨p, rfl, rfl, rfl, ?_⟩
      simp only [Bool.false_eq_true, if_false]
      cases d.observation false <;> rfl

/-- `step` of a dealer with somebody to act -/
theorem step_some {d : Dealer} {a : Nat} (ha : d.action = some a) (bet : PyNum) :
    (∃ e, pyRound bet = .error e ∧ d.step bet = (d, .error e)) ∨
    (∃ b e, pyRound bet = .ok b ∧ d.betSizes = .error e ∧ d.step bet = (d, .error e)) ∨
    (∃ b c lo hi, pyRound bet = .ok b ∧ d.betSizes = .ok (c, lo, hi) ∧
      d.step bet = (d.afterBet bet.isNeg c (cleanBet b c lo hi)).finish) := by
  unfold Dealer.step
  rw [ha]
  simp only []
  cases pyRound bet with
  | error e => exact .inl ⟨e, rfl, rfl⟩
  | ok b =>
    right
    simp only []
    cases hb : d.betSizes with
    | error e => exact .inl ⟨b, e, rfl, rfl, rfl⟩
    | ok s =>
      obtain ⟨c, lo, hi⟩ := s
      right
      exact ⟨b, c, lo, hi, rfl, rfl, rfl⟩

/-- `step` of a dealer with nobody to act changes nothing -/
theorem step_none {d : Dealer} (ha : d.action = none) (bet : PyNum) : (d.step bet).1 = d := by
  unfold Dealer.step
  rw [ha]
  simp only []
  split <;> rfl

theorem betSizes_error {d : Dealer} (h : Seated d) (hs : d.cfg.numStreets ≤ d.street) :
    d.betSizes = .error .indexError := by
  unfold Dealer.betSizes
  rw [List.getElem?_eq_none (by rw [h.raiseSizes]; exact hs)]

theorem betSizes_ok {d : Dealer} (h : Seated d) (hs : d.street < d.cfg.numStreets) :
    ∃ c lo hi, d.betSizes = .ok (c, lo, hi) := by
  unfold Dealer.betSizes
  rw [List.getElem?_eq_getElem (by rw [h.raiseSizes]; exact hs),
    List.getElem?_eq_getElem (by rw [h.numRaises]; exact hs)]
  exact ⟨_, _, _, rfl⟩

/-! ## `reset` -/

/-- the table after the cards are dealt, before the blinds (`engine.py:275-311`) -/
def Dealer.fresh (d : Dealer) (rb rs : Bool) (shuf : Shuffle) : Dealer :=
  let button := if rb then 0 else (d.button + 1) % d.cfg.numPlayers
  let comm := (d.deck.shuffle shuf).draw (d.cfg.numCommunityCards.getD 0 0)
  let hole := dealHole d.cfg.numHoleCards d.cfg.numPlayers comm.2
  { d with
    active := if rs then List.replicate d.cfg.numPlayers true else d.stacks.map fun s => decide (s > 0)
    «stacks» := startStacks d rs
    button := button
    communityCards := comm.1
    history := []
    holeCards := hole.1
    deck := hole.2
    largestRaise := d.cfg.bigBlind
    pot := 0
    potCommits := List.replicate d.cfg.numPlayers 0
    street := 0
    streetCommits := List.replicate d.cfg.numPlayers 0
    streetOption := List.replicate d.cfg.numPlayers false
    streetRaises := 0
    action := some button }

/-- the seat that posts first -/
def Dealer.blindStart (d : Dealer) (rb rs : Bool) (shuf : Shuffle) : Dealer :=
  if d.cfg.numPlayers > 2 then (d.fresh rb rs shuf).moveAction else d.fresh rb rs shuf

/-- with antes and blinds (`engine.py:315-316`) -/
def Dealer.posted (d : Dealer) (rb rs : Bool) (shuf : Shuffle) : Dealer :=
  ((d.blindStart rb rs shuf).collectMultipleBets d.cfg.antes false).collectMultipleBets d.cfg.blinds true

/-- `reset`, by cases -/
theorem reset_eq (d : Dealer) (rb rs : Bool) (shuf : Shuffle) :
    (rs = false ∧ countTrue (d.stacks.map fun s => decide (s > 0)) ≤ 1 ∧
      d.reset rb rs shuf = ({ d with active := d.stacks.map fun s => decide (s > 0) }, .error .tooFewActivePlayers)) ∨
    ((rs = true ∨ 2 ≤ countTrue (d.stacks.map fun s => decide (s > 0))) ∧
      ((d.cfg.numCommunityCards.length = 0 ∧ d.reset rb rs shuf = ({ d with
          active := (d.fresh rb rs shuf).active
          «stacks» := startStacks d rs
          button := (d.fresh rb rs shuf).button
          deck := d.deck.shuffle shuf }, .error .indexError)) ∨
       (1 ≤ d.cfg.numCommunityCards.length ∧ d.reset rb rs shuf =
          ((d.posted rb rs shuf).moveAction.moveAction,
            (d.posted rb rs shuf).moveAction.moveAction.observation false)))) := by
  cases rs with
  | false =>
    by_cases hc : countTrue (d.stacks.map fun s => decide (s > 0)) ≤ 1
    · left
      refine ⟨rfl, hc, ?_⟩
      unfold Dealer.reset
      exact if_pos ⟨rfl, hc⟩
    · right
      refine ⟨.inr (by omega), ?_⟩
      cases hl : d.cfg.numCommunityCards with
      | nil =>
        left
        refine ⟨rfl, ?_⟩
        unfold Dealer.reset
        refine (if_neg (fun h => hc h.2)).trans ?_
        show (match d.cfg.numCommunityCards[0]? with | none => _ | some ncc => _) = _
        rw [hl]; rfl
      | cons ncc l =>
        right
        refine ⟨by simp, ?_⟩
        unfold Dealer.reset
        refine (if_neg (fun h => hc h.2)).trans ?_
        have h0 : d.cfg.numCommunityCards.getD 0 0 = ncc := by rw [hl]; rfl
        show (match d.cfg.numCommunityCards[0]? with | none => _ | some ncc => _) = _
        have h1 : d.cfg.numCommunityCards[0]? = some ncc := by rw [hl]; rfl
        rw [h1]
        subst h0
        unfold Dealer.posted Dealer.blindStart Dealer.fresh startStacks
        by_cases h2 : d.cfg.numPlayers > 2
        · simp only [Bool.false_eq_true, if_false, if_pos h2]; rfl
        · simp only [Bool.false_eq_true, if_false, if_neg h2]; rfl
  | true =>
    right
    refine ⟨.inl rfl, ?_⟩
    cases hl : d.cfg.numCommunityCards with
    | nil =>
      left
      refine ⟨rfl, ?_⟩
      unfold Dealer.reset
      refine (if_neg (fun h => by simp at h)).trans ?_
      show (match d.cfg.numCommunityCards[0]? with | none => _ | some ncc => _) = _
      rw [hl]; rfl
    | cons ncc l =>
      right
      refine ⟨by simp, ?_⟩
      unfold Dealer.reset
      refine (if_neg (fun h => by simp at h)).trans ?_
      have h0 : d.cfg.numCommunityCards.getD 0 0 = ncc := by rw [hl]; rfl
      show (match d.cfg.numCommunityCards[0]? with | none => _ | some ncc => _) = _
      have h1 : d.cfg.numCommunityCards[0]? = some ncc := by rw [hl]; rfl
      rw [h1]
      subst h0
      unfold Dealer.posted Dealer.blindStart Dealer.fresh startStacks
      by_cases h2 : d.cfg.numPlayers > 2
      · simp only [if_true, if_pos h2]; rfl
      · simp only [if_true, if_neg h2]; rfl

theorem reset_ok {d d' : Dealer} {rb rs : Bool} {shuf : Shuffle} {obs : Observation}
    (h : d.reset rb rs shuf = (d', .ok obs)) :
    (rs = true ∨ 2 ≤ countTrue (d.stacks.map fun s => decide (s > 0))) ∧ 1 ≤ d.cfg.numCommunityCards.length ∧
    d' = (d.posted rb rs shuf).moveAction.moveAction ∧ d'.observation false = .ok obs := by
  rcases reset_eq d rb rs shuf with ⟨-, -, e⟩ | ⟨h1, ⟨-, e⟩ | ⟨h2, e⟩⟩
  · rw [e] at h; simp at h
  · rw [e] at h; simp at h
  · rw [e] at h
    simp only [Prod.mk.injEq] at h
    refine ⟨h1, h2, h.1.symm, ?_⟩
    rw [← h.1]; exact h.2

theorem fresh_seated {d : Dealer} (h : Seated d) (rb rs : Bool) (shuf : Shuffle) : Seated (d.fresh rb rs shuf) := by
  have hb : (d.fresh rb rs shuf).button < d.cfg.numPlayers := by
    show (if rb = true then 0 else (d.button + 1) % d.cfg.numPlayers) < _
    have := h.two
    split
    · omega
    · exact Nat.mod_lt _ (by omega)
  refine { h with active := ?_, «stacks» := ?_, potCommits := ?_, streetCommits := ?_, streetOption := ?_, button := hb, action := ?_ }
  · show (if rs = true then _ else _ : List Bool).length = _
    split
    · exact List.length_replicate
    · rw [List.length_map]; exact h.stacks
  · exact List.length_replicate
  · show (if rs = true then _ else _ : List Int).length = _
    split
    · exact List.length_replicate
    · exact h.stacks
  · exact List.length_replicate
  · exact List.length_replicate
  · intro a ha
    have : a = (d.fresh rb rs shuf).button := by
      simp only [Dealer.fresh, Option.some.injEq] at ha ⊢; exact ha.symm
    rw [this]; exact hb

theorem blindStart_seated {d : Dealer} (h : Seated d) (rb rs : Bool) (shuf : Shuffle) :
    Seated (d.blindStart rb rs shuf) := by
  unfold Dealer.blindStart
  split
  · exact moveAction_seated (fresh_seated h _ _ _)
  · exact fresh_seated h _ _ _

theorem blindStart_fields (d : Dealer) (rb rs : Bool) (shuf : Shuffle) :
    ∃ o, d.blindStart rb rs shuf = { d.fresh rb rs shuf with
      action := (d.blindStart rb rs shuf).action
      streetOption := o } := by
  unfold Dealer.blindStart
  split
  · exact ⟨_, rfl⟩
  · exact ⟨_, rfl⟩

theorem blindStart_cfg (d : Dealer) (rb rs : Bool) (shuf : Shuffle) : (d.blindStart rb rs shuf).cfg = d.cfg := by
  unfold Dealer.blindStart
  split <;> rfl

theorem posted_seated {d : Dealer} (h : Seated d) (rb rs : Bool) (shuf : Shuffle) : Seated (d.posted rb rs shuf) := by
  have h1 := blindStart_seated h rb rs shuf
  have hc := blindStart_cfg d rb rs shuf
  unfold Dealer.posted
  apply collectMultipleBets_seated
  · apply collectMultipleBets_seated h1
    rw [hc]; exact h.antes
  · show d.cfg.blinds.length = (d.blindStart rb rs shuf).cfg.numPlayers
    rw [hc]; exact h.blinds

theorem reset_seated {d : Dealer} (h : Seated d) (rb rs : Bool) (shuf : Shuffle) : Seated (d.reset rb rs shuf).1 := by
  rcases reset_eq d rb rs shuf with ⟨-, -, e⟩ | ⟨h1, ⟨-, e⟩ | ⟨h2, e⟩⟩
  · rw [e]; exact { h with active := by rw [List.length_map]; exact h.stacks }
  · rw [e]
    have hf := fresh_seated h rb rs shuf
    exact { h with active := hf.active, «stacks» := hf.stacks, button := hf.button }
  · rw [e]; exact moveAction_seated (moveAction_seated (posted_seated h _ _ _))

/-! ## the shape invariant -/

theorem settle_seated {d : Dealer} (h : Seated d) {p : List Int} (hp : p.length = d.cfg.numPlayers) :
    Seated (d.settle p) := by
  refine { h with «stacks» := ?_, action := by simp [Dealer.settle] }
  simp [Dealer.settle, h.stacks, hp, h.potCommits]

end Clubs
