import Verif.Spec.Numpy
import Verif.Lemmas.Terminate

/-! # The array engine up to the number of the button -/

namespace Clubs.Numpy

open Spec

/-- the table with the button and the player to act as seat numbers -/
def wrap (d : Dealer) : Dealer :=
  { d with button := d.button % d.cfg.numPlayers, action := d.action.map (· % d.cfg.numPlayers) }

theorem wrap_eq {d : Dealer} (h : ∀ a, d.action = some a → a < d.cfg.numPlayers) : wrap d = atSeat d := by
  unfold wrap atSeat
  cases ha : d.action with
  | none => simp only [Option.map_none]
  | some a => simp only [Option.map_some, Nat.mod_eq_of_lt (h a ha)]

theorem moveLoop_mod (n s : Nat) (active : List Bool) (fuel idx a : Nat) (opt : List Bool) :
    moveLoop n (s % n) active fuel idx a opt = moveLoop n s active fuel idx a opt := by
  induction fuel generalizing idx a opt with
  | zero => rfl
  | succ fuel ih => rw [moveLoop, moveLoop, Nat.mod_add_mod, ih]

theorem wrap_moveAction {d : Dealer} (hn : 0 < d.cfg.numPlayers) {a : Nat} (ha : d.action = some a) :
    wrap d.moveAction = (wrap d).moveAction := by
  have h1 : d.seat = a := by unfold Dealer.seat; rw [ha]; rfl
  have h2 : (wrap d).seat = a % d.cfg.numPlayers := by unfold wrap Dealer.seat; rw [ha]; rfl
  obtain ⟨m, hm⟩ : ∃ m, d.cfg.numPlayers = m + 1 := ⟨_, (Nat.succ_pred_eq_of_pos hn).symm⟩
  have h3 : moveLoop d.cfg.numPlayers (a % d.cfg.numPlayers) d.active d.cfg.numPlayers 1 (a % d.cfg.numPlayers) d.streetOption =
      moveLoop d.cfg.numPlayers a d.active d.cfg.numPlayers 1 a d.streetOption := by
    rw [moveLoop_mod, hm]; rfl
  have h4 : (moveLoop d.cfg.numPlayers a d.active d.cfg.numPlayers 1 a d.streetOption).1 < d.cfg.numPlayers := by
    rw [← h3]
    exact moveLoop_lt _ _ _ _ _ _ _ hn (Nat.mod_lt _ hn)
  unfold Dealer.moveAction
  rw [h1, h2]
  show ({ d with button := _, action := _, streetOption := _ } : Dealer) = { d with button := _, action := _, streetOption := _ }
  simp only [Option.map_some]
  rw [show (wrap d).cfg = d.cfg from rfl, show (wrap d).active = d.active from rfl,
    show (wrap d).streetOption = d.streetOption from rfl, h3, Nat.mod_eq_of_lt h4]
  rfl

theorem moveAction_some (d : Dealer) : ∃ a, d.moveAction.action = some a := ⟨_, rfl⟩

theorem moveAction_lt {d : Dealer} (hn : 0 < d.cfg.numPlayers) : ∀ a, d.moveAction.action = some a → a < d.cfg.numPlayers := by
  intro a ha
  simp only [Dealer.moveAction, Option.some.injEq] at ha
  obtain ⟨m, hm⟩ : ∃ m, d.cfg.numPlayers = m + 1 := ⟨_, (Nat.succ_pred_eq_of_pos hn).symm⟩
  rw [← ha, ← moveLoop_mod]
  have : moveLoop d.cfg.numPlayers (d.seat % d.cfg.numPlayers) d.active d.cfg.numPlayers 1 d.seat d.streetOption =
      moveLoop d.cfg.numPlayers (d.seat % d.cfg.numPlayers) d.active d.cfg.numPlayers 1 0 d.streetOption := by
    rw [hm]; rfl
  rw [this]
  exact moveLoop_lt _ _ _ _ _ _ _ hn hn

theorem able_eq (xs : List Int) (as : List Bool) (bs : List Int) :
    List.zipWith (fun (b : Bool) (bet : Int) => if b then bet else 0)
      (List.zipWith (fun (stack : Int) (active : Bool) => decide (stack > 0) && active) xs as) bs =
    (xs.zip (as.zip bs)).map fun (stack, active, bet) => if stack > 0 ∧ active = true then bet else 0 := by
  induction xs generalizing as bs with
  | nil => simp
  | cons x xs ih =>
    cases as with
    | nil => simp
    | cons a as =>
      cases bs with
      | nil => simp
      | cons b bs => simp [ih]

theorem wrap_collect {d : Dealer} {a : Nat} (ha : d.action = some a) {bets : List Int}
    (hb : bets.length = d.cfg.numPlayers) (s : Bool) :
    wrap (collectMultipleBets d bets s) = (wrap d).collectMultipleBets bets s := by
  have h2 : (wrap d).seat = a % d.cfg.numPlayers := by unfold wrap Dealer.seat; rw [ha]; rfl
  unfold collectMultipleBets Dealer.collectMultipleBets Dealer.forcedBets npRoll
  simp only [able_eq, h2, ha, Option.getD_some, hb]
  simp only [wrap, ha]

theorem collect_action (d : Dealer) (bets : List Int) (s : Bool) : (collectMultipleBets d bets s).action = d.action := rfl
theorem collect_cfg (d : Dealer) (bets : List Int) (s : Bool) : (collectMultipleBets d bets s).cfg = d.cfg := rfl

theorem observation_atSeat (d : Dealer) (b : Bool) :
    (atSeat d).observation b = (observation d b).map (obsAtSeat d.cfg.numPlayers) := by
  unfold observation Dealer.observation
  rw [show (atSeat d).betSizes = d.betSizes from rfl]
  cases (if b = true then Except.ok (0, 0, 0) else d.betSizes : Except Err (Int × Int × Int)) with
  | error e => rfl
  | ok s =>
    obtain ⟨c, lo, hi⟩ := s
    simp only []
    rw [show (atSeat d).holeCards = d.holeCards from rfl, show (atSeat d).action = d.action from rfl]
    cases pyGet d.holeCards (match d.action with | some a => (a : Int) | none => -1) with
    | error e => rfl
    | ok x => rfl

/-! ## `reset` -/

/-- the number of the button after `reset` -/
def nextButton (d : Dealer) (rb : Bool) : Nat := if rb = true then 0 else d.button + 1 % d.cfg.numPlayers

/-- cards dealt and counters set back (`engine_numpy.py:282-308`) -/
def fresh (d : Dealer) (rb rs : Bool) (shuf : Shuffle) : Dealer :=
  { d.fresh rb rs shuf with button := nextButton d rb, action := some (nextButton d rb) }

/-- the seat that posts first -/
def blindStart (d : Dealer) (rb rs : Bool) (shuf : Shuffle) : Dealer :=
  if d.cfg.numPlayers > 2 then (fresh d rb rs shuf).moveAction else fresh d rb rs shuf

/-- with antes and blinds -/
def posted (d : Dealer) (rb rs : Bool) (shuf : Shuffle) : Dealer :=
  collectMultipleBets (collectMultipleBets (blindStart d rb rs shuf) d.cfg.antes false) d.cfg.blinds true

theorem reset_eq (d : Dealer) (rb rs : Bool) (shuf : Shuffle) :
    (rs = false ∧ countTrue (d.stacks.map fun s => decide (s > 0)) ≤ 1 ∧
      reset d rb rs shuf = ({ d with active := d.stacks.map fun s => decide (s > 0) }, .error .tooFewActivePlayers)) ∨
    ((rs = true ∨ 2 ≤ countTrue (d.stacks.map fun s => decide (s > 0))) ∧
      ((d.cfg.numCommunityCards.length = 0 ∧ reset d rb rs shuf = ({ d with
          active := (d.fresh rb rs shuf).active
          «stacks» := startStacks d rs
          button := nextButton d rb
          deck := d.deck.shuffle shuf }, .error .indexError)) ∨
       (1 ≤ d.cfg.numCommunityCards.length ∧ reset d rb rs shuf =
          ((posted d rb rs shuf).moveAction.moveAction,
            observation (posted d rb rs shuf).moveAction.moveAction false)))) := by
  cases rs with
  | false =>
    by_cases hc : countTrue (d.stacks.map fun s => decide (s > 0)) ≤ 1
    · left
      refine ⟨rfl, hc, ?_⟩
      unfold reset
      exact if_pos ⟨rfl, hc⟩
    · right
      refine ⟨.inr (by omega), ?_⟩
      cases hl : d.cfg.numCommunityCards with
      | nil =>
        left
        refine ⟨rfl, ?_⟩
        unfold reset
        refine (if_neg (fun h => hc h.2)).trans ?_
        show (match d.cfg.numCommunityCards[0]? with | none => _ | some ncc => _) = _
        rw [hl]; rfl
      | cons ncc l =>
        right
        refine ⟨by simp, ?_⟩
        unfold reset
        refine (if_neg (fun h => hc h.2)).trans ?_
        have h0 : d.cfg.numCommunityCards.getD 0 0 = ncc := by rw [hl]; rfl
        show (match d.cfg.numCommunityCards[0]? with | none => _ | some ncc => _) = _
        have h1 : d.cfg.numCommunityCards[0]? = some ncc := by rw [hl]; rfl
        rw [h1]
        subst h0
        unfold posted blindStart fresh Dealer.fresh startStacks
        by_cases h2 : d.cfg.numPlayers > 2
        · simp only [Bool.false_eq_true, if_false, if_pos h2]; rfl
        · simp only [Bool.false_eq_true, if_false, if_neg h2]; rfl
  | true =>
    right
    refine ⟨.inl rfl, ?_⟩
    cases hl : d.cfg.numCommunityCards with
    | nil =>
      left
      refine ⟨rfl, ?_⟩
      unfold reset
      refine (if_neg (fun h => by simp at h)).trans ?_
      show (match d.cfg.numCommunityCards[0]? with | none => _ | some ncc => _) = _
      rw [hl]; rfl
    | cons ncc l =>
      right
      refine ⟨by simp, ?_⟩
      unfold reset
      refine (if_neg (fun h => by simp at h)).trans ?_
      have h0 : d.cfg.numCommunityCards.getD 0 0 = ncc := by rw [hl]; rfl
      show (match d.cfg.numCommunityCards[0]? with | none => _ | some ncc => _) = _
      have h1 : d.cfg.numCommunityCards[0]? = some ncc := by rw [hl]; rfl
      rw [h1]
      subst h0
      unfold posted blindStart fresh Dealer.fresh startStacks
      by_cases h2 : d.cfg.numPlayers > 2
      · simp only [if_true, if_pos h2]; rfl
      · simp only [if_true, if_neg h2]; rfl

theorem nextButton_mod (d : Dealer) (rb : Bool) :
    nextButton d rb % d.cfg.numPlayers = if rb = true then 0 else ((atSeat d).button + 1) % d.cfg.numPlayers := by
  unfold nextButton atSeat
  cases rb with
  | true => simp
  | false => simp

theorem fresh_wrap (d : Dealer) (rb rs : Bool) (shuf : Shuffle) :
    wrap (fresh d rb rs shuf) = (atSeat d).fresh rb rs shuf := by
  have h := nextButton_mod d rb
  unfold wrap fresh
  show ({ d.fresh rb rs shuf with
    button := nextButton d rb % d.cfg.numPlayers, action := some (nextButton d rb % d.cfg.numPlayers) } : Dealer) = _
  rw [h]
  rfl

theorem posted_wrap {d : Dealer} (h : Seated (atSeat d)) (rb rs : Bool) (shuf : Shuffle) :
    wrap (posted d rb rs shuf) = (atSeat d).posted rb rs shuf ∧ ∃ a, (posted d rb rs shuf).action = some a := by
  have htwo : 2 ≤ d.cfg.numPlayers := h.two
  have h1 : wrap (blindStart d rb rs shuf) = (atSeat d).blindStart rb rs shuf ∧
      (∃ a, (blindStart d rb rs shuf).action = some a) ∧ (blindStart d rb rs shuf).cfg = d.cfg := by
    unfold blindStart Dealer.blindStart
    by_cases h2 : d.cfg.numPlayers > 2
    · rw [if_pos h2, if_pos (show (atSeat d).cfg.numPlayers > 2 from h2), ← fresh_wrap]
      exact ⟨wrap_moveAction (d := fresh d rb rs shuf) (by show 0 < d.cfg.numPlayers; omega) rfl, moveAction_some _, rfl⟩
    · rw [if_neg h2, if_neg (show ¬ (atSeat d).cfg.numPlayers > 2 from h2), ← fresh_wrap]
      exact ⟨rfl, ⟨_, rfl⟩, rfl⟩
  obtain ⟨h1, ⟨a, ha⟩, hc⟩ := h1
  unfold posted Dealer.posted
  refine ⟨?_, a, ha⟩
  rw [wrap_collect (a := a) (by rw [collect_action]; exact ha) (by rw [collect_cfg, hc]; exact h.blinds),
    wrap_collect ha (by rw [hc]; exact h.antes), h1]
  rfl

/-- `reset` -/
theorem reset_atSeat {d : Dealer} (h : Seated (atSeat d)) (rb rs : Bool) (shuf : Shuffle) :
    atSeat (reset d rb rs shuf).1 = ((atSeat d).reset rb rs shuf).1 ∧
    (reset d rb rs shuf).2.map (obsAtSeat d.cfg.numPlayers) = ((atSeat d).reset rb rs shuf).2 := by
  have htwo : 2 ≤ d.cfg.numPlayers := h.two
  rcases reset_eq d rb rs shuf with ⟨r1, r2, e⟩ | ⟨h1, ⟨h2, e⟩ | ⟨h2, e⟩⟩
  · rcases Clubs.reset_eq (atSeat d) rb rs shuf with ⟨-, -, e'⟩ | ⟨h1', -⟩
    · rw [e, e']; exact ⟨rfl, rfl⟩
    · rcases h1' with h1' | h1'
      · rw [r1] at h1'; simp at h1'
      · exact absurd r2 (Nat.not_le.mpr h1')
  · rcases Clubs.reset_eq (atSeat d) rb rs shuf with ⟨r1, r2, e'⟩ | ⟨-, ⟨-, e'⟩ | ⟨h2', -⟩⟩
    · rcases h1 with h1 | h1
      · rw [r1] at h1; simp at h1
      · exact absurd r2 (Nat.not_le.mpr h1)
    · rw [e, e']
      refine ⟨?_, rfl⟩
      unfold atSeat
      simp only [nextButton_mod]
      rfl
    · have : 1 ≤ d.cfg.numCommunityCards.length := h2'
      omega
  · rcases Clubs.reset_eq (atSeat d) rb rs shuf with ⟨r1, r2, e'⟩ | ⟨-, ⟨h2', -⟩ | ⟨-, e'⟩⟩
    · rcases h1 with h1 | h1
      · rw [r1] at h1; simp at h1
      · exact absurd r2 (Nat.not_le.mpr h1)
    · have : d.cfg.numCommunityCards.length = 0 := h2'
      omega
    · obtain ⟨hp, a, ha⟩ := posted_wrap h rb rs shuf
      have hc : (posted d rb rs shuf).cfg = d.cfg := by
        have : (wrap (posted d rb rs shuf)).cfg = _ := congrArg Dealer.cfg hp
        have h3 : ((atSeat d).posted rb rs shuf).cfg = d.cfg := by
          unfold Dealer.posted Dealer.blindStart
          split <;> rfl
        exact this.trans h3
      obtain ⟨b, hb⟩ := moveAction_some (posted d rb rs shuf)
      have h0 : 0 < (posted d rb rs shuf).cfg.numPlayers := by rw [hc]; omega
      have key : atSeat (posted d rb rs shuf).moveAction.moveAction =
          ((atSeat d).posted rb rs shuf).moveAction.moveAction := by
        rw [← wrap_eq (moveAction_lt (d := (posted d rb rs shuf).moveAction) h0),
          wrap_moveAction (d := (posted d rb rs shuf).moveAction) h0 hb, wrap_moveAction h0 ha, hp]
      rw [e, e', ← key]
      refine ⟨rfl, ?_⟩
      rw [observation_atSeat]
      show _ = Except.map (obsAtSeat (posted d rb rs shuf).cfg.numPlayers) _
      rw [hc]

/-! ## `step` -/

theorem act_shared (d : Dealer) (fold : Bool) (call bet : Int) : act d fold call bet = d.act fold call bet := rfl

theorem allAgreed_shared (d : Dealer) : allAgreed d = d.allAgreed := rfl

theorem dealStreets_shared (fuel : Nat) (d : Dealer) : dealStreets fuel d = Clubs.dealStreets fuel d := by
  induction fuel generalizing d with
  | zero => rfl
  | succ fuel ih =>
    rw [dealStreets, Clubs.dealStreets]
    simp only [ih]
    rfl

theorem dealStreets_atSeat (fuel : Nat) (d : Dealer) : atSeat (Clubs.dealStreets fuel d) = Clubs.dealStreets fuel (atSeat d) := by
  induction fuel generalizing d with
  | zero => rfl
  | succ fuel ih =>
    rw [Clubs.dealStreets, Clubs.dealStreets]
    simp only []
    rw [apply_ite atSeat]
    refine if_congr Iff.rfl rfl ?_
    rw [apply_ite atSeat]
    refine if_congr Iff.rfl rfl ?_
    rw [ih]
    rfl

/-- the state after the bet (as `Dealer.afterBet`) -/
def afterBet (d : Dealer) (fold : Bool) (call bet : Int) : Dealer :=
  if allAgreed (act d fold call bet) then nextStreet (act d fold call bet) else act d fold call bet

theorem act_atSeat (d : Dealer) (fold : Bool) (call bet : Int) :
    atSeat (act d fold call bet) = (atSeat d).act fold call bet := by
  rw [act_shared, act_eq, act_eq]; rfl

theorem nextStreet_atSeat {d : Dealer} (hn : 0 < d.cfg.numPlayers) : atSeat (nextStreet d) = (atSeat d).nextStreet := by
  have h1 : atSeat ({ d with action := some d.button } : Dealer).moveAction =
      ({ atSeat d with action := some (atSeat d).button } : Dealer).moveAction := by
    rw [← wrap_eq (moveAction_lt (d := { d with action := some d.button }) hn),
      wrap_moveAction (d := { d with action := some d.button }) hn rfl]
    rfl
  have h2 : ∀ g : Dealer, atSeat { dealStreets (g.cfg.numStreets + 1) g with
        streetCommits := List.replicate (dealStreets (g.cfg.numStreets + 1) g).cfg.numPlayers 0
        streetOption := (dealStreets (g.cfg.numStreets + 1) g).active.map fun a => !a
        streetRaises := 0 } =
      { Clubs.dealStreets (g.cfg.numStreets + 1) (atSeat g) with
        streetCommits := List.replicate (Clubs.dealStreets (g.cfg.numStreets + 1) (atSeat g)).cfg.numPlayers 0
        streetOption := (Clubs.dealStreets (g.cfg.numStreets + 1) (atSeat g)).active.map fun a => !a
        streetRaises := 0 } := by
    intro g
    rw [← dealStreets_atSeat, dealStreets_shared]
    rfl
  unfold nextStreet Dealer.nextStreet
  refine (h2 _).trans ?_
  rw [show moveAction { d with action := some d.button } = ({ d with action := some d.button } : Dealer).moveAction from rfl, h1]
  rfl

theorem afterBet_atSeat {d : Dealer} (hn : 0 < d.cfg.numPlayers) (fold : Bool) (call bet : Int) :
    atSeat (afterBet d fold call bet) = (atSeat d).afterBet fold call bet := by
  unfold afterBet Dealer.afterBet
  rw [apply_ite atSeat, nextStreet_atSeat (by rw [act_shared, act_eq]; exact hn), act_atSeat, allAgreed_shared]
  refine if_congr ?_ rfl rfl
  rw [← act_atSeat]; rfl

theorem cleanBet_eq {c lo hi : Int} (hc : 0 ≤ c) (hlo : 0 ≤ lo) (hhi : 0 ≤ hi) (b : Int) :
    cleanBet b c lo hi = Clubs.cleanBet b c lo hi := by
  by_cases hb : 0 ≤ b
  · unfold cleanBet Clubs.cleanBet
    rw [max_eq_right hb]
  · have h1 : cleanBet b c lo hi = 0 := by
      have h2 : argmin ([0, c, lo, hi].map fun v => iabs (v - b)) = 0 := by
        simp only [argmin, argminLoop, iabs, List.map_cons, List.map_nil, if_true]
        rw [if_neg (by omega : ¬ (0 - b < 0)), if_neg (by omega : ¬ (c - b < 0)), if_neg (by omega : ¬ (lo - b < 0)),
          if_neg (by omega : ¬ (hi - b < 0)), if_neg (by simp; omega), if_neg (by simp; omega), if_neg (by simp; omega)]
      unfold cleanBet
      simp only [h2]
      rfl
    have h3 : Clubs.cleanBet b c lo hi = 0 := by
      have h2 : argmin ([0, c, lo, hi].map fun v => iabs (v - max 0 b)) = 0 := by
        rw [max_eq_left (by omega)]
        simp only [argmin, argminLoop, iabs, List.map_cons, List.map_nil, if_true]
        rw [if_neg (by omega : ¬ ((0 : Int) - 0 < 0)), if_neg (by omega : ¬ (c - 0 < 0)), if_neg (by omega : ¬ (lo - 0 < 0)),
          if_neg (by omega : ¬ (hi - 0 < 0)), if_neg (by simp; omega), if_neg (by simp; omega), if_neg (by simp; omega)]
      unfold Clubs.cleanBet
      simp only [h2]
      rfl
    rw [h1, h3]

theorem zipWith_add_assoc (a b c : List Int) :
    List.zipWith (· + ·) a (List.zipWith (· + ·) b c) = List.zipWith (· + ·) (List.zipWith (· + ·) a b) c := by
  induction a generalizing b c with
  | nil => simp
  | cons x a ih =>
    cases b with
    | nil => simp
    | cons y b =>
      cases c with
      | nil => simp
      | cons z c => simp [ih, Int.add_assoc]

theorem finish_cases (d : Dealer) :
    (∃ e, payouts d = .error e ∧ finish d = (d, .error e)) ∨
    (∃ p, payouts d = .ok p ∧ (done d).all id = true ∧ (finish d).1 = d.settle p ∧
      (finish d).2 = (observation (d.settle p) true).map fun o => (o, p, done d)) ∨
    (∃ p, payouts d = .ok p ∧ (done d).all id = false ∧ (finish d).1 = d ∧
      (finish d).2 = (observation d false).map fun o => (o, p, done d)) := by
  unfold finish
  cases hp : payouts d with
  | error e => exact .inl ⟨e, rfl, rfl⟩
  | ok p =>
    right
    simp only [zipWith_add_assoc]
    cases hd : (done d).all id with
    | true =>
      left
      refine ⟨p, rfl, rfl, rfl, ?_⟩
      simp only [if_true]
      show (match observation (d.settle p) true with | .error e => _ | .ok obs => _) = _
      cases observation (d.settle p) true <;> rfl
    | false =>
      right
      refine ⟨p, rfl, rfl, rfl, ?_⟩
      simp only [Bool.false_eq_true, if_false]
      cases observation d false <;> rfl

theorem step_some {d : Dealer} {a : Nat} (ha : d.action = some a) (bet : PyNum) :
    (∃ e, pyRound bet = .error e ∧ step d bet = (d, .error e)) ∨
    (∃ b e, pyRound bet = .ok b ∧ d.betSizes = .error e ∧ step d bet = (d, .error e)) ∨
    (∃ b c lo hi, pyRound bet = .ok b ∧ d.betSizes = .ok (c, lo, hi) ∧
      step d bet = finish (afterBet d bet.isNeg c (cleanBet b c lo hi))) := by
  unfold step
  rw [ha]
  simp only []
  cases pyRound bet with
  | error e => exact .inl ⟨e, rfl, rfl⟩
  | ok b =>
    right
    simp only []
    have : betSizes d = d.betSizes := rfl
    rw [this]
    cases hb : d.betSizes with
    | error e => exact .inl ⟨b, e, rfl, rfl, rfl⟩
    | ok s =>
      obtain ⟨c, lo, hi⟩ := s
      exact .inr ⟨b, c, lo, hi, rfl, rfl, rfl⟩

theorem step_none {d : Dealer} (ha : d.action = none) (bet : PyNum) : (step d bet).1 = d := by
  unfold step
  rw [ha]
  simp only []
  split <;> rfl

end Clubs.Numpy
