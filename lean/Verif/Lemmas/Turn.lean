import Verif.Spec.Turn
import Mathlib.Data.Nat.ModEq
import Verif.Lemmas.Engine
import Verif.Lemmas.Inv

/-! Helper lemmas: every method of the dealer but the division of the pot treats all seats alike. -/

namespace Clubs

open Spec

variable {α : Type}

theorem turnSeat_lt {n : Nat} (k a : Nat) (h : 0 < n) : turnSeat n k a < n := Nat.mod_lt _ h

theorem turnSeat_back {n : Nat} (k : Nat) {a : Nat} (h : a < n) : (turnSeat n k a + k) % n = a := by
  unfold turnSeat
  rw [Nat.mod_add_mod, Nat.add_assoc]
  have hk : k % n < n := Nat.mod_lt _ (by omega)
  have h1 : (n - k % n + k) % n = 0 := by
    rw [← Nat.add_mod_mod, show n - k % n + k % n = n by omega, Nat.mod_self]
  rw [Nat.add_mod, h1, Nat.add_zero, Nat.mod_mod, Nat.mod_eq_of_lt h]

theorem turnSeat_inj {n k a b : Nat} (ha : a < n) (hb : b < n) (h : turnSeat n k a = turnSeat n k b) : a = b := by
  rw [← turnSeat_back k ha, ← turnSeat_back k hb, h]

theorem turnSeat_surj {n k b : Nat} (hb : b < n) : turnSeat n k ((b + k) % n) = b := by
  have h0 : 0 < n := by omega
  have h1 := turnSeat_back k (Nat.mod_lt (b + k) h0)
  have h2 : turnSeat n k ((b + k) % n) < n := turnSeat_lt _ _ h0
  have h4 : Nat.ModEq n (turnSeat n k ((b + k) % n)) b := Nat.ModEq.add_right_cancel' k h1
  unfold Nat.ModEq at h4
  rwa [Nat.mod_eq_of_lt h2, Nat.mod_eq_of_lt hb] at h4

theorem turnSeat_add (n k a i : Nat) : (turnSeat n k a + i) % n = turnSeat n k ((a + i) % n) := by
  unfold turnSeat
  rw [Nat.mod_add_mod, Nat.mod_add_mod]
  congr 1; omega

theorem getElem?_turn {l : List α} {n : Nat} (hl : l.length = n) (k : Nat) {a : Nat} (h : a < n) :
    (l.rotate k)[turnSeat n k a]? = l[a]? := by
  rw [List.getElem?_rotate (by rw [hl]; exact turnSeat_lt _ _ (by omega)), hl, turnSeat_back k h]

theorem getD_turn {l : List α} {n : Nat} (hl : l.length = n) (k : Nat) {a : Nat} (h : a < n) (x : α) :
    (l.rotate k).getD (turnSeat n k a) x = l.getD a x := by
  rw [List.getD_eq_getElem?_getD, List.getD_eq_getElem?_getD, getElem?_turn hl k h]

/-- a list is determined by the entries of the turned seats -/
theorem eq_rotate {l m : List α} {n : Nat} (hl : l.length = n) (hm : m.length = n) {k : Nat}
    (h : ∀ a < n, m[turnSeat n k a]? = l[a]?) : m = l.rotate k := by
  apply List.ext_getElem?
  intro i
  by_cases hi : i < n
  · have := h ((i + k) % n) (Nat.mod_lt _ (by omega))
    rw [turnSeat_surj hi] at this
    rw [this, ← getElem?_turn hl k (Nat.mod_lt _ (by omega)), turnSeat_surj hi]
  · rw [List.getElem?_eq_none (by omega), List.getElem?_eq_none (by rw [List.length_rotate]; omega)]

theorem modify_turn {l : List α} {n : Nat} (hl : l.length = n) (k : Nat) {a : Nat} (h : a < n) (f : α → α) :
    (l.rotate k).modify (turnSeat n k a) f = (l.modify a f).rotate k := by
  refine eq_rotate (by simpa using hl) (by simpa using hl) fun b hb => ?_
  rw [List.getElem?_modify, List.getElem?_modify, getElem?_turn hl k hb]
  by_cases hab : a = b
  · subst hab; simp
  · simp only [if_neg hab, if_neg (fun e => hab (turnSeat_inj h hb e))]

theorem set_turn {l : List α} {n : Nat} (hl : l.length = n) (k : Nat) {a : Nat} (h : a < n) (x : α) :
    (l.rotate k).set (turnSeat n k a) x = (l.set a x).rotate k := by
  refine eq_rotate (by simpa using hl) (by simpa using hl) fun b hb => ?_
  rw [List.getElem?_set, List.getElem?_set, getElem?_turn hl k hb, List.length_rotate, hl]
  by_cases hab : a = b
  · subst hab; simp [h, turnSeat_lt _ _ (by omega : 0 < n)]
  · rw [if_neg hab, if_neg (fun e => hab (turnSeat_inj h hb e))]

theorem pyMax_perm {l m : List Int} (h : l.Perm m) : pyMax l = pyMax m := by
  by_cases h0 : l = []
  · subst h0; rw [h.symm.eq_nil]
  · have h1 : m ≠ [] := fun e => h0 (by rw [e] at h; exact h.eq_nil)
    exact le_antisymm (pyMax_ge (h.subset (pyMax_mem h0))) (pyMax_ge (h.symm.subset (pyMax_mem h1)))

theorem pyMax_rotate (l : List Int) (k : Nat) : pyMax (l.rotate k) = pyMax l := pyMax_perm (List.rotate_perm l k)

theorem all_rotate (l : List α) (p : α → Bool) (k : Nat) : (l.rotate k).all p = l.all p := by
  rw [Bool.eq_iff_iff, List.all_eq_true, List.all_eq_true]
  simp

theorem countTrue_rotate (l : List Bool) (k : Nat) : countTrue (l.rotate k) = countTrue l := (List.rotate_perm l k).count_eq true

/-! ## the methods -/

variable {d : Dealer}

theorem turn_numPlayers (k : Nat) (d : Dealer) : (turnTable k d).cfg = d.cfg := rfl

theorem seat_turn {a : Nat} (ha : d.action = some a) (k : Nat) : (turnTable k d).seat = turnSeat d.cfg.numPlayers k d.seat := by
  unfold Dealer.seat turnTable
  simp [ha]

theorem betSizes_turn {a : Nat} (hd : Seated d) (ha : d.action = some a) (k : Nat) : (turnTable k d).betSizes = d.betSizes := by
  have hs := seat_lt hd
  have e1 : (turnTable k d).streetCommits.getD (turnTable k d).seat 0 = d.streetCommits.getD d.seat 0 := by
    rw [seat_turn ha]; exact getD_turn hd.streetCommits k hs 0
  have e2 : (turnTable k d).stacks.getD (turnTable k d).seat 0 = d.stacks.getD d.seat 0 := by
    rw [seat_turn ha]; exact getD_turn hd.stacks k hs 0
  have e3 : pyMax (turnTable k d).streetCommits = pyMax d.streetCommits := pyMax_rotate _ k
  unfold Dealer.betSizes
  rw [e1, e2, e3]
  rfl

theorem moveLoop_turn {n : Nat} (h0 : 0 < n) (k start : Nat) {active : List Bool} (hact : active.length = n) (fuel idx a : Nat)
    {opt : List Bool} (hopt : opt.length = n) :
    moveLoop n (turnSeat n k start) (active.rotate k) fuel idx (turnSeat n k a) (opt.rotate k) =
      (turnSeat n k (moveLoop n start active fuel idx a opt).1, (moveLoop n start active fuel idx a opt).2.rotate k) := by
  induction fuel generalizing idx a opt with
  | zero => rfl
  | succ fuel ih =>
    unfold moveLoop
    simp only []
    have hlt := Nat.mod_lt (start + idx) h0
    rw [turnSeat_add, getD_turn hact k hlt, set_turn hopt k hlt]
    split
    · rfl
    · exact ih _ _ (by simpa using hopt)

theorem moveAction_turn {a : Nat} (hd : Seated d) (ha : d.action = some a) (k : Nat) :
    (turnTable k d).moveAction = turnTable k d.moveAction := by
  have h := moveLoop_turn (n := d.cfg.numPlayers) (by have := hd.two; omega) k d.seat hd.active d.cfg.numPlayers 1 d.seat hd.streetOption
  unfold Dealer.moveAction
  rw [seat_turn ha]
  simp only [turnTable]
  rw [h]
  rfl

theorem moveAction_some (d : Dealer) : ∃ a, d.moveAction.action = some a := ⟨_, rfl⟩

theorem acted_turn {a : Nat} (hd : Seated d) (ha : d.action = some a) (k : Nat) (fold : Bool) (call bet : Int) :
    (turnTable k d).acted fold call bet = turnTable k (d.acted fold call bet) := by
  have hs := seat_lt hd
  have e2 : (turnTable k d).stacks.getD (turnTable k d).seat 0 = d.stacks.getD d.seat 0 := by
    rw [seat_turn ha]; exact getD_turn hd.stacks k hs 0
  unfold Dealer.acted
  rw [e2, seat_turn ha]
  simp only [turnTable]
  rw [modify_turn hd.potCommits k hs, modify_turn hd.stacks k hs, modify_turn hd.streetCommits k hs, set_turn hd.streetOption k hs,
    set_turn hd.active k hs]
  simp only [List.map_append, List.map_cons, List.map_nil]
  split <;> rfl

theorem act_turn {a : Nat} (hd : Seated d) (ha : d.action = some a) (k : Nat) (fold : Bool) (call bet : Int) :
    (turnTable k d).act fold call bet = turnTable k (d.act fold call bet) := by
  rw [act_eq, act_eq, acted_turn hd ha]
  exact moveAction_turn (acted_seated hd fold call bet) ha k

theorem allAgreed_turn (hd : Seated d) (k : Nat) : (turnTable k d).allAgreed = d.allAgreed := by
  unfold Dealer.allAgreed turnTable
  simp only [all_rotate, pyMax_rotate, List.map_rotate]
  have l1 := hd.streetCommits
  have l2 := hd.stacks
  have l3 := hd.active
  rw [← List.zipWith_rotate_distrib _ _ _ _ (by simp [l1, l2]), ← List.zipWith_rotate_distrib _ _ _ _ (by simp [l1, l2, l3]), all_rotate]

theorem allAllIn_turn (hd : Seated d) (k : Nat) : (turnTable k d).allAllIn = d.allAllIn := by
  unfold Dealer.allAllIn turnTable
  simp only []
  rw [← List.zipWith_rotate_distrib _ _ _ _ (by rw [hd.active, hd.stacks]), countTrue_rotate, countTrue_rotate]

theorem dealStreets_turn (hd : Seated d) (k fuel : Nat) : dealStreets fuel (turnTable k d) = turnTable k (dealStreets fuel d) := by
  induction fuel generalizing d with
  | zero => rfl
  | succ fuel ih =>
    rw [dealStreets, dealStreets]
    simp only []
    by_cases h1 : d.street + 1 ≥ d.cfg.numStreets
    · rw [if_pos h1, if_pos (show (turnTable k d).street + 1 ≥ (turnTable k d).cfg.numStreets from h1)]; rfl
    · rw [if_neg h1, if_neg (show ¬ (turnTable k d).street + 1 ≥ (turnTable k d).cfg.numStreets from h1)]
      have hx : Seated { d with street := d.street + 1
                                communityCards := d.communityCards ++ (d.deck.draw (d.cfg.numCommunityCards.getD (d.street + 1) 0)).1
                                deck := (d.deck.draw (d.cfg.numCommunityCards.getD (d.street + 1) 0)).2 } := { hd with }
      generalize hX : ({ d with street := d.street + 1
                                communityCards := d.communityCards ++ (d.deck.draw (d.cfg.numCommunityCards.getD (d.street + 1) 0)).1
                                deck := (d.deck.draw (d.cfg.numCommunityCards.getD (d.street + 1) 0)).2 } : Dealer) = x at hx
      have hX' : turnTable k x = { turnTable k d with
          street := (turnTable k d).street + 1
          communityCards := (turnTable k d).communityCards ++
            ((turnTable k d).deck.draw ((turnTable k d).cfg.numCommunityCards.getD ((turnTable k d).street + 1) 0)).1
          deck := ((turnTable k d).deck.draw ((turnTable k d).cfg.numCommunityCards.getD ((turnTable k d).street + 1) 0)).2 } := by
        rw [← hX]; rfl
      rw [← hX', allAllIn_turn hx k, ih hx]
      split <;> rfl

theorem nextStreet_turn (hd : Seated d) (k : Nat) : (turnTable k d).nextStreet = turnTable k d.nextStreet := by
  have h1 : Seated { d with action := some d.button } :=
    { hd with action := by intro a ha; simp at ha; rw [← ha]; exact hd.button }
  have h2 := moveAction_turn h1 rfl k
  have h3 := dealStreets_turn (moveAction_seated h1) k (d.cfg.numStreets + 1)
  unfold Dealer.nextStreet
  simp only []
  have e : ({ turnTable k d with action := some (turnTable k d).button } : Dealer) = turnTable k { d with action := some d.button } := rfl
  rw [e, h2]
  have h5 : (turnTable k (Dealer.moveAction { d with action := some d.button })).cfg.numStreets = d.cfg.numStreets := rfl
  rw [h5, h3]
  have h6 : (Dealer.moveAction { d with action := some d.button }).cfg.numStreets = d.cfg.numStreets := rfl
  rw [h6]
  simp only [turnTable, List.rotate_replicate, List.map_rotate]

theorem afterBet_turn {a : Nat} (hd : Seated d) (ha : d.action = some a) (k : Nat) (fold : Bool) (call bet : Int) :
    (turnTable k d).afterBet fold call bet = turnTable k (d.afterBet fold call bet) := by
  unfold Dealer.afterBet
  rw [act_turn hd ha, allAgreed_turn (act_seated hd fold call bet), nextStreet_turn (act_seated hd fold call bet)]
  split <;> rfl

theorem done_turn (hd : Seated d) (k : Nat) : (turnTable k d).done = d.done.rotate k := by
  unfold Dealer.done turnTable
  simp only [countTrue_rotate]
  split
  · rw [List.rotate_replicate]
  · rw [List.zipWith_rotate_distrib _ _ _ _ (by rw [hd.active, hd.stacks])]

theorem lostList_turn (hd : Seated d) (k : Nat) : lostList (turnTable k d) = (lostList d).rotate k := by
  unfold lostList turnTable
  rw [List.zipWith_rotate_distrib _ _ _ _ (by rw [hd.active, hd.potCommits])]

theorem settle_turn (hd : Seated d) {p : List Int} (hp : p.length = d.cfg.numPlayers) (k : Nat) :
    (turnTable k d).settle (p.rotate k) = turnTable k (d.settle p) := by
  unfold Dealer.settle
  simp only [turnTable, Option.map_none]
  rw [List.zipWith_rotate_distrib _ _ _ _ (by simp [hd.stacks, hd.potCommits, hp]), List.zipWith_rotate_distrib _ _ _ _ (by simp [hd.stacks, hp])]

/-- what a running table shows the player to act -/
theorem observation_turn {a : Nat} (hd : Seated d) (hh : d.holeCards.length = d.cfg.numPlayers) (ha : d.action = some a) (k : Nat) :
    ∃ r r', d.observation false = r ∧ (turnTable k d).observation false = r' ∧
      match r, r' with
      | .error e, .error e' => e' = e
      | .ok o, .ok o' => SameView d.cfg.numPlayers k o o'
      | _, _ => False := by
  refine ⟨_, _, rfl, rfl, ?_⟩
  have hs := hd.action a ha
  have h1 : pyGet d.holeCards (a : Int) = .ok (d.holeCards.getD a []) := by
    unfold pyGet
    simp only []
    rw [if_neg (by omega), if_neg (by omega), Int.toNat_natCast, List.getElem?_eq_getElem (by omega), getD_eq _ _ _ (by omega)]
  have h2 : pyGet (d.holeCards.rotate k) (turnSeat d.cfg.numPlayers k a : Int) = .ok (d.holeCards.getD a []) := by
    unfold pyGet
    simp only []
    rw [if_neg (by omega), if_neg (by omega), Int.toNat_natCast, getElem?_turn hh k hs, List.getElem?_eq_getElem (by omega), getD_eq _ _ _ (by omega)]
  unfold Dealer.observation
  simp only [Bool.false_eq_true, if_false]
  rw [betSizes_turn hd ha]
  cases hb : d.betSizes with
  | error e => rfl
  | ok t =>
    obtain ⟨c, lo, hi⟩ := t
    simp only [turnTable, ha, Option.map_some]
    rw [h1, h2]
    constructor <;> simp

/-- what the table shows when the hand is over -/
theorem observation_end (hd : Seated d) (hh : d.holeCards.length = d.cfg.numPlayers) (ha : d.action = none) (k : Nat) :
    ∃ o o', d.observation true = .ok o ∧ (turnTable k d).observation true = .ok o' ∧ SameView d.cfg.numPlayers k o o' := by
  have h0 := hd.two
  have h1 : ∀ l : List (List Card), l.length = d.cfg.numPlayers → pyGet l (-1) = .ok (l.getD (d.cfg.numPlayers - 1) []) := by
    intro l hl
    unfold pyGet
    simp only []
    rw [if_pos (show (-1 : Int) < 0 by omega), if_neg (by omega), show ((-1 : Int) + l.length).toNat = d.cfg.numPlayers - 1 by omega,
      List.getElem?_eq_getElem (by omega), getD_eq _ _ _ (by omega)]
  have h2 := h1 d.holeCards hh
  have h3 := h1 (d.holeCards.rotate k) (by rw [List.length_rotate]; exact hh)
  unfold Dealer.observation
  simp only [if_true, turnTable, ha, Option.map_none]
  rw [h2, h3]
  exact ⟨_, _, rfl, rfl, by constructor <;> simp⟩

/-- the end of a step, if the payouts are those of the turned table -/
theorem finish_turn {a : Nat} (hd : Seated d) (hh : d.holeCards.length = d.cfg.numPlayers) (ha : d.action = some a) (k : Nat) {p : List Int}
    (hp : d.payouts = .ok p) (hl : p.length = d.cfg.numPlayers) (hp' : (turnTable k d).payouts = .ok (p.rotate k)) :
    (turnTable k d).finish.1 = turnTable k d.finish.1 ∧ SameResult d.cfg.numPlayers k d.finish.2 (turnTable k d).finish.2 := by
  unfold Dealer.finish
  rw [hp, hp', done_turn hd]
  simp only [all_rotate]
  cases hdone : d.done.all id with
  | true =>
    simp only [if_true]
    have hst := settle_turn hd hl k
    have hse := settle_seated hd hl
    unfold Dealer.settle at hst hse
    rw [hst]
    refine ⟨rfl, ?_⟩
    obtain ⟨o, o', h1, h2, h3⟩ := observation_end hse hh rfl k
    rw [h1, h2]
    exact ⟨h3, rfl, rfl⟩
  | false =>
    simp only [Bool.false_eq_true, if_false]
    refine ⟨trivial, ?_⟩
    obtain ⟨r, r', h1, h2, h3⟩ := observation_turn hd hh ha k
    rw [h1, h2]
    cases r with
    | error e =>
      cases r' with
      | error e' => exact h3
      | ok o' => exact h3.elim
    | ok o =>
      cases r' with
      | error e' => exact h3.elim
      | ok o' => exact ⟨h3, rfl, rfl⟩

/-- payouts without a showdown -/
theorem payouts_turn (hd : Seated d) (h : countTrue d.active = 1 ∨ d.street < d.cfg.numStreets) (k : Nat) :
    ∃ p, d.payouts = .ok p ∧ p.length = d.cfg.numPlayers ∧ (turnTable k d).payouts = .ok (p.rotate k) := by
  have hlost := lostList_turn hd k
  have hll : (lostList d).length = d.cfg.numPlayers := by simp [lostList, hd.active, hd.potCommits]
  have e1 : (turnTable k d).pot = d.pot := rfl
  have e2 : (turnTable k d).active = d.active.rotate k := rfl
  have e3 : (turnTable k d).potCommits = d.potCommits.rotate k := rfl
  have e4 : (turnTable k d).street = d.street := rfl
  have e5 : (turnTable k d).cfg = d.cfg := rfl
  have eq : ∀ e : Dealer, e.payouts = if countTrue e.active = 1 then
      .ok (List.zipWith (· + ·) (lostList e) (List.zipWith (fun (a : Bool) c => if a then e.pot - c else 0) e.active e.potCommits))
      else if e.street ≥ e.cfg.numStreets then
        match e.evalRound with
        | .error x => .error x
        | .ok p => .ok (List.zipWith (· - ·) p e.potCommits)
      else .ok (lostList e) := fun e => rfl
  rw [eq d, eq (turnTable k d), e2, countTrue_rotate, e4, e5]
  by_cases h1 : countTrue d.active = 1
  · rw [if_pos h1, if_pos h1]
    refine ⟨_, rfl, by simp [hll, hd.active, hd.potCommits], ?_⟩
    rw [hlost, e1, e3, ← List.zipWith_rotate_distrib _ d.active _ _ (by rw [hd.active, hd.potCommits]),
      ← List.zipWith_rotate_distrib _ _ _ _ (by simp [hll, hd.active, hd.potCommits])]
  · rw [if_neg h1, if_neg h1, if_neg (by omega), if_neg (by omega), hlost]
    exact ⟨_, rfl, hll, rfl⟩

end Clubs
