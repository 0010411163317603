import Verif.Lemmas.Blind
import Verif.Lemmas.Eval
import Verif.Lemmas.NumpyRun

/-! # The showdown reads nothing but the ranks of the hands of those who are in -/

namespace Clubs

open Spec

variable {C : List Card} {D : Deck} {H : List (List Card)} {x : Dealer}

/-- with other cards everybody who is in has a hand of the same rank, or the same exception is raised -/
def RankedAs (C : List Card) (H : List (List Card)) (x : Dealer) : Prop :=
  ∀ i < x.cfg.numPlayers, isIn x i →
    x.cfg.evaluator.evaluate (H.getD i []) C = x.cfg.evaluator.evaluate (x.holeCards.getD i []) x.communityCards

theorem evalHands_shown (hl : H.length = x.holeCards.length) (hx : x.holeCards.length = x.cfg.numPlayers) (hr : RankedAs C H x) :
    (withCards C D H x).evalHands H C = x.evalHands x.holeCards x.communityCards := by
  unfold Dealer.evalHands
  show (List.range x.cfg.numPlayers).mapM _ = _
  refine mapM_congr_except fun i hi => ?_
  have hi : i < x.cfg.numPlayers := List.mem_range.1 hi
  show (if x.active.getD i false = true then (match H[i]? with
    | none => Except.error Err.indexError | some hole => x.cfg.evaluator.evaluate hole C) else .ok x.worstHand) = _
  by_cases ha : x.active.getD i false = true
  · have h1 := hr i hi ha
    rw [if_pos ha, if_pos ha, List.getElem?_eq_getElem (by omega : i < H.length),
      List.getElem?_eq_getElem (by omega : i < x.holeCards.length)]
    rw [getD_eq H i [] (by omega), getD_eq x.holeCards i [] (by omega)] at h1
    exact h1
  · rw [if_neg ha, if_neg ha]

theorem payouts_shown (hl : H.length = x.holeCards.length) (hx : x.holeCards.length = x.cfg.numPlayers) (hr : RankedAs C H x) :
    (withCards C D H x).payouts = x.payouts := by
  have e : (withCards C D H x).evalRound = x.evalRound := by
    unfold Dealer.evalRound
    show (match (withCards C D H x).evalHands H C with
      | .error e => Except.error e
      | .ok t => potPayouts x.cfg.numPlayers x.button x.worstHand x.pot x.potCommits t) = _
    rw [evalHands_shown hl hx hr]
    rfl
  unfold Dealer.payouts
  rw [e]
  rfl

theorem pyGet_shown {α : Type} {l m : List α} (hl : l.length = m.length) (k : Int) :
    (∃ e, pyGet l k = .error e ∧ pyGet m k = .error e) ∨ ∃ a b, pyGet l k = .ok a ∧ pyGet m k = .ok b := by
  unfold pyGet
  simp only [hl]
  generalize (if k < 0 then k + (m.length : Int) else k) = k
  by_cases hk : k < 0
  · simp only [if_pos hk]; exact .inl ⟨_, rfl, rfl⟩
  · simp only [if_neg hk]
    by_cases hk : k.toNat < m.length
    · rw [List.getElem?_eq_getElem hk, List.getElem?_eq_getElem (by omega : k.toNat < l.length)]; exact .inr ⟨_, _, rfl, rfl⟩
    · rw [List.getElem?_eq_none (by omega), List.getElem?_eq_none (by omega)]; exact .inl ⟨_, rfl, rfl⟩

/-- whether the observation can be taken does not depend on the cards -/
theorem observation_shown {β : Type} (hl : H.length = x.holeCards.length) (fin : Bool) (v : β) :
    ((withCards C D H x).observation fin).map (fun _ => v) = (x.observation fin).map (fun _ => v) := by
  unfold Dealer.observation
  have hb : (withCards C D H x).betSizes = x.betSizes := rfl
  have ha : (withCards C D H x).action = x.action := rfl
  have hh : (withCards C D H x).holeCards = H := rfl
  rw [hb, ha, hh]
  rcases (if fin then .ok (0, 0, 0) else x.betSizes : Except Err (Int × Int × Int)) with e | ⟨c, lo, hi⟩
  · rfl
  · simp only []
    cases x.action with
    | none =>
      simp only []
      rcases pyGet_shown hl (-1) with ⟨e, h1, h2⟩ | ⟨a, b, h1, h2⟩
      · rw [h1, h2]
      · rw [h1, h2]; rfl
    | some k =>
      simp only []
      rcases pyGet_shown hl (k : Int) with ⟨e, h1, h2⟩ | ⟨a, b, h1, h2⟩
      · rw [h1, h2]
      · rw [h1, h2]; rfl

theorem map_map_except {ε α β γ : Type} (f : α → β) (g : β → γ) (r : Except ε α) : (r.map f).map g = r.map (fun a => g (f a)) := by
  cases r <;> rfl

theorem finish_shown (hl : H.length = x.holeCards.length) (hp : (withCards C D H x).payouts = x.payouts) :
    (withCards C D H x).finish.2.map (·.2) = x.finish.2.map (·.2) ∧ SameButCards x.finish.1 (withCards C D H x).finish.1 := by
  have hd : (withCards C D H x).done = x.done := rfl
  rcases finish_cases x with ⟨e, h1, h2⟩ | ⟨p, h1, h2, h3, h4⟩ | ⟨p, h1, h2, h3, h4⟩
  · rcases finish_cases (withCards C D H x) with ⟨e', g1, g2⟩ | ⟨p', g1, -⟩ | ⟨p', g1, -⟩
    · rw [hp, h1] at g1; cases g1
      rw [h2, g2]; exact ⟨rfl, sameButCards_iff.2 ⟨_, _, _, rfl⟩⟩
    · rw [hp, h1] at g1; cases g1
    · rw [hp, h1] at g1; cases g1
  · rcases finish_cases (withCards C D H x) with ⟨e', g1, g2⟩ | ⟨p', g1, g2, g3, g4⟩ | ⟨p', g1, g2, -⟩
    · rw [hp, h1] at g1; cases g1
    · rw [hp, h1] at g1; cases g1
      rw [h3, g3, h4, g4, hd, map_map_except, map_map_except]
      exact ⟨observation_shown (x := x.settle p) hl true (p, x.done), sameButCards_iff.2 ⟨_, _, _, rfl⟩⟩
    · rw [hd, h2] at g2; cases g2
  · rcases finish_cases (withCards C D H x) with ⟨e', g1, g2⟩ | ⟨p', g1, g2, -⟩ | ⟨p', g1, g2, g3, g4⟩
    · rw [hp, h1] at g1; cases g1
    · rw [hd, h2] at g2; cases g2
    · rw [hp, h1] at g1; cases g1
      rw [h3, g3, h4, g4, hd, map_map_except, map_map_except]
      exact ⟨observation_shown hl false (p, x.done), sameButCards_iff.2 ⟨_, _, _, rfl⟩⟩

theorem finish_cards (x : Dealer) : x.finish.1.holeCards = x.holeCards ∧ x.finish.1.communityCards = x.communityCards := by
  rcases finish_cases x with ⟨e, -, h⟩ | ⟨p, -, -, h, -⟩ | ⟨p, -, -, h, -⟩
  · rw [h]; exact ⟨rfl, rfl⟩
  · rw [h]; exact ⟨rfl, rfl⟩
  · rw [h]; exact ⟨rfl, rfl⟩

variable {S : List Int} {d e : Dealer}

/-- a step at two tables that differ in nothing but the cards, if the payouts agree -/
theorem step_otherCards (h : InHand S d) (h' : InHand S e) (hc : SameButCards d e) (hrun : d.action ≠ none) (bet : PyNum)
    (hx : ∀ (x : Dealer) (C : List Card) (D : Deck) (H : List (List Card)), H.length = x.holeCards.length →
      x.holeCards.length = x.cfg.numPlayers → x.finish.1 = (d.step bet).1 → (withCards C D H x).finish.1 = (e.step bet).1 →
      (withCards C D H x).payouts = x.payouts) :
    (e.step bet).2.map (·.2) = (d.step bet).2.map (·.2) ∧ SameButCards (d.step bet).1 (e.step bet).1 := by
  cases ha : d.action with
  | none => exact absurd ha hrun
  | some a =>
    have l1 := (live_of_action h ha).1.holeLen
    have l2 := (live_of_action h' (a := a) (by rw [hc]; exact ha)).1.holeLen
    obtain ⟨C, D, H, rfl⟩ := sameButCards_iff.1 hc
    have hl : H.length = d.holeCards.length := l2.trans l1.symm
    have ha' : (withCards C D H d).action = some a := ha
    have hb : (withCards C D H d).betSizes = d.betSizes := rfl
    rcases step_some ha bet with ⟨e, hr, he⟩ | ⟨b, e, hr, hr2, he⟩ | ⟨b, c, lo, hi, hr, hs, he⟩ <;>
    rcases step_some ha' bet with ⟨e', gr, ge⟩ | ⟨b', e', gr, gr2, ge⟩ | ⟨b', c', lo', hi', gr, gs, ge⟩
    · rw [hr] at gr; cases gr
      rw [he, ge]; exact ⟨rfl, hc⟩
    · rw [hr] at gr; cases gr
    · rw [hr] at gr; cases gr
    · rw [hr] at gr; cases gr
    · rw [hr] at gr; cases gr
      rw [hb, hr2] at gr2; cases gr2
      rw [he, ge]; exact ⟨rfl, hc⟩
    · rw [hb, hr2] at gs; cases gs
    · rw [hr] at gr; cases gr
    · rw [hb, hs] at gr2; cases gr2
    · rw [hr] at gr; cases gr
      rw [hb, hs] at gs; cases gs
      rw [he, ge] at hx ⊢
      obtain ⟨C', D', e⟩ := afterBet_otherCards (C := C) (D := D) (H := H) d bet.isNeg c (cleanBet b c lo hi)
      rw [e] at hx ⊢
      obtain ⟨k2, -, -, -, k1, -⟩ := afterBet_fields d bet.isNeg c (cleanBet b c lo hi)
      generalize d.afterBet bet.isNeg c (cleanBet b c lo hi) = x at hx k1 k2 ⊢
      refine finish_shown (by rw [k1]; exact hl) (hx x C' D' H (by rw [k1]; exact hl) (by rw [k1, k2]; exact l1) rfl rfl)

end Clubs

namespace Clubs.Numpy

open Spec

variable {C : List Card} {D : Deck} {H : List (List Card)} {x : Dealer}

theorem payouts_shown (hl : H.length = x.holeCards.length) (hx : x.holeCards.length = x.cfg.numPlayers) (hr : RankedAs C H x) :
    payouts (withCards C D H x) = payouts x := by
  have e : evalRound (withCards C D H x) = evalRound x := by
    unfold evalRound evalHands
    show (match (withCards C D H x).evalHands H C with
      | .error e => Except.error e
      | .ok t => potPayouts x.cfg.numPlayers x.button x.worstHand x.pot x.potCommits t) = _
    rw [evalHands_shown hl hx hr]
    rfl
  unfold payouts
  rw [e]
  rfl

theorem finish_shown (hl : H.length = x.holeCards.length) (hp : payouts (withCards C D H x) = payouts x) :
    (finish (withCards C D H x)).2.map (·.2) = (finish x).2.map (·.2) ∧ SameButCards (finish x).1 (finish (withCards C D H x)).1 := by
  have hd : done (withCards C D H x) = done x := rfl
  rcases finish_cases x with ⟨e, h1, h2⟩ | ⟨p, h1, h2, h3, h4⟩ | ⟨p, h1, h2, h3, h4⟩
  · rcases finish_cases (withCards C D H x) with ⟨e', g1, g2⟩ | ⟨p', g1, -⟩ | ⟨p', g1, -⟩
    · rw [hp, h1] at g1; cases g1
      rw [h2, g2]; exact ⟨rfl, sameButCards_iff.2 ⟨_, _, _, rfl⟩⟩
    · rw [hp, h1] at g1; cases g1
    · rw [hp, h1] at g1; cases g1
  · rcases finish_cases (withCards C D H x) with ⟨e', g1, g2⟩ | ⟨p', g1, g2, g3, g4⟩ | ⟨p', g1, g2, -⟩
    · rw [hp, h1] at g1; cases g1
    · rw [hp, h1] at g1; cases g1
      rw [h3, g3, h4, g4, hd, map_map_except, map_map_except]
      exact ⟨observation_shown (x := x.settle p) hl true (p, done x), sameButCards_iff.2 ⟨_, _, _, rfl⟩⟩
    · rw [hd, h2] at g2; cases g2
  · rcases finish_cases (withCards C D H x) with ⟨e', g1, g2⟩ | ⟨p', g1, g2, -⟩ | ⟨p', g1, g2, g3, g4⟩
    · rw [hp, h1] at g1; cases g1
    · rw [hd, h2] at g2; cases g2
    · rw [hp, h1] at g1; cases g1
      rw [h3, g3, h4, g4, hd, map_map_except, map_map_except]
      exact ⟨observation_shown hl false (p, done x), sameButCards_iff.2 ⟨_, _, _, rfl⟩⟩

theorem finish_cards (x : Dealer) : (finish x).1.holeCards = x.holeCards ∧ (finish x).1.communityCards = x.communityCards := by
  rcases finish_cases x with ⟨e, -, h⟩ | ⟨p, -, -, h, -⟩ | ⟨p, -, -, h, -⟩
  · rw [h]; exact ⟨rfl, rfl⟩
  · rw [h]; exact ⟨rfl, rfl⟩
  · rw [h]; exact ⟨rfl, rfl⟩

variable {S : List Int} {d e : Dealer}

/-- a step at two tables that differ in nothing but the cards, if the payouts agree -/
theorem step_otherCards (h : ArrayInHand S d) (h' : ArrayInHand S e) (hc : SameButCards d e) (hrun : d.action ≠ none) (bet : PyNum)
    (hx : ∀ (x : Dealer) (C : List Card) (D : Deck) (H : List (List Card)), H.length = x.holeCards.length →
      x.holeCards.length = x.cfg.numPlayers → (finish x).1 = (step d bet).1 → (finish (withCards C D H x)).1 = (step e bet).1 →
      payouts (withCards C D H x) = payouts x) :
    (step e bet).2.map (·.2) = (step d bet).2.map (·.2) ∧ SameButCards (step d bet).1 (step e bet).1 := by
  cases ha : d.action with
  | none => exact absurd ha hrun
  | some a =>
    have l1 : d.holeCards.length = d.cfg.numPlayers := (live_of_array h ha).1.holeLen
    have n0 : 0 < d.cfg.numPlayers := by have : 2 ≤ d.cfg.numPlayers := (live_of_array h ha).1.seated.two; omega
    have l2 := (live_of_array h' (a := a) (by rw [hc]; exact ha)).1.holeLen
    obtain ⟨C, D, H, rfl⟩ := sameButCards_iff.1 hc
    have hl : H.length = d.holeCards.length := l2.trans l1.symm
    have ha' : (withCards C D H d).action = some a := ha
    have hb : (withCards C D H d).betSizes = d.betSizes := rfl
    rcases step_some ha bet with ⟨e, hr, he⟩ | ⟨b, e, hr, hr2, he⟩ | ⟨b, c, lo, hi, hr, hs, he⟩ <;>
    rcases step_some ha' bet with ⟨e', gr, ge⟩ | ⟨b', e', gr, gr2, ge⟩ | ⟨b', c', lo', hi', gr, gs, ge⟩
    · rw [hr] at gr; cases gr
      rw [he, ge]; exact ⟨rfl, hc⟩
    · rw [hr] at gr; cases gr
    · rw [hr] at gr; cases gr
    · rw [hr] at gr; cases gr
    · rw [hr] at gr; cases gr
      rw [hb, hr2] at gr2; cases gr2
      rw [he, ge]; exact ⟨rfl, hc⟩
    · rw [hb, hr2] at gs; cases gs
    · rw [hr] at gr; cases gr
    · rw [hb, hs] at gr2; cases gr2
    · rw [hr] at gr; cases gr
      rw [hb, hs] at gs; cases gs
      rw [he, ge] at hx ⊢
      obtain ⟨C', D', e⟩ := afterBet_otherCards (C := C) (D := D) (H := H) d bet.isNeg c (cleanBet b c lo hi)
      rw [e] at hx ⊢
      obtain ⟨k2, -, -, -, k1, -⟩ := afterBet_fields (atSeat d) bet.isNeg c (cleanBet b c lo hi)
      rw [← afterBet_atSeat n0] at k1 k2
      change (afterBet d bet.isNeg c (cleanBet b c lo hi)).cfg = d.cfg at k2
      change (afterBet d bet.isNeg c (cleanBet b c lo hi)).holeCards = d.holeCards at k1
      generalize afterBet d bet.isNeg c (cleanBet b c lo hi) = x at hx k1 k2 ⊢
      refine finish_shown (by rw [k1]; exact hl) (hx x C' D' H (by rw [k1]; exact hl) (by rw [k1, k2]; exact l1) rfl rfl)

end Clubs.Numpy
