import Verif.Spec.Ask
import Verif.Lemmas.Replay
import Verif.Lemmas.Blind

/-! # Nothing reads the history -/

namespace Clubs

open Spec

/-- the table with another history -/
def withHist (h : List (Nat × Int × Bool)) (d : Dealer) : Dealer := { d with history := h }

theorem sameButHistory_iff {d e : Dealer} : SameButHistory d e ↔ ∃ h, e = withHist h d := by
  constructor
  · intro h
    refine ⟨e.history, ?_⟩
    cases d; cases e
    unfold SameButHistory at h
    simp only [Dealer.mk.injEq] at h
    simp only [withHist, Dealer.mk.injEq]
    simp [h]
  · rintro ⟨h, rfl⟩; rfl

theorem SameButHistory.symm {d e : Dealer} (h : SameButHistory d e) : SameButHistory e d := Eq.symm h

variable {h : List (Nat × Int × Bool)}

theorem withHist_dealStreets (fuel : Nat) (d : Dealer) : dealStreets fuel (withHist h d) = withHist h (dealStreets fuel d) := by
  induction fuel generalizing d with
  | zero => rfl
  | succ fuel ih =>
    rw [dealStreets, dealStreets]
    simp only []
    rw [apply_ite (withHist h)]
    refine if_congr Iff.rfl rfl ?_
    rw [apply_ite (withHist h)]
    refine if_congr Iff.rfl rfl ?_
    rw [← ih]
    rfl

theorem withHist_street (x y : Dealer) (e : x = withHist h y) : ({ x with
    streetCommits := List.replicate x.cfg.numPlayers 0
    streetOption := x.active.map fun a => !a
    streetRaises := 0 } : Dealer) = withHist h { y with
      streetCommits := List.replicate y.cfg.numPlayers 0
      streetOption := y.active.map fun a => !a
      streetRaises := 0 } := by
  subst e; rfl

theorem withHist_nextStreet (d : Dealer) : (withHist h d).nextStreet = withHist h d.nextStreet := by
  have e : ({ withHist h d with action := some (withHist h d).button } : Dealer).moveAction =
      withHist h ({ d with action := some d.button } : Dealer).moveAction := rfl
  have e2 := withHist_dealStreets (h := h) (d.cfg.numStreets + 1) ({ d with action := some d.button } : Dealer).moveAction
  rw [← e] at e2
  exact withHist_street _ _ e2

theorem withHist_act (d : Dealer) (fold : Bool) (c b : Int) : ∃ h', (withHist h d).act fold c b = withHist h' (d.act fold c b) := by
  rw [act_eq, act_eq]
  exact ⟨_, rfl⟩

theorem withHist_afterBet (d : Dealer) (fold : Bool) (c b : Int) : ∃ h', (withHist h d).afterBet fold c b = withHist h' (d.afterBet fold c b) := by
  obtain ⟨h', e⟩ := withHist_act (h := h) d fold c b
  refine ⟨h', ?_⟩
  unfold Dealer.afterBet
  rw [e, withHist_nextStreet, apply_ite (withHist h')]
  rfl

theorem withHist_finish (d : Dealer) : (withHist h d).finish = (withHist h d.finish.1, d.finish.2) := by
  unfold Dealer.finish
  have e1 : (withHist h d).payouts = d.payouts := rfl
  have e2 : (withHist h d).done = d.done := rfl
  rw [e1, e2]
  simp only []
  cases d.payouts with
  | error e => rfl
  | ok p =>
    simp only []
    cases d.done.all id <;> rfl

theorem withHist_step (d : Dealer) (bet : PyNum) : ∃ h', (withHist h d).step bet = (withHist h' (d.step bet).1, (d.step bet).2) := by
  cases ha : d.action with
  | none =>
    have ha' : (withHist h d).action = none := ha
    refine ⟨h, ?_⟩
    unfold Dealer.step
    rw [ha, ha']
    simp only []
    have e : (withHist h d).active = d.active := rfl
    rw [e]
    split <;> rfl
  | some a =>
    have ha' : (withHist h d).action = some a := ha
    have hb : (withHist h d).betSizes = d.betSizes := rfl
    rcases step_some ha bet with ⟨e, hr, he⟩ | ⟨b, e, hr, hr2, he⟩ | ⟨b, c, lo, hi, hr, hs, he⟩ <;>
    rcases step_some ha' bet with ⟨e', gr, ge⟩ | ⟨b', e', gr, gr2, ge⟩ | ⟨b', c', lo', hi', gr, gs, ge⟩
    · rw [hr] at gr; cases gr
      rw [he, ge]; exact ⟨h, rfl⟩
    · rw [hr] at gr; cases gr
    · rw [hr] at gr; cases gr
    · rw [hr] at gr; cases gr
    · rw [hb, hr2] at gr2; cases gr2
      rw [he, ge]; exact ⟨h, rfl⟩
    · rw [hb, hr2] at gs; cases gs
    · rw [hr] at gr; cases gr
    · rw [hb, hs] at gr2; cases gr2
    · rw [hr] at gr; cases gr
      rw [hb, hs] at gs; cases gs
      obtain ⟨h', e⟩ := withHist_afterBet (h := h) d bet.isNeg c (cleanBet b c lo hi)
      rw [he, ge, e, withHist_finish]
      exact ⟨h', rfl⟩

theorem step_sameHistory {d e : Dealer} (hd : SameButHistory d e) (bet : PyNum) :
    SameButHistory (d.step bet).1 (e.step bet).1 ∧ (d.step bet).2 = (e.step bet).2 := by
  obtain ⟨h, rfl⟩ := sameButHistory_iff.1 hd
  obtain ⟨h', e⟩ := withHist_step (h := h) d bet
  rw [e]
  exact ⟨rfl, rfl⟩

theorem bets_sameHistory (bets : List PyNum) {d e : Dealer} (hd : SameButHistory d e) :
    SameButHistory (Spec.afterBets d bets) (Spec.afterBets e bets) := by
  induction bets generalizing d e with
  | nil => exact hd
  | cons b bets ih => exact ih (step_sameHistory hd b).1

/-- the answer of a player who has nothing to call and puts in nothing -/
theorem afterBet_flag (d : Dealer) (fold fold' : Bool) :
    ∃ h, d.afterBet fold' 0 0 = withHist h (d.afterBet fold 0 0) ∧
      h.map (fun m => (m.1, m.2.1)) = movesOf (d.afterBet fold 0 0) := by
  have e : ∀ f, d.act f 0 0 = withHist (d.history ++ [(d.seat, 0, f)]) (d.act fold 0 0) := by
    intro f
    rw [act_eq, act_eq]
    unfold Dealer.acted
    simp only [ne_eq, not_true_eq_false, false_and, if_false]
    rfl
  have e' : ∀ f, d.afterBet f 0 0 = withHist (d.history ++ [(d.seat, 0, f)]) (d.afterBet fold 0 0) := by
    intro f
    unfold Dealer.afterBet
    rw [apply_ite (withHist _), ← withHist_nextStreet, ← e]
    refine if_congr ?_ rfl rfl
    rw [e]; rfl
  refine ⟨_, e' fold', ?_⟩
  rw [e' fold]
  simp [movesOf, withHist]

end Clubs

namespace Clubs.Numpy

open Spec

variable {h : List (Nat × Int × Bool)}

theorem withHist_nextStreet (d : Dealer) : nextStreet (withHist h d) = withHist h (nextStreet d) := by
  have e : moveAction { withHist h d with action := some (withHist h d).button } =
      withHist h (moveAction { d with action := some d.button }) := rfl
  have e2 := Clubs.withHist_dealStreets (h := h) (d.cfg.numStreets + 1) (moveAction { d with action := some d.button })
  rw [← e, ← dealStreets_shared, ← dealStreets_shared] at e2
  exact withHist_street _ _ e2

theorem withHist_afterBet (d : Dealer) (fold : Bool) (c b : Int) : ∃ h', afterBet (withHist h d) fold c b = withHist h' (afterBet d fold c b) := by
  obtain ⟨h', e⟩ := Clubs.withHist_act (h := h) d fold c b
  refine ⟨h', ?_⟩
  unfold afterBet
  rw [act_shared, act_shared, e, withHist_nextStreet, apply_ite (withHist h')]
  rfl

theorem withHist_finish (d : Dealer) : finish (withHist h d) = (withHist h (finish d).1, (finish d).2) := by
  unfold finish
  have e1 : payouts (withHist h d) = payouts d := rfl
  have e2 : done (withHist h d) = done d := rfl
  rw [e1, e2]
  simp only []
  cases payouts d with
  | error e => rfl
  | ok p =>
    simp only []
    cases (done d).all id <;> rfl

theorem withHist_step (d : Dealer) (bet : PyNum) : ∃ h', step (withHist h d) bet = (withHist h' (step d bet).1, (step d bet).2) := by
  cases ha : d.action with
  | none =>
    have ha' : (withHist h d).action = none := ha
    refine ⟨h, ?_⟩
    unfold step
    rw [ha, ha']
    simp only []
    have e : (withHist h d).active = d.active := rfl
    rw [e]
    split <;> rfl
  | some a =>
    have ha' : (withHist h d).action = some a := ha
    have hb : (withHist h d).betSizes = d.betSizes := rfl
    rcases step_some ha bet with ⟨e, hr, he⟩ | ⟨b, e, hr, hr2, he⟩ | ⟨b, c, lo, hi, hr, hs, he⟩ <;>
    rcases step_some ha' bet with ⟨e', gr, ge⟩ | ⟨b', e', gr, gr2, ge⟩ | ⟨b', c', lo', hi', gr, gs, ge⟩
    · rw [hr] at gr; cases gr
      rw [he, ge]; exact ⟨h, rfl⟩
    · rw [hr] at gr; cases gr
    · rw [hr] at gr; cases gr
    · rw [hr] at gr; cases gr
    · rw [hb, hr2] at gr2; cases gr2
      rw [he, ge]; exact ⟨h, rfl⟩
    · rw [hb, hr2] at gs; cases gs
    · rw [hr] at gr; cases gr
    · rw [hb, hs] at gr2; cases gr2
    · rw [hr] at gr; cases gr
      rw [hb, hs] at gs; cases gs
      obtain ⟨h', e⟩ := withHist_afterBet (h := h) d bet.isNeg c (cleanBet b c lo hi)
      rw [he, ge, e, withHist_finish]
      exact ⟨h', rfl⟩

theorem step_sameHistory {d e : Dealer} (hd : SameButHistory d e) (bet : PyNum) :
    SameButHistory (step d bet).1 (step e bet).1 ∧ (step d bet).2 = (step e bet).2 := by
  obtain ⟨h, rfl⟩ := sameButHistory_iff.1 hd
  obtain ⟨h', e⟩ := withHist_step (h := h) d bet
  rw [e]
  exact ⟨rfl, rfl⟩

theorem afterBet_flag (d : Dealer) (fold fold' : Bool) :
    ∃ h, afterBet d fold' 0 0 = withHist h (afterBet d fold 0 0) ∧
      h.map (fun m => (m.1, m.2.1)) = movesOf (afterBet d fold 0 0) := by
  have e : ∀ f, d.act f 0 0 = withHist (d.history ++ [(d.seat, 0, f)]) (d.act fold 0 0) := by
    intro f
    rw [act_eq, act_eq]
    unfold Dealer.acted
    simp only [ne_eq, not_true_eq_false, false_and, if_false]
    rfl
  have e' : ∀ f, afterBet d f 0 0 = withHist (d.history ++ [(d.seat, 0, f)]) (afterBet d fold 0 0) := by
    intro f
    unfold afterBet
    rw [act_shared, act_shared, apply_ite (withHist _), ← withHist_nextStreet, ← e]
    refine if_congr ?_ rfl rfl
    rw [e]; rfl
  refine ⟨_, e' fold', ?_⟩
  rw [e' fold]
  simp [movesOf, withHist]

end Clubs.Numpy
