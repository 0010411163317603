import Verif.Props.Suits
import Verif.Props.NumpyReplay
import Verif.Props.NumpyCards

/-!
# The array engine favours no suit: C84
-/

namespace Clubs.Numpy

open Spec

variable {σ : Nat → Nat} {f : Card → Card} {d d' : Dealer} {obs : Observation}

theorem nextStreet_renamed (d : Dealer) : nextStreet (renameTable f d) = renameTable f (nextStreet d) := by
  have e : moveAction { renameTable f d with action := some (renameTable f d).button } =
      renameTable f (moveAction { d with action := some d.button }) := rfl
  have e2 := Clubs.dealStreets_renamed (f := f) (d.cfg.numStreets + 1) (moveAction { d with action := some d.button })
  rw [← e, ← dealStreets_shared, ← dealStreets_shared] at e2
  have e3 : ∀ x y : Dealer, x = renameTable f y → ({ x with
      streetCommits := List.replicate x.cfg.numPlayers 0
      streetOption := x.active.map fun a => !a
      streetRaises := 0 } : Dealer) = renameTable f { y with
        streetCommits := List.replicate y.cfg.numPlayers 0
        streetOption := y.active.map fun a => !a
        streetRaises := 0 } := by
    rintro x y rfl; rfl
  exact e3 _ _ e2

theorem afterBet_renamed (d : Dealer) (fold : Bool) (c b : Int) :
    afterBet (renameTable f d) fold c b = renameTable f (afterBet d fold c b) := by
  unfold afterBet
  rw [act_shared, act_shared, act_renamed, nextStreet_renamed]
  show (if allAgreed (d.act fold c b) = true then _ else _) = _
  split <;> rfl

theorem payouts_renamed (hσ : SuitNames σ) (hf : Renames σ f) (hr : AllReal d) : payouts (renameTable f d) = payouts d := by
  have e : evalRound (renameTable f d) = evalRound d := by
    unfold evalRound evalHands
    rw [evalHands_renamed' hσ hf hr]
    rfl
  unfold payouts
  rw [e]
  rfl

theorem finish_renamed (hσ : SuitNames σ) (hf : Renames σ f) (hr : AllReal d) :
    finish (renameTable f d) = (renameTable f (finish d).1, renameResult f (finish d).2) := by
  have hp := payouts_renamed hσ hf hr
  have hd : done (renameTable f d) = done d := rfl
  rcases finish_cases d with ⟨e, h1, h2⟩ | ⟨p, h1, h2, h3, h4⟩ | ⟨p, h1, h2, h3, h4⟩
  · rcases finish_cases (renameTable f d) with ⟨e', g1, g2⟩ | ⟨p', g1, -⟩ | ⟨p', g1, -⟩
    · rw [hp, h1] at g1
      simp only [Except.error.injEq] at g1
      subst g1
      rw [g2, h2]; rfl
    · rw [hp, h1] at g1; simp at g1
    · rw [hp, h1] at g1; simp at g1
  · rcases finish_cases (renameTable f d) with ⟨e', g1, g2⟩ | ⟨p', g1, g2, g3, g4⟩ | ⟨p', g1, g2, -⟩
    · rw [hp, h1] at g1; simp at g1
    · rw [hp, h1] at g1
      simp only [Except.ok.injEq] at g1
      subst g1
      refine Prod.ext ?_ ?_
      · rw [g3, h3]; rfl
      · rw [g4, h4, settle_renamed, show observation (renameTable f (d.settle p)) true = _ from observation_renamed _ _, hd]
        show _ = renameResult f (Except.map _ ((d.settle p).observation true))
        cases (d.settle p).observation true <;> rfl
    · rw [hd, h2] at g2; simp at g2
  · rcases finish_cases (renameTable f d) with ⟨e', g1, g2⟩ | ⟨p', g1, g2, g3, g4⟩ | ⟨p', g1, g2, g3, g4⟩
    · rw [hp, h1] at g1; simp at g1
    · rw [hd, h2] at g2; simp at g2
    · rw [hp, h1] at g1
      simp only [Except.ok.injEq] at g1
      subst g1
      refine Prod.ext ?_ ?_
      · rw [g3, h3]
      · rw [g4, h4, show observation (renameTable f d) false = _ from observation_renamed _ _, hd]
        show _ = renameResult f (Except.map _ (d.observation false))
        cases d.observation false <;> rfl

theorem renamed_none (ha : d.action = none) (hσ : SuitNames σ) (hf : Renames σ f) (hr : AllReal d) (bet : PyNum) :
    step (renameTable f d) bet = (renameTable f (step d bet).1, renameResult f (step d bet).2) := by
  have ha' : (renameTable f d).action = none := ha
  have hp := payouts_renamed hσ hf hr
  have hd : done (renameTable f d) = done d := rfl
  unfold step
  rw [ha, ha']
  simp only []
  show (if d.active.any id = true then _ else _) = _
  by_cases hx : d.active.any id = true
  · simp only [if_pos hx]
    unfold observation
    rw [hp, observation_renamed, hd]
    cases payouts d with
    | error e => rfl
    | ok p => cases d.observation ((done d).all id) <;> rfl
  · simp only [if_neg hx]
    rfl

/-- **C84** for the array engine: if the suits of all cards are exchanged, a bet does exactly the same. -/
theorem C84_step (h : ArrayReachable d) (hσ : SuitNames σ) (hf : Renames σ f) (bet : PyNum) :
    step (renameTable f d) bet = (renameTable f (step d bet).1, renameResult f (step d bet).2) := by
  have hdl := array_dealt' h
  cases ha : d.action with
  | none => exact renamed_none ha hσ hf (dealt_real hdl) bet
  | some a =>
    have ha' : (renameTable f d).action = some a := ha
    have hb : (renameTable f d).betSizes = d.betSizes := rfl
    rcases step_some ha bet with ⟨e, hr, he⟩ | ⟨b, e, hr, hs, he⟩ | ⟨b, c, lo, hi, hr, hs, he⟩
    · rcases step_some ha' bet with ⟨e', hr', he'⟩ | ⟨b', e', hr', -, -⟩ | ⟨b', c', lo', hi', hr', -, -⟩
      · rw [hr] at hr'
        simp only [Except.error.injEq] at hr'
        subst hr'
        rw [he, he']; rfl
      · rw [hr] at hr'; simp at hr'
      · rw [hr] at hr'; simp at hr'
    · rcases step_some ha' bet with ⟨e', hr', he'⟩ | ⟨b', e', hr', hs', he'⟩ | ⟨b', c', lo', hi', hr', hs', -⟩
      · rw [hr] at hr'; simp at hr'
      · rw [hb, hs] at hs'
        simp only [Except.error.injEq] at hs'
        subst hs'
        rw [he, he']; rfl
      · rw [hb, hs] at hs'; simp at hs'
    · rcases step_some ha' bet with ⟨e', hr', he'⟩ | ⟨b', e', hr', hs', he'⟩ | ⟨b', c', lo', hi', hr', hs', he'⟩
      · rw [hr] at hr'; simp at hr'
      · rw [hb, hs] at hs'; simp at hs'
      · rw [hb, hs] at hs'
        rw [hr] at hr'
        simp only [Except.ok.injEq, Prod.mk.injEq] at hs' hr'
        obtain ⟨rfl, rfl, rfl⟩ := hs'
        subst hr'
        rw [he, he', afterBet_renamed]
        have hseat := array_seated h
        have htwo : 2 ≤ d.cfg.numPlayers := hseat.two
        have hx := afterBet_dealt hseat (array_dealt h) (show d.action ≠ none by simp [ha]) bet.isNeg c (cleanBet b c lo hi)
        rw [← afterBet_atSeat (by omega)] at hx
        exact finish_renamed hσ hf (dealt_real (d := atSeat _) hx)

/-- **C84** for the array engine, for any number of bets -/
theorem C84_bets (h : ArrayReachable d) (hσ : SuitNames σ) (hf : Renames σ f) (bets : List PyNum) :
    arrayAfter (renameTable f d) bets = renameTable f (arrayAfter d bets) := by
  induction bets generalizing d with
  | nil => rfl
  | cons b bets ih =>
    show arrayAfter (step (renameTable f d) b).1 bets = renameTable f (arrayAfter (step d b).1 bets)
    rw [C84_step h hσ hf b]
    exact ih (.step b h)

/-- **C84** for the array engine: the deal does not favour a suit. -/
theorem C84_deal (h : ArrayReachable d) (ht : d.deck.tricked = false) (hσ : SuitNames σ) (hf : Renames σ f)
    (hg : ∀ u : Nat, u < d.cfg.numSuits → (σ u : Int) < d.cfg.numSuits) {rb rs : Bool} {shuf : Shuffle} (hs : IsShuffle shuf)
    (hr : reset d rb rs shuf = (d', .ok obs)) :
    ∃ shuf', IsShuffle shuf' ∧ shuf' d.deck.fullDeck = (shuf d.deck.fullDeck).map f ∧
      reset d rb rs shuf' = (renameTable f d', .ok (renameView f obs)) := by
  classical
  refine ⟨fun l => if l = d.deck.fullDeck then (shuf d.deck.fullDeck).map f else l, ?_, if_pos rfl, ?_⟩
  · intro l
    by_cases hl : l = d.deck.fullDeck
    · simp only [if_pos hl]
      rw [hl]
      exact ((hs _).map f).trans (renamed_deck (array_dealt' h) hσ hf hg)
    · simp only [if_neg hl]
      exact .refl _
  · generalize hsh : (fun l => if l = d.deck.fullDeck then (shuf d.deck.fullDeck).map f else l) = shuf'
    have he : shuf' d.deck.fullDeck = (shuf d.deck.fullDeck).map f := by rw [← hsh]; exact if_pos rfl
    have hfr : fresh d rb rs shuf' = renameTable f (fresh d rb rs shuf) := by
      unfold fresh
      rw [fresh_renamed (f := f) rb rs ht he]
      rfl
    have hp : (posted d rb rs shuf').moveAction.moveAction = renameTable f (posted d rb rs shuf).moveAction.moveAction := by
      unfold posted blindStart
      rw [hfr]
      split <;> rfl
    rcases reset_eq d rb rs shuf with ⟨-, -, k⟩ | ⟨h1, ⟨-, k⟩ | ⟨h2, k⟩⟩
    · rw [k] at hr; simp at hr
    · rw [k] at hr; simp at hr
    rcases reset_eq d rb rs shuf' with ⟨g1, g2, -⟩ | ⟨-, ⟨g1, -⟩ | ⟨-, g2⟩⟩
    · exfalso
      rcases h1 with h1 | h1
      · rw [h1] at g1; simp at g1
      · omega
    · omega
    · rw [k] at hr
      simp only [Prod.mk.injEq] at hr
      obtain ⟨rfl, h4⟩ := hr
      rw [g2, hp, show observation (renameTable f _) false = _ from observation_renamed _ _]
      unfold observation at h4
      rw [h4]
      rfl

/-- a hand that went to a showdown, in a game of two suits -/
example : ∃ S d, ArrayInHand S d ∧ ArrayReachable d ∧ d.deck.tricked = false ∧
    (∀ u : Nat, u < 4 → (u : Int) < d.cfg.numSuits → (swapTwo u : Int) < d.cfg.numSuits) ∧
    d.action = none ∧ (renameTable (renameCard swapTwo) d).holeCards ≠ d.holeCards ∧ d.communityCards.length = 1 :=
  hand_exists { small 2 [1, 2] 20 with numSuits := 2, numCommunityCards := .list [0, 1] } [.bet 1, .bet 0, .bet 5, .bet 5] (by decide +kernel)

end Clubs.Numpy
