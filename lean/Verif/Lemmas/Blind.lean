import Verif.Spec.Better
import Verif.Lemmas.Suits
import Verif.Props.NumpySuits

/-! # The cards do not influence the betting -/

namespace Clubs

open Spec

/-- the table with other cards -/
def withCards (C : List Card) (D : Deck) (H : List (List Card)) (d : Dealer) : Dealer :=
  { d with communityCards := C, deck := D, holeCards := H }

theorem sameButCards_iff {d e : Dealer} : SameButCards d e ↔ ∃ C D H, e = withCards C D H d :=
  ⟨fun h => ⟨_, _, _, h⟩, fun ⟨C, D, H, h⟩ => by subst h; rfl⟩

variable {C : List Card} {D : Deck} {H : List (List Card)}

theorem dealStreets_otherCards (fuel : Nat) (d : Dealer) (C : List Card) (D : Deck) :
    ∃ C' D', dealStreets fuel (withCards C D H d) = withCards C' D' H (dealStreets fuel d) := by
  induction fuel generalizing d C D with
  | zero => exact ⟨C, D, rfl⟩
  | succ fuel ih =>
    rw [dealStreets, dealStreets]
    simp only []
    by_cases h1 : d.street + 1 ≥ d.cfg.numStreets
    · rw [if_pos h1, if_pos (show (withCards C D H d).street + 1 ≥ (withCards C D H d).cfg.numStreets from h1)]
      exact ⟨C, D, rfl⟩
    · rw [if_neg h1, if_neg (show ¬ (withCards C D H d).street + 1 ≥ (withCards C D H d).cfg.numStreets from h1)]
      generalize hX : ({ d with street := d.street + 1
                                communityCards := d.communityCards ++ (d.deck.draw (d.cfg.numCommunityCards.getD (d.street + 1) 0)).1
                                deck := (d.deck.draw (d.cfg.numCommunityCards.getD (d.street + 1) 0)).2 } : Dealer) = x
      have hX' : withCards (C ++ (D.draw (d.cfg.numCommunityCards.getD (d.street + 1) 0)).1)
          (D.draw (d.cfg.numCommunityCards.getD (d.street + 1) 0)).2 H x = { withCards C D H d with
          street := (withCards C D H d).street + 1
          communityCards := (withCards C D H d).communityCards ++
            ((withCards C D H d).deck.draw ((withCards C D H d).cfg.numCommunityCards.getD ((withCards C D H d).street + 1) 0)).1
          deck := ((withCards C D H d).deck.draw
            ((withCards C D H d).cfg.numCommunityCards.getD ((withCards C D H d).street + 1) 0)).2 } := by
        rw [← hX]
        rfl
      rw [← hX']
      obtain ⟨C', D', h2⟩ := ih x (C ++ (D.draw (d.cfg.numCommunityCards.getD (d.street + 1) 0)).1)
        (D.draw (d.cfg.numCommunityCards.getD (d.street + 1) 0)).2
      rw [h2]
      show ∃ _ _, (if (!x.allAllIn) = true then _ else _) = _
      split
      · exact ⟨_, _, rfl⟩
      · exact ⟨_, _, rfl⟩

theorem act_otherCards (d : Dealer) (fold : Bool) (c b : Int) : (withCards C D H d).act fold c b = withCards C D H (d.act fold c b) := by
  rw [act_eq, act_eq]; rfl

theorem clean_street (x y : Dealer) (h : x = withCards C D H y) : ({ x with
    streetCommits := List.replicate x.cfg.numPlayers 0
    streetOption := x.active.map fun a => !a
    streetRaises := 0 } : Dealer) = withCards C D H { y with
      streetCommits := List.replicate y.cfg.numPlayers 0
      streetOption := y.active.map fun a => !a
      streetRaises := 0 } := by
  subst h; rfl

theorem nextStreet_otherCards (d : Dealer) : ∃ C' D', (withCards C D H d).nextStreet = withCards C' D' H d.nextStreet := by
  have e : ({ withCards C D H d with action := some (withCards C D H d).button } : Dealer).moveAction =
      withCards C D H ({ d with action := some d.button } : Dealer).moveAction := rfl
  obtain ⟨C', D', e2⟩ := dealStreets_otherCards (H := H) (d.cfg.numStreets + 1) ({ d with action := some d.button } : Dealer).moveAction C D
  rw [← e] at e2
  exact ⟨C', D', clean_street _ _ e2⟩

theorem afterBet_otherCards (d : Dealer) (fold : Bool) (c b : Int) :
    ∃ C' D', (withCards C D H d).afterBet fold c b = withCards C' D' H (d.afterBet fold c b) := by
  unfold Dealer.afterBet
  rw [act_otherCards]
  obtain ⟨C', D', h⟩ := nextStreet_otherCards (C := C) (D := D) (H := H) (d.act fold c b)
  rw [h]
  show ∃ _ _, (if (d.act fold c b).allAgreed = true then _ else _) = _
  split
  · exact ⟨_, _, rfl⟩
  · exact ⟨_, _, rfl⟩

theorem fresh_otherCards (d : Dealer) (rb rs : Bool) (sh sh' : Shuffle) :
    ∃ C' D' H', d.fresh rb rs sh' = withCards C' D' H' (d.fresh rb rs sh) := ⟨_, _, _, rfl⟩

theorem reset_otherCards {d d1 d2 : Dealer} {rb rs : Bool} {sh sh' : Shuffle} {o o' : Observation} (h1 : d.reset rb rs sh = (d1, .ok o))
    (h2 : d.reset rb rs sh' = (d2, .ok o')) : SameButCards d1 d2 := by
  obtain ⟨-, -, rfl, -⟩ := reset_ok h1
  obtain ⟨-, -, rfl, -⟩ := reset_ok h2
  obtain ⟨C', D', H', e⟩ := fresh_otherCards d rb rs sh sh'
  rw [sameButCards_iff]
  refine ⟨C', D', H', ?_⟩
  unfold Dealer.posted Dealer.blindStart
  rw [e]
  split <;> rfl

/-- the fields of a table that the end of a hand leaves alone -/
structure SameHand (d e : Dealer) : Prop where
  cfg : e.cfg = d.cfg
  active : e.active = d.active
  potCommits : e.potCommits = d.potCommits
  button : e.button = d.button
  street : e.street = d.street

theorem finish_hand (x : Dealer) : SameHand x x.finish.1 := by
  rcases finish_cases x with ⟨e, -, h⟩ | ⟨p, -, -, h, -⟩ | ⟨p, -, -, h, -⟩
  · rw [h]; exact ⟨rfl, rfl, rfl, rfl, rfl⟩
  · rw [h]; exact ⟨rfl, rfl, rfl, rfl, rfl⟩
  · rw [h]; exact ⟨rfl, rfl, rfl, rfl, rfl⟩

theorem payouts_otherCards {x : Dealer} (h : x.street < x.cfg.numStreets) : (withCards C D H x).payouts = x.payouts := by
  have h' : ¬ x.street ≥ x.cfg.numStreets := by omega
  unfold Dealer.payouts
  show (if countTrue x.active = 1 then _ else if x.street ≥ x.cfg.numStreets then _ else _) = _
  simp only [if_neg h']
  rfl

theorem step_hand {d e : Dealer} (h : SameButCards d e) (hrun : d.action ≠ none) (bet : PyNum) :
    SameHand (d.step bet).1 (e.step bet).1 := by
  obtain ⟨C, D, H, rfl⟩ := sameButCards_iff.1 h
  cases ha : d.action with
  | none => exact absurd ha hrun
  | some a =>
    have ha' : (withCards C D H d).action = some a := ha
    have hb : (withCards C D H d).betSizes = d.betSizes := rfl
    rcases step_some ha bet with ⟨e, hr, he⟩ | ⟨b, e, hr, hr2, he⟩ | ⟨b, c, lo, hi, hr, hs, he⟩ <;>
    rcases step_some ha' bet with ⟨e', gr, ge⟩ | ⟨b', e', gr, gr2, ge⟩ | ⟨b', c', lo', hi', gr, gs, ge⟩
    · rw [he, ge]; exact ⟨rfl, rfl, rfl, rfl, rfl⟩
    · rw [he, ge]; exact ⟨rfl, rfl, rfl, rfl, rfl⟩
    · rw [hr] at gr; cases gr
    · rw [he, ge]; exact ⟨rfl, rfl, rfl, rfl, rfl⟩
    · rw [he, ge]; exact ⟨rfl, rfl, rfl, rfl, rfl⟩
    · rw [hb, hr2] at gs; cases gs
    · rw [hr] at gr; cases gr
    · rw [hb, hs] at gr2; cases gr2
    · rw [hr] at gr; cases gr
      rw [hb, hs] at gs; cases gs
      rw [he, ge]
      obtain ⟨C', D', e⟩ := afterBet_otherCards (C := C) (D := D) (H := H) d bet.isNeg c (cleanBet b c lo hi)
      rw [e]
      have h1 := finish_hand (d.afterBet bet.isNeg c (cleanBet b c lo hi))
      have h2 := finish_hand (withCards C' D' H (d.afterBet bet.isNeg c (cleanBet b c lo hi)))
      exact ⟨h2.cfg.trans h1.cfg.symm, h2.active.trans h1.active.symm, h2.potCommits.trans h1.potCommits.symm,
        h2.button.trans h1.button.symm, h2.street.trans h1.street.symm⟩

theorem step_blind {d e : Dealer} (h : SameButCards d e) (hrun : Running d) (bet : PyNum) (hon : Running (d.step bet).1) :
    SameButCards (d.step bet).1 (e.step bet).1 := by
  obtain ⟨C, D, H, rfl⟩ := sameButCards_iff.1 h
  obtain ⟨⟨a, ha⟩, hst⟩ := hrun
  have ha' : (withCards C D H d).action = some a := ha
  have hb : (withCards C D H d).betSizes = d.betSizes := rfl
  rcases step_some ha bet with ⟨e, hr, he⟩ | ⟨b, e, hr, hr2, he⟩ | ⟨b, c, lo, hi, hr, hs, he⟩ <;>
  rcases step_some ha' bet with ⟨e', gr, ge⟩ | ⟨b', e', gr, gr2, ge⟩ | ⟨b', c', lo', hi', gr, gs, ge⟩
  · rw [he, ge]; exact h
  · rw [he, ge]; exact h
  · rw [hr] at gr; cases gr
  · rw [he, ge]; exact h
  · rw [he, ge]; exact h
  · rw [hb, hr2] at gs; cases gs
  · rw [hr] at gr; cases gr
  · rw [hb, hs] at gr2; cases gr2
  · rw [hr] at gr; cases gr
    rw [hb, hs] at gs; cases gs
    rw [he] at hon
    rw [he, ge]
    obtain ⟨C', D', e⟩ := afterBet_otherCards (C := C) (D := D) (H := H) d bet.isNeg c (cleanBet b c lo hi)
    rw [e]
    generalize d.afterBet bet.isNeg c (cleanBet b c lo hi) = x at hon
    have hd : (withCards C' D' H x).done = x.done := rfl
    have hst : x.street < x.cfg.numStreets := by
      have h1 := (finish_hand x).street
      have h2 := (finish_hand x).cfg
      have := hon.2
      rwa [h1, h2] at this
    have hp : (withCards C' D' H x).payouts = x.payouts := payouts_otherCards hst
    rcases finish_cases x with ⟨e, h1, h2⟩ | ⟨p, h1, h2, h3, -⟩ | ⟨p, h1, h2, h3, -⟩
    · rcases finish_cases (withCards C' D' H x) with ⟨e', g1, g2⟩ | ⟨p', g1, -⟩ | ⟨p', g1, -⟩
      · rw [h2, g2]; exact sameButCards_iff.2 ⟨_, _, _, rfl⟩
      · rw [hp, h1] at g1; cases g1
      · rw [hp, h1] at g1; cases g1
    · rw [h3] at hon
      obtain ⟨⟨k, hk⟩, -⟩ := hon
      cases hk
    · rcases finish_cases (withCards C' D' H x) with ⟨e', g1, g2⟩ | ⟨p', g1, g2, -⟩ | ⟨p', g1, g2, g3, -⟩
      · rw [hp, h1] at g1; cases g1
      · rw [hd, h2] at g2; cases g2
      · rw [h3, g3]; exact sameButCards_iff.2 ⟨_, _, _, rfl⟩

end Clubs

namespace Clubs.Numpy

open Spec

variable {C : List Card} {D : Deck} {H : List (List Card)}

theorem nextStreet_otherCards (d : Dealer) : ∃ C' D', nextStreet (withCards C D H d) = withCards C' D' H (nextStreet d) := by
  have e : moveAction { withCards C D H d with action := some (withCards C D H d).button } =
      withCards C D H (moveAction { d with action := some d.button }) := rfl
  obtain ⟨C', D', e2⟩ := dealStreets_otherCards (H := H) (d.cfg.numStreets + 1) (moveAction { d with action := some d.button }) C D
  rw [← e, ← dealStreets_shared, ← dealStreets_shared] at e2
  exact ⟨C', D', clean_street _ _ e2⟩

theorem afterBet_otherCards (d : Dealer) (fold : Bool) (c b : Int) :
    ∃ C' D', afterBet (withCards C D H d) fold c b = withCards C' D' H (afterBet d fold c b) := by
  unfold afterBet
  rw [act_shared, act_shared, act_otherCards]
  obtain ⟨C', D', h⟩ := nextStreet_otherCards (C := C) (D := D) (H := H) (d.act fold c b)
  rw [h]
  show ∃ _ _, (if allAgreed (d.act fold c b) = true then _ else _) = _
  split
  · exact ⟨_, _, rfl⟩
  · exact ⟨_, _, rfl⟩

theorem reset_otherCards {d d1 d2 : Dealer} {rb rs : Bool} {sh sh' : Shuffle} {o o' : Observation} (h1 : reset d rb rs sh = (d1, .ok o))
    (h2 : reset d rb rs sh' = (d2, .ok o')) : SameButCards d1 d2 := by
  rcases reset_eq d rb rs sh with ⟨-, -, k⟩ | ⟨-, ⟨-, k⟩ | ⟨-, k⟩⟩
  · rw [k] at h1; simp at h1
  · rw [k] at h1; simp at h1
  rcases reset_eq d rb rs sh' with ⟨-, -, l⟩ | ⟨-, ⟨-, l⟩ | ⟨-, l⟩⟩
  · rw [l] at h2; simp at h2
  · rw [l] at h2; simp at h2
  rw [k] at h1
  rw [l] at h2
  simp only [Prod.mk.injEq] at h1 h2
  obtain ⟨rfl, -⟩ := h1
  obtain ⟨rfl, -⟩ := h2
  have e : ∃ C' D' H', fresh d rb rs sh' = withCards C' D' H' (fresh d rb rs sh) := ⟨_, _, _, rfl⟩
  obtain ⟨C', D', H', e⟩ := e
  rw [sameButCards_iff]
  refine ⟨C', D', H', ?_⟩
  unfold posted blindStart
  rw [e]
  split <;> rfl

theorem finish_hand (x : Dealer) : SameHand x (finish x).1 := by
  rcases finish_cases x with ⟨e, -, h⟩ | ⟨p, -, -, h, -⟩ | ⟨p, -, -, h, -⟩
  · rw [h]; exact ⟨rfl, rfl, rfl, rfl, rfl⟩
  · rw [h]; exact ⟨rfl, rfl, rfl, rfl, rfl⟩
  · rw [h]; exact ⟨rfl, rfl, rfl, rfl, rfl⟩

theorem payouts_otherCards {x : Dealer} (h : x.street < x.cfg.numStreets) : payouts (withCards C D H x) = payouts x := by
  have h' : ¬ x.street ≥ x.cfg.numStreets := by omega
  unfold payouts
  show (if countTrue x.active = 1 then _ else if x.street ≥ x.cfg.numStreets then _ else _) = _
  simp only [if_neg h']
  rfl

theorem step_hand {d e : Dealer} (h : SameButCards d e) (hrun : d.action ≠ none) (bet : PyNum) :
    SameHand (step d bet).1 (step e bet).1 := by
  obtain ⟨C, D, H, rfl⟩ := sameButCards_iff.1 h
  cases ha : d.action with
  | none => exact absurd ha hrun
  | some a =>
    have ha' : (withCards C D H d).action = some a := ha
    have hb : (withCards C D H d).betSizes = d.betSizes := rfl
    rcases step_some ha bet with ⟨e, hr, he⟩ | ⟨b, e, hr, hr2, he⟩ | ⟨b, c, lo, hi, hr, hs, he⟩ <;>
    rcases step_some ha' bet with ⟨e', gr, ge⟩ | ⟨b', e', gr, gr2, ge⟩ | ⟨b', c', lo', hi', gr, gs, ge⟩
    · rw [he, ge]; exact ⟨rfl, rfl, rfl, rfl, rfl⟩
    · rw [he, ge]; exact ⟨rfl, rfl, rfl, rfl, rfl⟩
    · rw [hr] at gr; cases gr
    · rw [he, ge]; exact ⟨rfl, rfl, rfl, rfl, rfl⟩
    · rw [he, ge]; exact ⟨rfl, rfl, rfl, rfl, rfl⟩
    · rw [hb, hr2] at gs; cases gs
    · rw [hr] at gr; cases gr
    · rw [hb, hs] at gr2; cases gr2
    · rw [hr] at gr; cases gr
      rw [hb, hs] at gs; cases gs
      rw [he, ge]
      obtain ⟨C', D', e⟩ := afterBet_otherCards (C := C) (D := D) (H := H) d bet.isNeg c (cleanBet b c lo hi)
      rw [e]
      have h1 := finish_hand (afterBet d bet.isNeg c (cleanBet b c lo hi))
      have h2 := finish_hand (withCards C' D' H (afterBet d bet.isNeg c (cleanBet b c lo hi)))
      exact ⟨h2.cfg.trans h1.cfg.symm, h2.active.trans h1.active.symm, h2.potCommits.trans h1.potCommits.symm,
        h2.button.trans h1.button.symm, h2.street.trans h1.street.symm⟩

theorem step_blind {d e : Dealer} (h : SameButCards d e) (hrun : Running d) (bet : PyNum) (hon : Running (step d bet).1) :
    SameButCards (step d bet).1 (step e bet).1 := by
  obtain ⟨C, D, H, rfl⟩ := sameButCards_iff.1 h
  obtain ⟨⟨a, ha⟩, hst⟩ := hrun
  have ha' : (withCards C D H d).action = some a := ha
  have hb : (withCards C D H d).betSizes = d.betSizes := rfl
  rcases step_some ha bet with ⟨e, hr, he⟩ | ⟨b, e, hr, hr2, he⟩ | ⟨b, c, lo, hi, hr, hs, he⟩ <;>
  rcases step_some ha' bet with ⟨e', gr, ge⟩ | ⟨b', e', gr, gr2, ge⟩ | ⟨b', c', lo', hi', gr, gs, ge⟩
  · rw [he, ge]; exact h
  · rw [he, ge]; exact h
  · rw [hr] at gr; cases gr
  · rw [he, ge]; exact h
  · rw [he, ge]; exact h
  · rw [hb, hr2] at gs; cases gs
  · rw [hr] at gr; cases gr
  · rw [hb, hs] at gr2; cases gr2
  · rw [hr] at gr; cases gr
    rw [hb, hs] at gs; cases gs
    rw [he] at hon
    rw [he, ge]
    obtain ⟨C', D', e⟩ := afterBet_otherCards (C := C) (D := D) (H := H) d bet.isNeg c (cleanBet b c lo hi)
    rw [e]
    generalize afterBet d bet.isNeg c (cleanBet b c lo hi) = x at hon
    have hd : done (withCards C' D' H x) = done x := rfl
    have hst : x.street < x.cfg.numStreets := by
      have h1 := (finish_hand x).street
      have h2 := (finish_hand x).cfg
      have := hon.2
      rwa [h1, h2] at this
    have hp : payouts (withCards C' D' H x) = payouts x := payouts_otherCards hst
    rcases finish_cases x with ⟨e, h1, h2⟩ | ⟨p, h1, h2, h3, -⟩ | ⟨p, h1, h2, h3, -⟩
    · rcases finish_cases (withCards C' D' H x) with ⟨e', g1, g2⟩ | ⟨p', g1, -⟩ | ⟨p', g1, -⟩
      · rw [h2, g2]; exact sameButCards_iff.2 ⟨_, _, _, rfl⟩
      · rw [hp, h1] at g1; cases g1
      · rw [hp, h1] at g1; cases g1
    · rw [h3] at hon
      obtain ⟨⟨k, hk⟩, -⟩ := hon
      cases hk
    · rcases finish_cases (withCards C' D' H x) with ⟨e', g1, g2⟩ | ⟨p', g1, g2, -⟩ | ⟨p', g1, g2, g3, -⟩
      · rw [hp, h1] at g1; cases g1
      · rw [hd, h2] at g2; cases g2
      · rw [h3, g3]; exact sameButCards_iff.2 ⟨_, _, _, rfl⟩

end Clubs.Numpy
