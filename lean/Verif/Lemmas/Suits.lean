import Verif.Lemmas.Dealing
import Verif.Lemmas.NumpyRun
import Verif.Props.Evaluator
import Verif.Spec.Suits

/-!
# Every method commutes with a renaming of the suits
-/

namespace Clubs

open Spec

variable {σ : Nat → Nat} {f : Card → Card} {d : Dealer}

/-- a card of a pack of 52 -/
def Real (c : Card) : Prop := ∃ r u : Nat, r < 13 ∧ u < 4 ∧ Card.new [rankSymbol r, suitLetter u] = .ok c

theorem denotes_of_real {l : List Card} (h : ∀ c ∈ l, Real c) : ∃ ps, AreCards ps ∧ Denotes ps l := by
  induction l with
  | nil => exact ⟨[], by simp [AreCards], .nil⟩
  | cons c l ih =>
    obtain ⟨r, u, hr, hu, hc⟩ := h c (by simp)
    obtain ⟨ps, h1, h2⟩ := ih fun c hc => h c (by simp [hc])
    refine ⟨(r, u) :: ps, ?_, .cons hc h2⟩
    intro p hp
    rcases List.mem_cons.1 hp with rfl | hp
    · exact ⟨hr, hu⟩
    · exact h1 p hp

theorem denotes_renamed (hf : Renames σ f) {l : List Card} {ps : List (Nat × Nat)} (h1 : AreCards ps) (h2 : Denotes ps l) :
    Denotes (ps.map fun p => (p.1, σ p.2)) (l.map f) := by
  unfold Denotes at *
  induction h2 with
  | nil => exact .nil
  | @cons a b l₁ l₂ hc _ ih =>
    have ha := h1 a (by simp)
    exact .cons (hf _ ha.1 _ ha.2 _ hc) (ih fun p hp => h1 p (by simp [hp]))

theorem evaluate_renamed (hσ : SuitNames σ) (hf : Renames σ f) (e : Evaluator) {hole comm : List Card} (h1 : ∀ c ∈ hole, Real c)
    (h2 : ∀ c ∈ comm, Real c) : e.evaluate (hole.map f) (comm.map f) = e.evaluate hole comm := by
  obtain ⟨ps, p1, p2⟩ := denotes_of_real h1
  obtain ⟨qs, q1, q2⟩ := denotes_of_real h2
  exact (C12_evaluate_suits e σ hσ.1 hσ.2 ps qs p1 q1 hole comm _ _ p2 q2 (denotes_renamed hf p1 p2) (denotes_renamed hf q1 q2)).symm

/-! ## the deck -/

theorem draw_renamed (D : Deck) (n : Int) :
    Deck.draw { D with cards := D.cards.map f } n = ((D.draw n).1.map f, { (D.draw n).2 with cards := (D.draw n).2.cards.map f }) := by
  simp only [Deck.draw_eq, List.map_take, List.map_drop]

theorem dealHole_renamed (k : Int) (n : Nat) (D : Deck) :
    dealHole k n { D with cards := D.cards.map f } =
      ((dealHole k n D).1.map (List.map f), { (dealHole k n D).2 with cards := (dealHole k n D).2.cards.map f }) := by
  induction n generalizing D with
  | zero => rfl
  | succ n ih =>
    unfold dealHole
    simp only [draw_renamed]
    rw [ih]
    rfl

theorem dealStreets_renamed (fuel : Nat) (d : Dealer) : dealStreets fuel (renameTable f d) = renameTable f (dealStreets fuel d) := by
  induction fuel generalizing d with
  | zero => rfl
  | succ fuel ih =>
    rw [dealStreets, dealStreets]
    simp only []
    by_cases h1 : d.street + 1 ≥ d.cfg.numStreets
    · rw [if_pos h1, if_pos (show (renameTable f d).street + 1 ≥ (renameTable f d).cfg.numStreets from h1)]; rfl
    · rw [if_neg h1, if_neg (show ¬ (renameTable f d).street + 1 ≥ (renameTable f d).cfg.numStreets from h1)]
      generalize hX : ({ d with street := d.street + 1
                                communityCards := d.communityCards ++ (d.deck.draw (d.cfg.numCommunityCards.getD (d.street + 1) 0)).1
                                deck := (d.deck.draw (d.cfg.numCommunityCards.getD (d.street + 1) 0)).2 } : Dealer) = x
      have hX' : renameTable f x = { renameTable f d with
          street := (renameTable f d).street + 1
          communityCards := (renameTable f d).communityCards ++
            ((renameTable f d).deck.draw ((renameTable f d).cfg.numCommunityCards.getD ((renameTable f d).street + 1) 0)).1
          deck := ((renameTable f d).deck.draw ((renameTable f d).cfg.numCommunityCards.getD ((renameTable f d).street + 1) 0)).2 } := by
        rw [← hX]
        simp only [renameTable, draw_renamed, List.map_append]
      rw [← hX', ih]
      show (if (!x.allAllIn) = true then _ else _) = _
      split <;> rfl

/-! ## the table -/

theorem act_renamed (d : Dealer) (fold : Bool) (c b : Int) : (renameTable f d).act fold c b = renameTable f (d.act fold c b) := by
  rw [act_eq, act_eq]; rfl

theorem nextStreet_renamed (d : Dealer) : (renameTable f d).nextStreet = renameTable f d.nextStreet := by
  have e : ({ renameTable f d with action := some (renameTable f d).button } : Dealer).moveAction =
      renameTable f ({ d with action := some d.button } : Dealer).moveAction := rfl
  have e2 := dealStreets_renamed (f := f) (d.cfg.numStreets + 1) ({ d with action := some d.button } : Dealer).moveAction
  rw [← e] at e2
  have e3 : ∀ x y : Dealer, x = renameTable f y → ({ x with
      streetCommits := List.replicate x.cfg.numPlayers 0
      streetOption := x.active.map fun a => !a
      streetRaises := 0 } : Dealer) = renameTable f { y with
        streetCommits := List.replicate y.cfg.numPlayers 0
        streetOption := y.active.map fun a => !a
        streetRaises := 0 } := by
    rintro x y rfl; rfl
  exact e3 _ _ e2

theorem afterBet_renamed (d : Dealer) (fold : Bool) (c b : Int) :
    (renameTable f d).afterBet fold c b = renameTable f (d.afterBet fold c b) := by
  unfold Dealer.afterBet
  rw [act_renamed, nextStreet_renamed]
  show (if (d.act fold c b).allAgreed = true then _ else _) = _
  split <;> rfl

theorem observation_renamed (d : Dealer) (b : Bool) : (renameTable f d).observation b = (d.observation b).map (renameView f) := by
  have hg : ∀ i : Int, pyGet (renameTable f d).holeCards i = (pyGet d.holeCards i).map (List.map f) := by
    intro i
    show pyGet (d.holeCards.map (List.map f)) i = _
    unfold pyGet
    simp only [List.length_map, List.getElem?_map]
    generalize (if i < 0 then i + (d.holeCards.length : Int) else i) = j
    split
    · rfl
    · cases d.holeCards[j.toNat]? <;> rfl
  unfold Dealer.observation
  have hb : (renameTable f d).betSizes = d.betSizes := rfl
  rw [hb]
  cases (if b = true then .ok (0, 0, 0) else d.betSizes : Except Err (Int × Int × Int)) with
  | error e => rfl
  | ok r =>
    obtain ⟨c, lo, hi⟩ := r
    simp only []
    rw [hg]
    show (match Except.map (List.map f) (pyGet d.holeCards (match d.action with | some a => (a : Int) | none => -1)) with
      | .error e => _ | .ok hole => _) = _
    cases pyGet d.holeCards (match d.action with | some a => (a : Int) | none => -1) with
    | error e => rfl
    | ok hole => rfl

/-- the cards at the table are cards -/
def AllReal (d : Dealer) : Prop := ∀ c ∈ allCards d, Real c

theorem mapM_congr_except {α β : Type} {g h : α → Except Err β} {l : List α} (e : ∀ x ∈ l, g x = h x) : l.mapM g = l.mapM h := by
  induction l with
  | nil => rfl
  | cons x l ih => rw [List.mapM_cons, List.mapM_cons, e x (by simp), ih fun y hy => e y (by simp [hy])]

theorem evalHands_renamed (hσ : SuitNames σ) (hf : Renames σ f) (hr : AllReal d) {extra : List Card} (hx : ∀ c ∈ extra, Real c) :
    (renameTable f d).evalHands (renameTable f d).holeCards ((d.communityCards ++ extra).map f) =
      d.evalHands d.holeCards (d.communityCards ++ extra) := by
  unfold Dealer.evalHands
  show (List.range d.cfg.numPlayers).mapM _ = _
  refine mapM_congr_except fun i hi => ?_
  show (if d.active.getD i false = true then (match (d.holeCards.map (List.map f))[i]? with
    | none => Except.error Err.indexError | some hole => d.cfg.evaluator.evaluate hole ((d.communityCards ++ extra).map f))
    else .ok d.worstHand) = _
  rw [List.getElem?_map]
  cases hh : d.holeCards[i]? with
  | none => rfl
  | some hole =>
    simp only [Option.map_some]
    rw [evaluate_renamed hσ hf]
    · intro c hc
      refine hr c ?_
      unfold allCards
      simp only [List.mem_append, List.mem_flatten]
      exact .inl (.inl ⟨hole, List.mem_of_getElem? hh, hc⟩)
    · intro c hc
      rcases List.mem_append.1 hc with hc | hc
      · refine hr c ?_
        unfold allCards
        simp only [List.mem_append]
        exact .inl (.inr hc)
      · exact hx c hc

theorem evalHands_renamed' (hσ : SuitNames σ) (hf : Renames σ f) (hr : AllReal d) :
    (renameTable f d).evalHands (renameTable f d).holeCards (renameTable f d).communityCards =
      d.evalHands d.holeCards d.communityCards := by
  have := evalHands_renamed hσ hf hr (extra := []) (by simp)
  rw [List.append_nil] at this
  exact this

theorem payouts_renamed (hσ : SuitNames σ) (hf : Renames σ f) (hr : AllReal d) : (renameTable f d).payouts = d.payouts := by
  have e : (renameTable f d).evalRound = d.evalRound := by
    unfold Dealer.evalRound
    rw [evalHands_renamed' hσ hf hr]
    rfl
  unfold Dealer.payouts
  rw [e]
  rfl

theorem settle_renamed (d : Dealer) (p : List Int) : (renameTable f d).settle p = renameTable f (d.settle p) := rfl

theorem finish_renamed (hσ : SuitNames σ) (hf : Renames σ f) (hr : AllReal d) :
    (renameTable f d).finish = (renameTable f d.finish.1, renameResult f d.finish.2) := by
  have hp := payouts_renamed hσ hf hr
  have hd : (renameTable f d).done = d.done := rfl
  rcases finish_cases d with ⟨e, h1, h2⟩ | ⟨p, h1, h2, h3, h4⟩ | ⟨p, h1, h2, h3, h4⟩
  · rcases finish_cases (renameTable f d) with ⟨e', g1, g2⟩ | ⟨p', g1, -⟩ | ⟨p', g1, -⟩
    · rw [hp, h1] at g1
      simp only [Except.error.injEq] at g1
      subst g1
      rw [g2, h2]; rfl
    · rw [hp, h1] at g1; simp at g1
    · rw [hp, h1] at g1; simp at g1
  · rcases finish_cases (renameTable f d) with ⟨e', g1, g2⟩ | ⟨p', g1, g2, g3, g4⟩ | ⟨p', g1, g2, -⟩
    · rw [hp, h1] at g1; simp at g1
    · rw [hp, h1] at g1
      simp only [Except.ok.injEq] at g1
      subst g1
      refine Prod.ext ?_ ?_
      · rw [g3, h3]; rfl
      · rw [g4, h4, settle_renamed, observation_renamed, hd]
        cases (d.settle p).observation true <;> rfl
    · rw [hd, h2] at g2; simp at g2
  · rcases finish_cases (renameTable f d) with ⟨e', g1, g2⟩ | ⟨p', g1, g2, g3, g4⟩ | ⟨p', g1, g2, g3, g4⟩
    · rw [hp, h1] at g1; simp at g1
    · rw [hd, h2] at g2; simp at g2
    · rw [hp, h1] at g1
      simp only [Except.ok.injEq] at g1
      subst g1
      refine Prod.ext ?_ ?_
      · rw [g3, h3]
      · rw [g4, h4, observation_renamed, hd]
        cases d.observation false <;> rfl

theorem real_inGame {c : Card} (hs : d.cfg.numSuits ≤ 4) (h : InGame d.cfg c) : Real c := by
  obtain ⟨k, u, h1, h2, h3⟩ := h
  exact ⟨k, u, h1.2, by omega, h3⟩

end Clubs
