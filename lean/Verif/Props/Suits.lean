import Verif.Lemmas.Suits
import Verif.Props.Dealing

/-!
# No suit is favoured: C84
-/

namespace Clubs

open Spec

variable {σ : Nat → Nat} {f : Card → Card} {d d' : Dealer} {obs : Observation}

theorem dealt_real (h : Dealt d) : AllReal d := by
  intro c hc
  exact real_inGame h.suits.2 (((dealt_cards h).2.2 c).1 hc)

theorem renamed_none (ha : d.action = none) (hσ : SuitNames σ) (hf : Renames σ f) (hr : AllReal d) (bet : PyNum) :
    (renameTable f d).step bet = (renameTable f (d.step bet).1, renameResult f (d.step bet).2) := by
  have ha' : (renameTable f d).action = none := ha
  have hp := payouts_renamed hσ hf hr
  have hd : (renameTable f d).done = d.done := rfl
  unfold Dealer.step
  rw [ha, ha']
  simp only []
  show (if d.active.any id = true then _ else _) = _
  by_cases hx : d.active.any id = true
  · simp only [if_pos hx]
    rw [hp, observation_renamed, hd]
    cases d.payouts with
    | error e => rfl
    | ok p => cases d.observation (d.done.all id) <;> rfl
  · simp only [if_neg hx]
    rfl

/-- **C84**: If the suits of all cards are exchanged, a bet does exactly the same: same table (with the other suits), same observation,
payouts and done flags, same exceptions. -/
theorem C84_step (h : Reachable d) (hσ : SuitNames σ) (hf : Renames σ f) (bet : PyNum) :
    (renameTable f d).step bet = (renameTable f (d.step bet).1, renameResult f (d.step bet).2) := by
  have hdl := reachable_dealt h
  cases ha : d.action with
  | none => exact renamed_none ha hσ hf (dealt_real hdl) bet
  | some a =>
    have ha' : (renameTable f d).action = some a := ha
    have hb : (renameTable f d).betSizes = d.betSizes := rfl
    rcases step_some ha bet with ⟨e, hr, he⟩ | ⟨b, e, hr, hs, he⟩ | ⟨b, c, lo, hi, hr, hs, he⟩
    · rcases step_some ha' bet with ⟨e', hr', he'⟩ | ⟨b', e', hr', -, -⟩ | ⟨b', c', lo', hi', hr', -, -⟩
      · rw [hr] at hr'
        simp only [Except.error.injEq] at hr'
        subst hr'
        rw [he, he']; rfl
      · rw [hr] at hr'; simp at hr'
      · rw [hr] at hr'; simp at hr'
    · rcases step_some ha' bet with ⟨e', hr', he'⟩ | ⟨b', e', hr', hs', he'⟩ | ⟨b', c', lo', hi', hr', hs', -⟩
      · rw [hr] at hr'; simp at hr'
      · rw [hb, hs] at hs'
        simp only [Except.error.injEq] at hs'
        subst hs'
        rw [he, he']; rfl
      · rw [hb, hs] at hs'; simp at hs'
    · rcases step_some ha' bet with ⟨e', hr', he'⟩ | ⟨b', e', hr', hs', he'⟩ | ⟨b', c', lo', hi', hr', hs', he'⟩
      · rw [hr] at hr'; simp at hr'
      · rw [hb, hs] at hs'; simp at hs'
      · rw [hb, hs] at hs'
        rw [hr] at hr'
        simp only [Except.ok.injEq, Prod.mk.injEq] at hs' hr'
        obtain ⟨rfl, rfl, rfl⟩ := hs'
        subst hr'
        rw [he, he', afterBet_renamed]
        exact finish_renamed hσ hf (dealt_real (afterBet_dealt (reachable_seated h) hdl (by simp [ha]) _ _ _))

/-- **C84**: The same for any number of bets, up to and beyond the end of the hand. -/
theorem C84_bets (h : Reachable d) (hσ : SuitNames σ) (hf : Renames σ f) (bets : List PyNum) :
    afterBets (renameTable f d) bets = renameTable f (afterBets d bets) := by
  induction bets generalizing d with
  | nil => rfl
  | cons b bets ih =>
    show afterBets ((renameTable f d).step b).1 bets = renameTable f (afterBets (d.step b).1 bets)
    rw [C84_step h hσ hf b]
    exact ih (.step b h)

/-- **C84**: The chances that `win_probabilities` computes do not depend on the suits, either. -/
theorem C84_odds (h : Reachable d) (hσ : SuitNames σ) (hf : Renames σ f) : (renameTable f d).winProbabilities = d.winProbabilities := by
  have hr := dealt_real (reachable_dealt h)
  have key : ∀ (l : List (List Card)) (w : List Nat), (∀ x ∈ l, ∀ c ∈ x, Real c) →
      (l.map (List.map f)).foldlM (renameTable f d).countWins w = l.foldlM d.countWins w := by
    intro l
    induction l with
    | nil => intro w _; rfl
    | cons x l ih =>
      intro w hx
      have e : (renameTable f d).countWins w (x.map f) = d.countWins w x := by
        unfold Dealer.countWins
        have := evalHands_renamed hσ hf hr (hx x (by simp))
        rw [List.map_append] at this
        rw [show (renameTable f d).communityCards = d.communityCards.map f from rfl, this]
      rw [List.map_cons, List.foldlM_cons, List.foldlM_cons, e]
      cases d.countWins w x with
      | error e => rfl
      | ok w' => exact ih w' fun y hy => hx y (by simp [hy])
  unfold Dealer.winProbabilities
  have e1 : (renameTable f d).cfg.numCommunityCards.sum - ((renameTable f d).communityCards.length : Int) =
      d.cfg.numCommunityCards.sum - d.communityCards.length := by
    show _ - ((d.communityCards.map f).length : Int) = _
    rw [List.length_map]; rfl
  have e2 : combinationsInt (d.cfg.numCommunityCards.sum - d.communityCards.length) (renameTable f d).deck.cards =
      (combinationsInt (d.cfg.numCommunityCards.sum - d.communityCards.length) d.deck.cards).map (List.map (List.map f)) := by
    show combinationsInt _ (d.deck.cards.map f) = _
    unfold combinationsInt
    split
    · rfl
    · rw [combinations_map]; rfl
  rw [e1, e2]
  cases hc : combinationsInt (d.cfg.numCommunityCards.sum - d.communityCards.length) d.deck.cards with
  | error e => rfl
  | ok combs =>
    simp only [Except.map]
    rw [key]
    · rfl
    · intro x hx c hcx
      refine hr c ?_
      unfold combinationsInt at hc
      split at hc
      · simp at hc
      · simp only [Except.ok.injEq] at hc
        rw [← hc] at hx
        unfold allCards
        simp only [List.mem_append]
        exact .inr (((mem_combinations _ _ _).1 hx).1.subset hcx)

theorem mkCard_inj_all : ∀ k < 13, ∀ k' < 13, ∀ u < 4, ∀ u' < 4, mkCard k u = mkCard k' u' → k = k' ∧ u = u' := by
  have h : ∀ k < 13, ∀ k' < 13, rankSymbol k = rankSymbol k' → k = k' := by decide
  have h' : ∀ u < 4, ∀ u' < 4, suitSymbol u = suitSymbol u' → u = u' := by decide
  intro k hk k' hk' u hu u' hu' e
  exact ⟨h k hk k' hk' (congrArg Card.rank e), h' u hu u' hu' (congrArg Card.suit e)⟩

/-- the cards of a game, with other suits -/
theorem renamed_deck (hd : Dealt d) (hσ : SuitNames σ) (hf : Renames σ f) (hg : ∀ u : Nat, u < d.cfg.numSuits → (σ u : Int) < d.cfg.numSuits) :
    (d.deck.fullDeck.map f).Perm d.deck.fullDeck := by
  have hmem : ∀ c, c ∈ d.deck.fullDeck ↔ InGame d.cfg c := fun c => by rw [← hd.perm.mem_iff]; exact (dealt_cards hd).2.2 c
  have hnd : d.deck.fullDeck.Nodup := by
    have := hd.wf.nodup
    exact (List.Nodup.of_map _ this)
  have hinj : ∀ a ∈ d.deck.fullDeck, ∀ b ∈ d.deck.fullDeck, f a = f b → a = b := by
    intro a ha b hb e
    obtain ⟨k, u, k1, k2, k3⟩ := (hmem a).1 ha
    obtain ⟨k', u', k1', k2', k3'⟩ := (hmem b).1 hb
    have hs := hd.suits
    have x1 := hf k k1.2 u (by omega) a k3
    have x2 := hf k' k1'.2 u' (by omega) b k3'
    rw [card_all k' k1'.2 u' (by omega)] at k3'
    rw [card_all k k1.2 u (by omega)] at k3
    rw [card_all k' k1'.2 _ (hσ.1 u' (by omega))] at x2
    rw [card_all k k1.2 _ (hσ.1 u (by omega)), e, ← x2, Except.ok.injEq] at x1
    obtain ⟨r1, r2⟩ := mkCard_inj_all k k1.2 k' k1'.2 (σ u) (hσ.1 u (by omega)) (σ u') (hσ.1 u' (by omega)) x1
    obtain rfl := hσ.2 u (by omega) u' (by omega) r2
    subst r1
    rw [k3, Except.ok.injEq] at k3'
    exact k3'
  have hsub : ∀ c ∈ d.deck.fullDeck.map f, c ∈ d.deck.fullDeck := by
    intro c hc
    obtain ⟨a, ha, rfl⟩ := List.mem_map.1 hc
    obtain ⟨k, u, k1, k2, k3⟩ := (hmem a).1 ha
    have hs := hd.suits
    exact (hmem _).2 ⟨k, σ u, k1, hg u k2, hf k k1.2 u (by omega) a k3⟩
  have hnd' : (d.deck.fullDeck.map f).Nodup := (List.nodup_map_iff_inj_on hnd).2 fun a ha b hb => hinj a ha b hb
  exact (List.subperm_of_subset hnd' hsub).perm_of_length_le (by simp)

theorem fresh_renamed (rb rs : Bool) {shuf shuf' : Shuffle} (ht : d.deck.tricked = false)
    (he : shuf' d.deck.fullDeck = (shuf d.deck.fullDeck).map f) : d.fresh rb rs shuf' = renameTable f (d.fresh rb rs shuf) := by
  have e0 : ∀ sh, d.deck.shuffle sh = { d.deck with cards := sh d.deck.fullDeck } := by
    intro sh; unfold Deck.shuffle; simp [ht]
  have e1 : d.deck.shuffle shuf' = { d.deck.shuffle shuf with cards := (d.deck.shuffle shuf).cards.map f } := by
    rw [e0, e0, he]
  unfold Dealer.fresh
  rw [e1]
  simp only [draw_renamed, dealHole_renamed]
  rfl

/-- **C84**: The deal does not favour a suit: whenever `reset` deals a hand from a shuffled deck, the deck with the suits exchanged (which is
another order of the same cards, if the game's suits are exchanged among themselves) deals the same hand with the suits exchanged. So if every
order of the deck is equally likely, every hand is as likely in one suit as in another. -/
theorem C84_deal (h : Reachable d) (ht : d.deck.tricked = false) (hσ : SuitNames σ) (hf : Renames σ f)
    (hg : ∀ u : Nat, u < d.cfg.numSuits → (σ u : Int) < d.cfg.numSuits) {rb rs : Bool} {shuf : Shuffle} (hs : IsShuffle shuf)
    (hr : d.reset rb rs shuf = (d', .ok obs)) :
    ∃ shuf', IsShuffle shuf' ∧ shuf' d.deck.fullDeck = (shuf d.deck.fullDeck).map f ∧
      d.reset rb rs shuf' = (renameTable f d', .ok (renameView f obs)) := by
  classical
  refine ⟨fun l => if l = d.deck.fullDeck then (shuf d.deck.fullDeck).map f else l, ?_, if_pos rfl, ?_⟩
  · intro l
    by_cases hl : l = d.deck.fullDeck
    · simp only [if_pos hl]
      rw [hl]
      exact ((hs _).map f).trans (renamed_deck (reachable_dealt h) hσ hf hg)
    · simp only [if_neg hl]
      exact .refl _
  · generalize hsh : (fun l => if l = d.deck.fullDeck then (shuf d.deck.fullDeck).map f else l) = shuf'
    have he : shuf' d.deck.fullDeck = (shuf d.deck.fullDeck).map f := by rw [← hsh]; exact if_pos rfl
    have hfr := fresh_renamed (f := f) rb rs ht he
    have hp : (d.posted rb rs shuf').moveAction.moveAction = renameTable f (d.posted rb rs shuf).moveAction.moveAction := by
      unfold Dealer.posted Dealer.blindStart
      rw [hfr]
      split <;> rfl
    obtain ⟨h1, h2, rfl, h4⟩ := reset_ok hr
    rcases reset_eq d rb rs shuf' with ⟨g1, g2, -⟩ | ⟨-, ⟨g1, -⟩ | ⟨-, g2⟩⟩
    · exfalso
      rcases h1 with h1 | h1
      · rw [h1] at g1; simp at g1
      · omega
    · omega
    · rw [g2, hp, observation_renamed, h4]
      rfl

/-- what a renaming of the suits does to cards -/
def renameCard (σ : Nat → Nat) (c : Card) : Card :=
  match ((List.range 13).flatMap fun r => (List.range 4).map fun u => (r, u)).find? fun p => mkCard p.1 p.2 = c with
  | some p => mkCard p.1 (σ p.2)
  | none => c

/-- every renaming of the suits is one of cards -/
theorem renameCard_renames (hσ : SuitNames σ) : Renames σ (renameCard σ) := by
  intro r hr u hu c hc
  rw [card_all r hr u hu, Except.ok.injEq] at hc
  subst hc
  rw [card_all r hr (σ u) (hσ.1 u hu)]
  unfold renameCard
  cases hx : ((List.range 13).flatMap fun r => (List.range 4).map fun u => (r, u)).find? fun p => decide (mkCard p.1 p.2 = mkCard r u) with
  | none =>
    have := List.find?_eq_none.1 hx (r, u) (by simp [List.mem_flatMap, hr, hu])
    simp at this
  | some p =>
    have h1 := List.find?_some hx
    have h2 := List.mem_of_find?_eq_some hx
    simp only [decide_eq_true_eq] at h1
    simp only [List.mem_flatMap, List.mem_map, List.mem_range] at h2
    obtain ⟨r', hr', u', hu', rfl⟩ := h2
    obtain ⟨e1, e2⟩ := mkCard_inj_all r' hr' r hr u' hu' u hu h1
    simp only [e1, e2]

/-- spades and hearts are exchanged in a game of two suits -/
def swapTwo (u : Nat) : Nat := if u = 0 then 1 else if u = 1 then 0 else u

example : SuitNames swapTwo := by unfold SuitNames swapTwo; decide

/-- a hand that went to a showdown, played again with the suits exchanged -/
example : ∃ S d, InHand S d ∧ Reachable d ∧ d.deck.tricked = false ∧ (∀ u : Nat, u < 4 → (u : Int) < d.cfg.numSuits → (swapTwo u : Int) < d.cfg.numSuits) ∧
    d.action = none ∧ (renameTable (renameCard swapTwo) d).holeCards ≠ d.holeCards ∧ d.communityCards.length = 1 :=
  hand_exists { small 2 [1, 2] 20 with numSuits := 2, numCommunityCards := .list [0, 1] } [.bet 1, .bet 0, .bet 5, .bet 5] (by decide +kernel)

end Clubs
