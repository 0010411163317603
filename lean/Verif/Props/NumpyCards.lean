import Verif.Props.NumpyFlow
import Verif.Props.NumpyMoney
import Verif.Props.Odds
import Verif.Lemmas.Shipped

/-!
# The cards of the array engine: C74, and the end of every hand: C70
-/

namespace Clubs.Numpy

open Spec

variable {S : List Int} {d d' : Dealer} {rb rs : Bool} {shuf : Shuffle} {obs : Observation}

/-- the table with the button as a seat number keeps its cards together -/
theorem array_dealt (h : ArrayReachable d) : Dealt (atSeat d) := by
  induction h with
  | new hs h =>
    have hd := new_dealt hs h
    exact ⟨hd.wf, hd.full, hd.suits, hd.ranks, hd.perm, hd.shape⟩
  | @reset d rb rs shuf hs h ih =>
    rw [(reset_atSeat (array_seated h) rb rs shuf).1]
    exact Clubs.reset_dealt (array_seated h) ih rb rs hs
  | @step d bet h ih =>
    have hseat := array_seated h
    have htwo : 2 ≤ d.cfg.numPlayers := hseat.two
    cases ha : d.action with
    | none => rw [step_none ha]; exact ih
    | some a =>
      rcases step_some ha bet with ⟨e, -, he⟩ | ⟨b, e, -, -, he⟩ | ⟨b, c, lo, hi, -, hs, he⟩
      · rw [he]; exact ih
      · rw [he]; exact ih
      · rw [he]
        have hx := afterBet_dealt hseat ih (show d.action ≠ none by simp [ha]) bet.isNeg c (cleanBet b c lo hi)
        rw [← afterBet_atSeat (by omega)] at hx
        rcases finish_cases (afterBet d bet.isNeg c (cleanBet b c lo hi)) with ⟨x, -, hf⟩ | ⟨p, -, -, hf, -⟩ | ⟨p, -, -, hf, -⟩
        · rw [hf]; exact hx
        · rw [hf, settle_atSeat]
          exact hx.congr rfl rfl rfl rfl rfl (.inr rfl)
        · rw [hf]; exact hx
  | @trick d top deck h hp ht ih =>
    obtain ⟨e1, e2⟩ := Deck.trick_same ht
    refine ⟨Deck.trick_wf ih.wf hp ht, ?_, ih.suits, ih.ranks, ?_, ih.shape⟩
    · show deck.fullDeck = _
      rw [e1]; exact ih.full
    · have := ih.perm
      unfold allCards at this ⊢
      show (d.holeCards.flatten ++ d.communityCards ++ deck.cards).Perm deck.fullDeck
      rw [e1, e2]
      exact this
  | untrick hr ih =>
    exact ⟨⟨ih.wf.len, ih.wf.nodup, by simp [Deck.untrick, atSeat], by simp [Deck.untrick, atSeat], by simp [Deck.untrick, atSeat]⟩,
      ih.full, ih.suits, ih.ranks, ih.perm, ih.shape⟩

theorem array_dealt' (h : ArrayReachable d) : Dealt d := by
  have hd := array_dealt h
  exact ⟨hd.wf, hd.full, hd.suits, hd.ranks, hd.perm, hd.shape⟩

/-- **C74**: at every moment the hole cards of all players, the community cards and the cards left in the deck are
pairwise different, and together they are all cards of the game, each once. -/
theorem C74_cards (h : ArrayReachable d) :
    ((allCards d).length : Int) = d.cfg.numSuits * d.cfg.numRanks ∧
    (allCards d).Pairwise (fun x y => x.eq y = false) ∧ ∀ c, c ∈ allCards d ↔ InGame d.cfg c :=
  dealt_cards (array_dealt' h)

/-- **C74**: while a hand is running (or has been played), every player holds `num_hole_cards` cards, and on street `i` there
are as many community cards as the first `i + 1` entries of `num_community_cards` say, if the deck is large enough. -/
theorem C74_shape (h : ArrayReachable d) (hr : d.action ≠ none ∨ d.holeCards ≠ []) (he : Enough d.cfg) :
    d.holeCards.length = d.cfg.numPlayers ∧ (∀ i < d.cfg.numPlayers, (d.holeCards.getD i []).length = d.cfg.numHoleCards.toNat) ∧
      d.communityCards.length = boardSize d.cfg d.street := dealt_shape (array_dealt' h) hr he

/-- **C74**: a step never changes the hole cards, the deck is dealt from the top, and community cards are only added
after those already there. -/
theorem C74_grow (h : ArrayReachable d) (bet : PyNum) :
    d.communityCards <+: (step d bet).1.communityCards ∧ (step d bet).1.holeCards = d.holeCards ∧
    (step d bet).1.communityCards ++ (step d bet).1.deck.cards = d.communityCards ++ d.deck.cards := by
  have hseat := array_seated h
  have htwo : 2 ≤ d.cfg.numPlayers := hseat.two
  cases ha : d.action with
  | none => rw [step_none ha]; exact ⟨List.prefix_rfl, rfl, rfl⟩
  | some a =>
    rcases step_some ha bet with ⟨e, -, he⟩ | ⟨b, e, -, -, he⟩ | ⟨b, c, lo, hi, -, hs, he⟩
    · rw [he]; exact ⟨List.prefix_rfl, rfl, rfl⟩
    · rw [he]; exact ⟨List.prefix_rfl, rfl, rfl⟩
    · rw [he]
      obtain ⟨c1, c2, -, -⟩ := afterBet_cards (d := atSeat d) hseat.community bet.isNeg c (cleanBet b c lo hi)
      obtain ⟨-, -, -, -, f5, -⟩ := afterBet_fields (atSeat d) bet.isNeg c (cleanBet b c lo hi)
      rw [← afterBet_atSeat (by omega)] at c1 c2 f5
      rcases finish_cases (afterBet d bet.isNeg c (cleanBet b c lo hi)) with ⟨x, -, hf⟩ | ⟨p, -, -, hf, -⟩ | ⟨p, -, -, hf, -⟩ <;>
        rw [hf] <;> exact ⟨c2, f5, c1⟩

/-- **C74**: `reset` deals from the top of the shuffled deck: first the community cards of the first street, then all hole
cards of seat 0, of seat 1, and so on. -/
theorem C74_order (hd : ArrayReachable d) (h : reset d rb rs shuf = (d', .ok obs)) :
    d'.communityCards ++ d'.holeCards.flatten ++ d'.deck.cards = (d.deck.shuffle shuf).cards ∧
    d'.communityCards.length = min (d.cfg.numCommunityCards.getD 0 0).toNat (d.deck.shuffle shuf).cards.length ∧
    d'.holeCards.length = d.cfg.numPlayers ∧ ∀ i < d.cfg.numPlayers, d'.holeCards.getD i [] = (((d.deck.shuffle shuf).cards.drop
      (d.cfg.numCommunityCards.getD 0 0).toNat).drop (i * d.cfg.numHoleCards.toNat)).take d.cfg.numHoleCards.toNat :=
  C51_order (d := atSeat d) (d' := atSeat d') (reset_ok_atSeat (array_seated hd) h)

/-- a hand on its second street: two community cards, three hole cards, three cards left -/
example : ∃ S d, ArrayInHand S d ∧ ArrayReachable d ∧ d.action ≠ none ∧ d.holeCards.map List.length = [1, 1, 1] ∧
    d.communityCards.length = 2 ∧ d.deck.cards.length = 3 ∧ d.street = 1 ∧ Enough d.cfg :=
  hand_exists (board 3 [1, 2, 0] 10) [.bet 2, .bet 1, .bet 0] (by decide +kernel)

/-- **C74**: once all streets have been played, every player who is in has a hand: the evaluator returns a value (it
raises no exception), it is the value of a selection of cards that the rules allow, and no allowed selection has a better
one. -/
theorem C74_showdown (h : ArrayReachable d) (hr : d.holeCards ≠ []) (hst : d.cfg.numStreets ≤ d.street + 1) (he : Enough d.cfg)
    (hf : HandsFit d.cfg) (hg : GoodEvaluator d.cfg) (i : Nat) (hi : i < d.cfg.numPlayers) :
    ∃ v sel, d.cfg.evaluator.evaluate (d.holeCards.getD i []) d.communityCards = .ok v ∧
      Selection d.cfg.numCardsForHand d.cfg.mandatoryNumHoleCards (d.holeCards.getD i []) d.communityCards sel ∧
      d.cfg.evaluator.table.lookup sel = .ok v ∧
      ∀ sel', Selection d.cfg.numCardsForHand d.cfg.mandatoryNumHoleCards (d.holeCards.getD i []) d.communityCards sel' →
        ∃ w, d.cfg.evaluator.table.lookup sel' = .ok w ∧ v ≤ w :=
  dealt_showdown (d := atSeat d) (array_seated h) (array_dealt h) hr hst he hf hg i hi

theorem ranks_exist (h : ArrayReachable d) (hr : d.holeCards ≠ []) (hst : d.cfg.numStreets ≤ d.street + 1) (he : Enough d.cfg)
    (hf : HandsFit d.cfg) (hg : GoodEvaluator d.cfg) : ∃ s, Ranks d s := by
  refine ⟨fun i => ((d.cfg.evaluator.evaluate (d.holeCards.getD i []) d.communityCards).toOption).getD 0, ?_⟩
  intro i hi _
  obtain ⟨v, -, h1, -⟩ := C74_showdown h hr hst he hf hg i hi
  simp only [h1]; rfl

theorem afterBets_reachable (h : ArrayReachable d) (bets : Nat → Rat) (k : Nat) : ArrayReachable (afterBets d bets k) := by
  induction k with
  | zero => exact h
  | succ k ih => exact .step _ ih

/-- **C70**: at a sensible table (the deck is large enough, hands have enough cards, the evaluator fits the cards, antes
differ by at most one chip, everybody can pay blind and ante), every hand ends, whatever is bet: after finitely many steps nobody is to act
and the chips are paid out. -/
theorem C70_always_ends (h : ArrayInHand S d) (hr : ArrayReachable d) (hn : NonNegative S d.cfg) (hz : SizesOk d.cfg)
    (hcov : Covers S d.cfg) (ha : CloseAntes d.cfg) (he : Enough d.cfg) (hf : HandsFit d.cfg) (hg : GoodEvaluator d.cfg)
    (bets : Nat → Rat) : ∃ k, ∀ j ≥ k, (afterBets d bets j).action = none ∧ (afterBets d bets j).pot = 0 ∧
      ∀ i < d.cfg.numPlayers, 0 ≤ stack (afterBets d bets j) i := by
  obtain ⟨k, hk⟩ := C70_ends h hn hz hcov ha bets
  refine ⟨k, fun j hj => ?_⟩
  have hin := afterBets_inHand h bets j
  have hend : (afterBets d bets j).action = none := by
    rcases hk j hj with h1 | ⟨h1, h2⟩
    · exact h1
    · by_contra hact
      refine h2 (ranks_exist (afterBets_reachable hr bets j) ?_ ?_ ?_ ?_ ?_)
      · exact Dealt.hole_ne (d := atSeat (afterBets d bets j)) (array_seated (afterBets_reachable hr bets j))
          (array_dealt (afterBets_reachable hr bets j)) hact
      · have := h1.1; omega
      all_goals rw [afterBets_cfg]; assumption
  refine ⟨hend, (seated_of_ended hin hend).2, fun i hi => ?_⟩
  exact C69_after_hand hin (by rw [afterBets_cfg]; exact hn) (by rw [afterBets_cfg]; exact hz) hend i
    (by rw [afterBets_cfg]; exact hi)

/-- **C70**: with every configuration of `clubs/configs.py`, the first hand ends, whatever is bet. -/
theorem C70_shipped {a : DealerArgs} (ha : a ∈ ALL_CONFIGS) {shuf shuf' : Shuffle} (hs : IsShuffle shuf) (hs' : IsShuffle shuf')
    (hd : new a shuf = .ok d) (hr : reset d rb rs shuf' = (d', .ok obs)) (bets : Nat → Rat) :
    ∃ k, ∀ j ≥ k, (afterBets d' bets j).action = none ∧ (afterBets d' bets j).pot = 0 ∧
      ∀ i < d'.cfg.numPlayers, 0 ≤ stack (afterBets d' bets j) i := by
  have g := shipped_good ha hd rs
  have hcfg : d'.cfg = d.cfg := by have := reset_cfg d rb rs shuf'; rwa [hr] at this
  rw [← hcfg] at g
  have hre := ArrayReachable.reset rb rs hs' (.new hs hd)
  rw [hr] at hre
  exact C70_always_ends (.dealt (new_atSeat hd) hs' hr) hre g.nonneg g.sizes g.covers g.antes g.enough g.fits g.evaluator bets

/-- the first hand of a shipped configuration is dealt -/
theorem shipped_deals {a : DealerArgs} (ha : a ∈ ALL_CONFIGS) {shuf : Shuffle} (hd : new a shuf = .ok d) (rb rs : Bool)
    (shuf' : Shuffle) : ∃ d' obs, reset d rb rs shuf' = (d', .ok obs) := by
  obtain ⟨-, -, -, -, -, -, h4⟩ := (C45_shipped a ha).plays shuf d hd
  obtain ⟨d1, o1, h5⟩ := h4 rb rs shuf'
  have hb : atSeat d = d := atSeat_of_seated (new_seated hd)
  have h6 := (reset_atSeat (new_atSeat hd) rb rs shuf').2
  rw [hb, h5] at h6
  cases e : reset d rb rs shuf' with
  | mk d' r =>
    rw [e] at h6
    cases r with
    | error x => simp [Except.map] at h6
    | ok obs => exact ⟨d', obs, rfl⟩

/-- the first hand of a nine-player game meets the hypotheses -/
example : ∃ d d' obs, new NO_LIMIT_HOLDEM_NINE_PLAYER id = .ok d ∧ reset d true false id = (d', .ok obs) ∧
    ArrayReachable d' ∧ ArrayInHand (startStacks d false) d' ∧ GoodTable (startStacks d false) d'.cfg ∧ d'.cfg.numPlayers = 9 := by
  have hm : NO_LIMIT_HOLDEM_NINE_PLAYER ∈ ALL_CONFIGS := by decide
  obtain ⟨d, hd⟩ := (C45_shipped NO_LIMIT_HOLDEM_NINE_PLAYER hm).constructs id
  obtain ⟨d', obs, hr⟩ := shipped_deals hm (d := d) hd true false id
  have hcfg : d'.cfg = d.cfg := by have := reset_cfg d true false id; rwa [hr] at this
  have hre := ArrayReachable.reset true false isShuffle_id (.new isShuffle_id hd)
  rw [hr] at hre
  refine ⟨d, d', obs, hd, hr, hre, .dealt (new_atSeat hd) isShuffle_id hr, by rw [hcfg]; exact shipped_good hm hd false, ?_⟩
  have h9 : (d.cfg.numPlayers : Int) = 9 := (C44_values _ id d hd).2.2.2.2.2.1
  rw [hcfg]; omega

end Clubs.Numpy
