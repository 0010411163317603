import Verif.Lemmas.Money
import Verif.Lemmas.Deck
import Verif.Spec.Dealing

/-! # Where the cards are -/

namespace Clubs

open Spec

theorem pyGet_error {α : Type} {l : List α} {i : Int} {e : Err} (h : pyGet l i = .error e) : e = .indexError := by
  unfold pyGet at h
  simp only [] at h
  repeat' split at h
  all_goals simp_all

/-- the only exception `_observation` can raise -/
theorem observation_error {d : Dealer} {b : Bool} {e : Err} (h : d.observation b = .error e) : e = .indexError := by
  unfold Dealer.observation at h
  split at h
  · next er he =>
    simp only [Except.error.injEq] at h
    subst h
    split at he
    · simp at he
    · unfold Dealer.betSizes at he
      simp only [] at he
      split at he
      · simp only [Except.error.injEq] at he; exact he.symm
      · split at he
        · simp only [Except.error.injEq] at he; exact he.symm
        · simp at he
  · split at h
    · next er he =>
      simp only [Except.error.injEq] at h
      subst h
      exact pyGet_error he
    · simp at h

/-! ## drawing -/

theorem dealHole_eq (k : Int) (n : Nat) (deck : Deck) :
    (dealHole k n deck).2 = { deck with cards := deck.cards.drop (n * k.toNat) } ∧
    (dealHole k n deck).1.flatten = deck.cards.take (n * k.toNat) ∧
    ∀ i < n, (dealHole k n deck).1.getD i [] = (deck.cards.drop (i * k.toNat)).take k.toNat := by
  induction n generalizing deck with
  | zero => simp [dealHole]
  | succ n ih =>
    rw [dealHole]
    simp only [Deck.draw_eq]
    obtain ⟨h1, h2, h3⟩ := ih { deck with cards := deck.cards.drop k.toNat }
    refine ⟨?_, ?_, ?_⟩
    · rw [h1]
      simp only [List.drop_drop]
      congr 2
      ring
    · rw [List.flatten_cons, h2, Nat.succ_mul, Nat.add_comm (n * k.toNat), List.take_add]
    · intro i hi
      cases i with
      | zero => simp
      | succ i =>
        rw [List.getD_cons_succ, h3 i (by omega)]
        simp only [List.drop_drop]
        congr 2
        ring

theorem boardSize_succ {c : Config} {s : Nat} (h : s + 1 < c.numCommunityCards.length) :
    boardSize c (s + 1) = boardSize c s + (c.numCommunityCards.getD (s + 1) 0).toNat := by
  unfold boardSize
  rw [List.take_add_one, List.map_append, List.sum_append]
  congr 1
  rw [List.getElem?_eq_getElem h, getD_eq _ _ _ h]
  simp

theorem boardSize_le (c : Config) (s : Nat) : boardSize c s ≤ (c.numCommunityCards.map Int.toNat).sum := by
  unfold boardSize
  conv_rhs => rw [← List.take_append_drop (s + 1) c.numCommunityCards]
  rw [List.map_append, List.sum_append]
  omega

theorem boardSize_all {c : Config} {s : Nat} (h : c.numCommunityCards.length ≤ s + 1) :
    boardSize c s = (c.numCommunityCards.map Int.toNat).sum := by
  unfold boardSize
  rw [List.take_of_length_le h]

/-- the loop that deals streets: cards go from the deck to the end of the board -/
theorem dealStreets_cards (fuel : Nat) (d : Dealer) (hc : d.cfg.numCommunityCards.length = d.cfg.numStreets) :
    (dealStreets fuel d).communityCards ++ (dealStreets fuel d).deck.cards = d.communityCards ++ d.deck.cards ∧
    d.communityCards <+: (dealStreets fuel d).communityCards ∧
    (dealStreets fuel d).deck = { d.deck with cards := (dealStreets fuel d).deck.cards } ∧
    (d.communityCards.length = boardSize d.cfg d.street →
      (d.cfg.numCommunityCards.map Int.toNat).sum ≤ d.communityCards.length + d.deck.cards.length →
      (dealStreets fuel d).communityCards.length = boardSize d.cfg (dealStreets fuel d).street) := by
  induction fuel generalizing d with
  | zero => exact ⟨rfl, List.prefix_rfl, rfl, fun h _ => h⟩
  | succ fuel ih =>
    rw [dealStreets]
    simp only []
    split
    · next hs =>
      refine ⟨rfl, List.prefix_rfl, rfl, fun h _ => ?_⟩
      show d.communityCards.length = boardSize d.cfg (d.street + 1)
      rw [h, boardSize_all (s := d.street + 1) (by rw [hc]; omega), boardSize_all (by rw [hc]; exact hs)]
    · next hs =>
      have hs' : d.street + 1 < d.cfg.numCommunityCards.length := by rw [hc]; omega
      have key : d.communityCards.length = boardSize d.cfg d.street →
          (d.cfg.numCommunityCards.map Int.toNat).sum ≤ d.communityCards.length + d.deck.cards.length →
          (d.communityCards ++ (d.deck.draw (d.cfg.numCommunityCards.getD (d.street + 1) 0)).1).length =
            boardSize d.cfg (d.street + 1) := by
        intro h1 h2
        have := boardSize_le d.cfg (d.street + 1)
        rw [boardSize_succ hs'] at this ⊢
        rw [Deck.draw_eq, List.length_append, List.length_take]
        omega
      split
      · rw [Deck.draw_eq] at *
        refine ⟨?_, List.prefix_append _ _, rfl, key⟩
        simp
      · obtain ⟨h1, h2, h3, h4⟩ := ih { d with
          street := d.street + 1
          communityCards := d.communityCards ++ (d.deck.draw (d.cfg.numCommunityCards.getD (d.street + 1) 0)).1
          deck := (d.deck.draw (d.cfg.numCommunityCards.getD (d.street + 1) 0)).2 } hc
        refine ⟨?_, (List.prefix_append _ _).trans h2, ?_, ?_⟩
        · rw [h1, Deck.draw_eq]; simp
        · rw [h3, Deck.draw_eq]
        · intro g1 g2
          apply h4
          · exact key g1 g2
          · rw [Deck.draw_eq]
            simp only [List.length_append, List.length_take, List.length_drop]
            omega

theorem afterBet_cards {d : Dealer} (hc : d.cfg.numCommunityCards.length = d.cfg.numStreets) (fold : Bool) (call bet : Int) :
    (d.afterBet fold call bet).communityCards ++ (d.afterBet fold call bet).deck.cards = d.communityCards ++ d.deck.cards ∧
    d.communityCards <+: (d.afterBet fold call bet).communityCards ∧
    (d.afterBet fold call bet).deck = { d.deck with cards := (d.afterBet fold call bet).deck.cards } ∧
    (d.communityCards.length = boardSize d.cfg d.street →
      (d.cfg.numCommunityCards.map Int.toNat).sum ≤ d.communityCards.length + d.deck.cards.length →
      (d.afterBet fold call bet).communityCards.length = boardSize d.cfg (d.afterBet fold call bet).street) := by
  rcases afterBet_cases d fold call bet with ⟨-, e⟩ | ⟨-, e⟩
  · rw [e]; exact ⟨rfl, List.prefix_rfl, rfl, fun h _ => h⟩
  · rw [e]
    generalize hg : (d.acted fold call bet).moveAction = g
    have g1 : g.cfg = d.cfg := by rw [← hg]; rfl
    have g2 : g.communityCards = d.communityCards := by rw [← hg]; rfl
    have g3 : g.deck = d.deck := by rw [← hg]; rfl
    have g4 : g.street = d.street := by rw [← hg]; rfl
    have h := dealStreets_cards (g.cfg.numStreets + 1) (Dealer.moveAction { g with action := some g.button })
      (by show g.cfg.numCommunityCards.length = g.cfg.numStreets; rw [g1]; exact hc)
    rw [← g1, ← g2, ← g3, ← g4]
    exact h

/-! ## the invariant -/

/-- where the cards of a dealer are -/
structure Dealt (d : Dealer) : Prop where
  wf : d.deck.WF
  full : d.deck.fullDeck = deckList d.cfg.numSuits.toNat d.cfg.numRanks.toNat
  suits : 1 ≤ d.cfg.numSuits ∧ d.cfg.numSuits ≤ 4
  ranks : 1 ≤ d.cfg.numRanks ∧ d.cfg.numRanks ≤ 13
  perm : (allCards d).Perm d.deck.fullDeck
  shape : (d.holeCards = [] ∧ d.communityCards = [] ∧ d.action = none) ∨
    (d.holeCards.length = d.cfg.numPlayers ∧ 1 ≤ d.cfg.numStreets ∧
      (Enough d.cfg → (∀ i < d.cfg.numPlayers, (d.holeCards.getD i []).length = d.cfg.numHoleCards.toNat) ∧
        d.communityCards.length = boardSize d.cfg d.street))

theorem new_dealt {a : DealerArgs} {shuf : Shuffle} {d : Dealer} (hs : IsShuffle shuf) (h : Dealer.new a shuf = .ok d) :
    Dealt d := by
  unfold Dealer.new at h
  simp only [bind, Except.bind, pure, Except.pure] at h
  repeat' (split at h; · simp at h)
  next hdeck _ _ _ _ _ _ =>
  simp only [Except.ok.injEq] at h
  subst h
  have hw := Deck.new_wf hdeck
  rw [Deck.new_eq] at hdeck
  split at hdeck
  · simp at hdeck
  split at hdeck
  · simp at hdeck
  next h1 h2 =>
  simp only [Except.ok.injEq] at hdeck
  subst hdeck
  exact {
    wf := hw
    full := rfl
    suits := by show 1 ≤ a.numSuits ∧ a.numSuits ≤ 4; omega
    ranks := by show 1 ≤ a.numRanks ∧ a.numRanks ≤ 13; omega
    perm := by simpa [allCards] using hs _
    shape := .inl ⟨rfl, rfl, rfl⟩ }

theorem Dealt.size {d : Dealer} (h : Dealt d) : ((allCards d).length : Int) = d.cfg.numSuits * d.cfg.numRanks := by
  rw [h.perm.length_eq, h.full, deckList_length]
  have := h.suits
  have := h.ranks
  push_cast
  rw [Int.toNat_of_nonneg (by omega), Int.toNat_of_nonneg (by omega)]

theorem wf_cards {deck : Deck} (h : deck.WF) (cards : List Card) : Deck.WF { deck with cards := cards } :=
  ⟨h.len, h.nodup, h.top_lt, h.top_nodup, h.bottom⟩

/-- what `reset` deals -/
theorem fresh_cards (d : Dealer) (rb rs : Bool) (shuf : Shuffle) :
    (d.fresh rb rs shuf).communityCards = (d.deck.shuffle shuf).cards.take (d.cfg.numCommunityCards.getD 0 0).toNat ∧
    (∀ i < d.cfg.numPlayers, (d.fresh rb rs shuf).holeCards.getD i [] = (((d.deck.shuffle shuf).cards.drop
      (d.cfg.numCommunityCards.getD 0 0).toNat).drop (i * d.cfg.numHoleCards.toNat)).take d.cfg.numHoleCards.toNat) ∧
    (d.fresh rb rs shuf).holeCards.flatten = ((d.deck.shuffle shuf).cards.drop
      (d.cfg.numCommunityCards.getD 0 0).toNat).take (d.cfg.numPlayers * d.cfg.numHoleCards.toNat) ∧
    (d.fresh rb rs shuf).deck = { d.deck.shuffle shuf with
      cards := ((d.deck.shuffle shuf).cards.drop (d.cfg.numCommunityCards.getD 0 0).toNat).drop
        (d.cfg.numPlayers * d.cfg.numHoleCards.toNat) } := by
  have hh := dealHole_eq d.cfg.numHoleCards d.cfg.numPlayers
    ((d.deck.shuffle shuf).draw (d.cfg.numCommunityCards.getD 0 0)).2
  rw [Deck.draw_eq] at hh
  obtain ⟨h1, h2, h3⟩ := hh
  unfold Dealer.fresh
  simp only [Deck.draw_eq]
  exact ⟨trivial, h3, h2, h1⟩

theorem fresh_dealt {d : Dealer} (hd : Seated d) (h : Dealt d) (h1 : 1 ≤ d.cfg.numCommunityCards.length) (rb rs : Bool) {shuf : Shuffle}
    (hs : IsShuffle shuf) : Dealt (d.fresh rb rs shuf) := by
  obtain ⟨f1, f2, f3, f4⟩ := fresh_cards d rb rs shuf
  have hfull : (d.fresh rb rs shuf).deck.fullDeck = d.deck.fullDeck := by rw [f4]; simp
  have hall : (allCards (d.fresh rb rs shuf)).Perm (d.deck.shuffle shuf).cards := by
    unfold allCards
    rw [f1, f3, f4]
    refine (List.perm_append_comm.append_right _).trans ?_
    rw [List.append_assoc, List.take_append_drop, List.take_append_drop]
  have hsize : ((d.deck.shuffle shuf).cards.length : Int) = d.cfg.numSuits * d.cfg.numRanks := by
    rw [(Deck.shuffle_perm h.wf hs).length_eq, ← h.perm.length_eq]; exact h.size
  refine ⟨?_, ?_, h.suits, h.ranks, ?_, .inr ⟨?_, ?_, ?_⟩⟩
  · rw [f4]; exact wf_cards (Deck.shuffle_wf h.wf shuf) _
  · rw [hfull]; exact h.full
  · rw [hfull]; exact hall.trans (Deck.shuffle_perm h.wf hs)
  · exact dealHole_length _ _ _
  · show 1 ≤ d.cfg.numStreets
    rw [← hd.community]; exact h1
  · intro he
    change Enough d.cfg at he
    unfold Enough at he
    have hb := boardSize_le d.cfg 0
    have h0 : boardSize d.cfg 0 = (d.cfg.numCommunityCards.getD 0 0).toNat := by
      unfold boardSize
      rw [List.take_one, List.head?_eq_getElem?, List.getElem?_eq_getElem h1, getD_eq _ _ _ h1]
      simp
    constructor
    · intro i hi
      change i < d.cfg.numPlayers at hi
      rw [f2 i hi]
      show _ = d.cfg.numHoleCards.toNat
      simp only [List.length_take, List.length_drop]
      have : (i + 1) * d.cfg.numHoleCards.toNat ≤ d.cfg.numPlayers * d.cfg.numHoleCards.toNat := Nat.mul_le_mul_right _ hi
      rw [Nat.succ_mul] at this
      omega
    · rw [f1]
      show _ = boardSize d.cfg 0
      rw [List.length_take]
      omega

/-- `Dealt` only reads some fields -/
theorem Dealt.congr {d e : Dealer} (h : Dealt d) (h1 : e.cfg = d.cfg) (h2 : e.deck = d.deck) (h3 : e.holeCards = d.holeCards)
    (h4 : e.communityCards = d.communityCards) (h5 : e.street = d.street) (h6 : d.holeCards ≠ [] ∨ e.action = none) : Dealt e := by
  have ha : allCards e = allCards d := by unfold allCards; rw [h2, h3, h4]
  refine ⟨by rw [h2]; exact h.wf, by rw [h1, h2]; exact h.full, by rw [h1]; exact h.suits, by rw [h1]; exact h.ranks,
    by rw [ha, h2]; exact h.perm, ?_⟩
  rw [h1, h3, h4, h5]
  rcases h.shape with ⟨a, b, c⟩ | h
  · left
    refine ⟨a, b, ?_⟩
    rcases h6 with h6 | h6
    · exact absurd a h6
    · exact h6
  · exact .inr h

theorem Dealt.hole_ne {d : Dealer} (hd : Seated d) (h : Dealt d) (ha : d.action ≠ none) : d.holeCards ≠ [] := by
  rcases h.shape with ⟨_, _, c⟩ | ⟨a, _⟩
  · exact absurd c ha
  · intro e
    rw [e] at a
    have := hd.two
    simp at a; omega

theorem reset_dealt {d : Dealer} (hd : Seated d) (h : Dealt d) (rb rs : Bool) {shuf : Shuffle} (hs : IsShuffle shuf) :
    Dealt (d.reset rb rs shuf).1 := by
  rcases reset_eq d rb rs shuf with ⟨-, -, e⟩ | ⟨-, ⟨h2, e⟩ | ⟨h2, e⟩⟩
  · rw [e]
    refine h.congr rfl rfl rfl rfl rfl ?_
    by_cases ha : d.action = none
    · exact .inr ha
    · exact .inl (h.hole_ne hd ha)
  · rw [e]
    rcases h.shape with ⟨a, b, c⟩ | ⟨-, a, -⟩
    · have hp := Deck.shuffle_perm h.wf hs
      refine ⟨Deck.shuffle_wf h.wf shuf, by rw [Deck.shuffle_fullDeck]; exact h.full, h.suits, h.ranks, ?_, .inl ⟨a, b, c⟩⟩
      rw [Deck.shuffle_fullDeck]
      unfold allCards
      simp only [a, b]
      exact hp
    · rw [hd.community] at h2; omega
  · rw [e]
    have hf := fresh_dealt hd h h2 rb rs hs
    have hne := hf.hole_ne (fresh_seated hd rb rs shuf) (by simp [Dealer.fresh])
    obtain ⟨o, ho⟩ := blindStart_fields d rb rs shuf
    have e1 : (d.blindStart rb rs shuf).cfg = (d.fresh rb rs shuf).cfg := by rw [ho]
    have e2 : (d.blindStart rb rs shuf).deck = (d.fresh rb rs shuf).deck := by rw [ho]
    have e3 : (d.blindStart rb rs shuf).holeCards = (d.fresh rb rs shuf).holeCards := by rw [ho]
    have e4 : (d.blindStart rb rs shuf).communityCards = (d.fresh rb rs shuf).communityCards := by rw [ho]
    have e5 : (d.blindStart rb rs shuf).street = (d.fresh rb rs shuf).street := by rw [ho]
    refine hf.congr ?_ ?_ ?_ ?_ ?_ (.inl hne)
    · rw [← e1]; rfl
    · rw [← e2]; rfl
    · rw [← e3]; rfl
    · rw [← e4]; rfl
    · rw [← e5]; rfl

theorem afterBet_dealt {d : Dealer} (hd : Seated d) (h : Dealt d) (ha : d.action ≠ none) (fold : Bool) (call bet : Int) :
    Dealt (d.afterBet fold call bet) := by
  obtain ⟨c1, c2, c3, c4⟩ := afterBet_cards hd.community fold call bet
  obtain ⟨f1, -, -, -, f5, -⟩ := afterBet_fields d fold call bet
  have hfull : (d.afterBet fold call bet).deck.fullDeck = d.deck.fullDeck := by rw [c3]
  have hall : allCards (d.afterBet fold call bet) = allCards d := by
    unfold allCards
    rw [List.append_assoc, c1, f5, List.append_assoc]
  refine ⟨by rw [c3]; exact wf_cards h.wf _, by rw [hfull, f1]; exact h.full, by rw [f1]; exact h.suits,
    by rw [f1]; exact h.ranks, by rw [hall, hfull]; exact h.perm, ?_⟩
  rw [f1, f5]
  rcases h.shape with ⟨_, _, c⟩ | ⟨s1, s2, s3⟩
  · exact absurd c ha
  right
  refine ⟨s1, s2, fun he => ?_⟩
  obtain ⟨g1, g2⟩ := s3 he
  refine ⟨g1, c4 g2 ?_⟩
  have hsz := h.size
  unfold Enough at he
  have hfl : d.holeCards.flatten.length = d.cfg.numPlayers * d.cfg.numHoleCards.toNat := by
    have : ∀ l ∈ d.holeCards.map List.length, l = d.cfg.numHoleCards.toNat := by
      intro l hl
      obtain ⟨x, hx, rfl⟩ := List.mem_map.1 hl
      obtain ⟨i, hi, rfl⟩ := (mem_getD []).1 hx
      exact g1 i (by rw [← s1]; exact hi)
    rw [List.length_flatten, List.eq_replicate_of_mem this, List.length_map, s1, List.sum_replicate_nat]
  unfold allCards at hsz
  rw [List.length_append, List.length_append, hfl] at hsz
  push_cast at hsz he
  have hsz' : (d.cfg.numPlayers : Int) * d.cfg.numHoleCards.toNat + d.communityCards.length + d.deck.cards.length =
    d.cfg.numSuits * d.cfg.numRanks := hsz
  zify
  linarith

theorem step_dealt {d : Dealer} (hd : Seated d) (h : Dealt d) (bet : PyNum) : Dealt (d.step bet).1 := by
  cases ha : d.action with
  | none => rw [step_none ha]; exact h
  | some a =>
    rcases step_some ha bet with ⟨e, -, h2⟩ | ⟨b, e, -, -, h2⟩ | ⟨b, c, lo, hi, -, -, h2⟩
    · rw [h2]; exact h
    · rw [h2]; exact h
    · rw [h2]
      have hx := afterBet_dealt hd h (by simp [ha]) bet.isNeg c (cleanBet b c lo hi)
      have hxs := afterBet_seated hd bet.isNeg c (cleanBet b c lo hi)
      rcases finish_cases (d.afterBet bet.isNeg c (cleanBet b c lo hi)) with ⟨e, -, h3⟩ | ⟨p, -, -, h3, -⟩ | ⟨p, -, -, h3, -⟩
      · rw [h3]; exact hx
      · rw [h3]
        exact hx.congr rfl rfl rfl rfl rfl (.inr rfl)
      · rw [h3]; exact hx

/-- Every dealer object keeps its cards together. -/
theorem reachable_dealt {d : Dealer} (h : Reachable d) : Dealt d := by
  induction h with
  | new hs h => exact new_dealt hs h
  | reset rb rs hs hr ih => exact reset_dealt (reachable_seated hr) ih rb rs hs
  | step bet hr ih => exact step_dealt (reachable_seated hr) ih bet
  | trick hr hp ht ih =>
    obtain ⟨e1, e2⟩ := Deck.trick_same ht
    refine ⟨Deck.trick_wf ih.wf hp ht, by simp only [e1]; exact ih.full, ih.suits, ih.ranks, ?_, ih.shape⟩
    unfold allCards
    simp only [e1, e2]
    exact ih.perm
  | untrick hr ih =>
    exact ⟨⟨ih.wf.len, ih.wf.nodup, by simp [Deck.untrick], by simp [Deck.untrick], by simp [Deck.untrick]⟩, ih.full,
      ih.suits, ih.ranks, ih.perm, ih.shape⟩

end Clubs
