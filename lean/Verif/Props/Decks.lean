import Verif.Lemmas.Deck

/-! # C03, C04, C05: decks -/

namespace Clubs

open Spec

/-! ## C03 -/

/-- C03: which decks exist, and which exception is raised otherwise. -/
theorem C03_constructs (s r : Int) (shuf : Shuffle) :
    ((∃ d, Deck.new s r shuf = .ok d) ↔ (1 ≤ r ∧ r ≤ 13) ∧ (1 ≤ s ∧ s ≤ 4)) ∧
    (Deck.new s r shuf = .error .invalidRank ↔ ¬ (1 ≤ r ∧ r ≤ 13)) ∧
    (Deck.new s r shuf = .error .invalidSuit ↔ (1 ≤ r ∧ r ≤ 13) ∧ ¬ (1 ≤ s ∧ s ≤ 4)) := by
  rw [Deck.new_eq]
  by_cases h1 : r < 1 ∨ r > 13
  · rw [if_pos h1]; simp; omega
  · rw [if_neg h1]
    by_cases h2 : s < 1 ∨ s > 4
    · rw [if_pos h2]; simp; omega
    · rw [if_neg h2]; simp; omega

/-- C03: a new deck holds `s * r` pairwise different cards, namely the cards of the `r` highest ranks
in the first `s` suits, each once. -/
theorem C03_contents (s r : Int) (shuf : Shuffle) (hshuf : IsShuffle shuf) (d : Deck)
    (h : Deck.new s r shuf = .ok d) :
    (d.cards.length : Int) = s * r ∧
    d.cards.Pairwise (fun a b => a.eq b = false) ∧
    (∀ c, c ∈ d.cards ↔ ∃ k u : Nat, (13 - r ≤ k ∧ k < 13) ∧ u < s ∧
      Card.new [rankSymbol k, suitLetter u] = .ok c) := by
  rw [Deck.new_eq] at h
  split at h
  · simp at h
  split at h
  · simp at h
  next h1 h2 =>
  simp only [Except.ok.injEq] at h
  subst h
  have hp : (shuf (deckList s.toNat r.toNat)).Perm (deckList s.toNat r.toNat) := hshuf _
  refine ⟨?_, ?_, ?_⟩
  · show (((shuf (deckList s.toNat r.toNat)).length : Nat) : Int) = s * r
    rw [hp.length_eq, deckList_length]
    push_cast
    rw [Int.toNat_of_nonneg (by omega), Int.toNat_of_nonneg (by omega)]
  · show (shuf (deckList s.toNat r.toNat)).Pairwise _
    have hn : ((shuf (deckList s.toNat r.toNat)).map Card.int).Nodup :=
      ((hp.map Card.int).nodup_iff).2 (deckList_int_nodup _ _ (by omega) (by omega))
    rw [List.Nodup, List.pairwise_map] at hn
    exact hn.imp (fun h => by simpa [Card.eq] using h)
  · intro c
    show c ∈ shuf (deckList s.toNat r.toNat) ↔ _
    rw [hp.mem_iff, mem_deckList (by omega)]
    have all : ∀ k < 13, ∀ u < 4, Card.new [rankSymbol k, suitLetter u] = .ok (mkCard k u) := by
      decide +kernel
    constructor
    · rintro ⟨k, u, a, b, c', rfl⟩
      exact ⟨k, u, ⟨by omega, b⟩, by omega, all k b u (by omega)⟩
    · rintro ⟨k, u, ⟨a, b⟩, c', e⟩
      rw [all k b u (by omega)] at e
      simp only [Except.ok.injEq] at e
      exact ⟨k, u, by omega, b, by omega, e.symm⟩

/-- non-trivial instance: the 6 cards of a Leduc deck -/
example : ∃ d, Deck.new 2 3 id = .ok d ∧ d.cards.length = 6 :=
  ⟨_, rfl, by decide +kernel⟩

/-! ## C04 -/

/-- C04: after any sequence of calls, cards drawn since the last shuffle and cards left make up the
full deck. -/
theorem C04_conservation (s r : Int) (shuf : Shuffle) (hshuf : IsShuffle shuf) (d : Deck)
    (h : Deck.new s r shuf = .ok d) (ops : List DeckOp) (hops : ∀ o ∈ ops, o.Legal) :
    let run := runDeck ⟨d, []⟩ ops
    (run.drawn ++ run.deck.cards).Perm d.fullDeck ∧ d.cards.Perm d.fullDeck := by
  have hd : d.cards.Perm d.fullDeck := by
    have h' := h
    rw [Deck.new_eq] at h'
    split at h'
    · simp at h'
    split at h'
    · simp at h'
    simp only [Except.ok.injEq] at h'
    subst h'
    exact hshuf _
  exact ⟨(runDeck_inv ops hops (Deck.new_wf h) (by simpa using hd)).2.2, hd⟩

/-- C04: no card is ever drawn twice between two shuffles. -/
theorem C04_no_duplicates (s r : Int) (shuf : Shuffle) (hshuf : IsShuffle shuf) (d : Deck)
    (h : Deck.new s r shuf = .ok d) (ops : List DeckOp) (hops : ∀ o ∈ ops, o.Legal) :
    ((runDeck ⟨d, []⟩ ops).drawn ++ (runDeck ⟨d, []⟩ ops).deck.cards).Pairwise
      (fun a b => a.eq b = false) := by
  have hp := (C04_conservation s r shuf hshuf d h ops hops).1
  have hn := ((hp.map Card.int).nodup_iff).2 (Deck.new_wf h).nodup
  rw [List.Nodup, List.pairwise_map] at hn
  exact hn.imp (fun h => by simpa [Card.eq] using h)

/-- C04: `draw(n)` returns `min(n, len)` cards from the top, in order (none for negative `n`). -/
theorem C04_draw (d : Deck) (n : Int) :
    (d.draw n).1 ++ (d.draw n).2.cards = d.cards ∧
    ((d.draw n).1.length : Int) = max 0 (min n d.len) ∧
    ((d.draw n).2.len : Int) = d.len - max 0 (min n d.len) := by
  rw [Deck.draw_eq]
  refine ⟨List.take_append_drop _ _, ?_, ?_⟩
  · simp only [Deck.len, List.length_take]; omega
  · simp only [Deck.len, List.length_drop]; omega

example : ∃ d, Deck.new 1 5 id = .ok d ∧
    ((runDeck ⟨d, []⟩ [.draw 2, .shuffle List.reverse, .draw 3]).drawn.map Card.str) =
      [['A', '♠'], ['K', '♠'], ['Q', '♠']] := ⟨_, rfl, by decide +kernel⟩

/-- Without the assumption that a tricked list has no card twice cards are duplicated. -/
theorem C04_duplicate_trick_false :
    ∃ d d', Deck.new 1 3 id = .ok d ∧ ∃ c ∈ d.cards, d.trick [c, c] = .ok d' ∧
      ¬ (d'.shuffle id).cards.Perm d.fullDeck := by
  refine ⟨_, _, rfl, mkCard 12 0, by decide +kernel, rfl, ?_⟩
  intro h
  have := h.length_eq
  revert this
  decide +kernel

/-! ## C05 -/

/-- C05: after `trick(top)`, every later shuffle puts `top` on top, whatever draws and shuffles come
in between, and below it are the other cards of the deck. Missing from the full property: the case
where `top` is the whole deck (`C05_whole_deck_false`). -/
theorem C05_trick_partial (s r : Int) (shuf : Shuffle) (d : Deck)
    (h : Deck.new s r shuf = .ok d) (ops : List DeckOp) (hops : ∀ o ∈ ops, o.Legal)
    (top : List Card) (hmem : ∀ c ∈ top, c ∈ d.fullDeck)
    (hdist : top.Pairwise (fun a b => a.eq b = false)) (hlen : top.length < d.fullDeck.length) :
    ∃ d', (runDeck ⟨d, []⟩ ops).deck.trick top = .ok d' ∧
      ∀ later : List DeckOp, (∀ o ∈ later, o.Legal ∧ o.isDrawOrShuffle) →
      ∀ shuf', IsShuffle shuf' →
        ∃ rest, ((runDeck ⟨d', (runDeck ⟨d, []⟩ ops).drawn⟩ later).deck.shuffle shuf').cards = top ++ rest ∧
          (top ++ rest).Perm d.fullDeck := by
  obtain ⟨hw, hfull⟩ := runDeck_wf (s := ⟨d, []⟩) ops hops (Deck.new_wf h)
  simp only at hfull
  rw [← hfull] at hmem hlen
  obtain ⟨idcs, hf, ht⟩ := Deck.trick_ok hmem
  refine ⟨_, ht, ?_⟩
  intro later hlater shuf' hshuf'
  have hw' := Deck.trick_wf hw hdist ht
  obtain ⟨e1, e2, e3, e4⟩ := runDeck_trick_same
    (s := ⟨_, (runDeck ⟨d, []⟩ ops).drawn⟩) later (fun o ho => (hlater o ho).2)
  obtain ⟨hw'', -⟩ := runDeck_wf (s := ⟨_, (runDeck ⟨d, []⟩ ops).drawn⟩) later
    (fun o ho => (hlater o ho).1) hw'
  have hperm := (Deck.shuffle_perm hw'' hshuf').trans (List.Perm.of_eq (e4.trans hfull))
  simp only at hperm e1 e2 e3 e4
  by_cases hne : top = []
  · subst hne
    exact ⟨_, (List.nil_append _).symm, by simpa using hperm⟩
  · have h1 : idcs ≠ [] := by
      rintro rfl; cases hf; exact hne rfl
    have hi := trick_idcs hf
    have h2 : (List.range ((runDeck ⟨d, []⟩ ops).deck.numRanks * (runDeck ⟨d, []⟩ ops).deck.numSuits)).filter
        (fun i => !idcs.contains i) ≠ [] := by
      intro h2
      have hp := (top_bottom_perm hi.1 (hi.2.1 hdist)).length_eq
      rw [hw.len, h2, List.append_nil, List.length_range, ← hf.length_eq, ← hw.len] at hp
      omega
    have hcards : ∀ D : Deck, D.topIdcs = idcs →
        D.bottomIdcs = (List.range ((runDeck ⟨d, []⟩ ops).deck.numRanks *
          (runDeck ⟨d, []⟩ ops).deck.numSuits)).filter (fun i => !idcs.contains i) →
        D.tricked = true → D.fullDeck = (runDeck ⟨d, []⟩ ops).deck.fullDeck →
        ∃ rest, (D.shuffle shuf').cards = top ++ rest := by
      intro D d1 d2 d3 d4
      unfold Deck.shuffle
      rw [if_pos]
      · refine ⟨shuf' (D.bottomIdcs.filterMap (D.fullDeck[·]?)), ?_⟩
        · show D.topIdcs.filterMap (D.fullDeck[·]?) ++ _ = _
          rw [d1, d4, trick_idcs_exact hw.nodup hmem hf]
      · rw [d1, d2, d3, List.isEmpty_eq_false_iff.2 h1, List.isEmpty_eq_false_iff.2 h2]; rfl
    obtain ⟨rest, hr⟩ := hcards _ e1 e2 e3 e4
    refine ⟨rest, hr, ?_⟩
    rw [← hr]; exact hperm

/-- non-trivial instance of the hypotheses: two cards of a three-card deck -/
example : ∃ d, Deck.new 1 3 id = .ok d ∧ ∃ top : List Card, top.length = 2 ∧ (∀ c ∈ top, c ∈ d.fullDeck) ∧
    top.Pairwise (fun a b => a.eq b = false) ∧ top.length < d.fullDeck.length :=
  ⟨_, rfl, [mkCard 12 0, mkCard 11 0], by decide +kernel, by decide +kernel, by decide +kernel,
    by decide +kernel⟩

/-- C05 is false when the whole deck is given: the order is ignored and the deck shuffled. -/
theorem C05_whole_deck_false :
    ∃ (d d' : Deck) (top : List Card), Deck.new 1 2 id = .ok d ∧ (∀ c ∈ top, c ∈ d.fullDeck) ∧
      top.Pairwise (fun a b => a.eq b = false) ∧ d.trick top = .ok d' ∧
      IsShuffle List.reverse ∧ (d'.shuffle List.reverse).cards ≠ top := by
  refine ⟨_, _, [mkCard 11 0, mkCard 12 0], rfl, by decide +kernel, by decide +kernel, rfl,
    fun l => List.reverse_perm l, by decide +kernel⟩

/-- C05: `untrick` removes the tricking. -/
theorem C05_untrick (d : Deck) (shuf : Shuffle) :
    (d.untrick.shuffle shuf).cards = shuf d.fullDeck := by
  simp [Deck.untrick, Deck.shuffle]

/-- C05: a card that is not in the deck raises `ValueError` (the deck is then unchanged, since
`trick` only assigns after all indices have been found), and nothing else raises. -/
theorem C05_trick_rejects (d : Deck) (top : List Card) :
    (d.trick top = .error .valueError ↔ ∃ c ∈ top, ∀ x ∈ d.fullDeck, x.eq c = false) ∧
    ((∃ d', d.trick top = .ok d') ↔ ∀ c ∈ top, ∃ x ∈ d.fullDeck, x.eq c = true) := by
  cases hm : top.mapM (cardIndex d.fullDeck) with
  | error e =>
    obtain ⟨a, ha, he⟩ := mapM_error _ _ _ hm
    obtain ⟨rfl, hne⟩ := cardIndex_error he
    have ht : d.trick top = .error .valueError := by simp [Deck.trick, hm]
    rw [ht]
    refine ⟨⟨fun _ => ⟨a, ha, hne⟩, fun _ => rfl⟩, ⟨by simp, ?_⟩⟩
    intro hall
    obtain ⟨x, hx, hx'⟩ := hall a ha
    rw [hne x hx] at hx'; simp at hx'
  | ok idcs =>
    have hf := (mapM_ok_iff _ _ _).1 hm
    have hall : ∀ c ∈ top, ∃ x ∈ d.fullDeck, x.eq c = true := by
      intro c hc
      obtain ⟨i, hi⟩ : ∃ i, cardIndex d.fullDeck c = .ok i := by
        clear hm
        induction hf with
        | nil => simp at hc
        | cons h1 h2 ih =>
          rcases List.mem_cons.1 hc with rfl | hc
          · exact ⟨_, h1⟩
          · exact ih hc
      obtain ⟨hlt, he⟩ := cardIndex_ok hi
      exact ⟨_, List.getElem_mem hlt, by simp [Card.eq, he]⟩
    constructor
    · constructor
      · intro h; simp [Deck.trick, hm] at h
      · rintro ⟨c, hc, hne⟩
        obtain ⟨x, hx, hx'⟩ := hall c hc
        rw [hne x hx] at hx'; simp at hx'
    · exact ⟨fun _ => hall, fun _ => by simp [Deck.trick, hm]⟩

end Clubs
