import Verif.Model.Deck
import Verif.Spec.Decks
import Verif.Lemmas.Card
import Mathlib.Data.List.Nodup
import Mathlib.Data.List.Perm.Basic

/-! Helper lemmas about decks. -/

namespace Clubs

open Spec

/-- the cards of a deck in the order of the constructor -/
def deckList (s r : Nat) : List Card :=
  (List.range r).flatMap fun i => (List.range s).map fun u => mkCard (13 - r + i) u

theorem buildDeck_eq (s r : Nat) (hs : s < 5) (hr : r < 14) : buildDeck s r = .ok (deckList s r) := by
  have : ∀ s < 5, ∀ r < 14, buildDeck s r = .ok (deckList s r) := by decide +kernel
  exact this s hs r hr

theorem mem_deckList {s r : Nat} (hr : r ≤ 13) {c : Card} :
    c ∈ deckList s r ↔ ∃ k u, 13 - r ≤ k ∧ k < 13 ∧ u < s ∧ c = mkCard k u := by
  simp only [deckList, List.mem_flatMap, List.mem_range, List.mem_map]
  constructor
  · rintro ⟨i, hi, u, hu, rfl⟩
    exact ⟨13 - r + i, u, by omega, by omega, hu, rfl⟩
  · rintro ⟨k, u, h1, h2, h3, rfl⟩
    refine ⟨k - (13 - r), by omega, u, h3, ?_⟩
    congr 1; omega

theorem deckList_length (s r : Nat) : (deckList s r).length = s * r := by
  simp [deckList, Nat.mul_comm]

theorem deckList_int_nodup (s r : Nat) (hs : s < 5) (hr : r < 14) :
    ((deckList s r).map Card.int).Nodup := by
  have : ∀ s < 5, ∀ r < 14, ((deckList s r).map Card.int).Nodup := by decide +kernel
  exact this s hs r hr

theorem Deck.new_eq (s r : Int) (shuf : Shuffle) :
    Deck.new s r shuf =
      if r < 1 ∨ r > 13 then .error .invalidRank
      else if s < 1 ∨ s > 4 then .error .invalidSuit
      else .ok
        { numSuits := s.toNat, numRanks := r.toNat, fullDeck := deckList s.toNat r.toNat,
          cards := shuf (deckList s.toNat r.toNat), tricked := false, topIdcs := [],
          bottomIdcs := [] } := by
  unfold Deck.new
  by_cases h1 : r < 1 ∨ r > 13
  · rw [if_pos h1, if_pos h1]
  · rw [if_neg h1, if_neg h1]
    by_cases h2 : s < 1 ∨ s > 4
    · rw [if_pos h2, if_pos h2]
    · rw [if_neg h2, if_neg h2]
      rw [buildDeck_eq _ _ (by omega) (by omega)]
      simp [Deck.shuffle]

/-- What stays true of every deck after construction. -/
structure Deck.WF (d : Deck) : Prop where
  len : d.fullDeck.length = d.numRanks * d.numSuits
  nodup : (d.fullDeck.map Card.int).Nodup
  top_lt : ∀ i ∈ d.topIdcs, i < d.fullDeck.length
  top_nodup : d.topIdcs.Nodup
  bottom : d.tricked = true →
    d.bottomIdcs = (List.range d.fullDeck.length).filter (fun i => !d.topIdcs.contains i)

theorem Deck.WF.cards_nodup {d : Deck} (h : d.WF) : d.fullDeck.Nodup := h.nodup.of_map

theorem Deck.new_wf {s r : Int} {shuf : Shuffle} {d : Deck} (h : Deck.new s r shuf = .ok d) :
    d.WF := by
  rw [Deck.new_eq] at h
  split at h
  · simp at h
  · split at h
    · simp at h
    · next h1 h2 =>
      simp only [Except.ok.injEq] at h
      subst h
      exact {
        len := by simp [deckList_length, Nat.mul_comm]
        nodup := deckList_int_nodup _ _ (by omega) (by omega)
        top_lt := by simp
        top_nodup := by simp
        bottom := by simp }

/-! ## draw -/

theorem drawLoop_eq (n : Nat) (acc cards : List Card) :
    drawLoop n acc cards = (acc ++ cards.take n, cards.drop n) := by
  induction n generalizing acc cards with
  | zero => simp [drawLoop]
  | succ n ih =>
    cases cards with
    | nil => simp [drawLoop]
    | cons c cs => simp [drawLoop, ih]

theorem Deck.draw_eq (d : Deck) (n : Int) :
    d.draw n = (d.cards.take n.toNat, { d with cards := d.cards.drop n.toNat }) := by
  simp [Deck.draw, drawLoop_eq]

/-! ## trick -/

theorem cardIndex_ok {l : List Card} {c : Card} {i : Nat} (h : cardIndex l c = .ok i) :
    ∃ hi : i < l.length, l[i].int = c.int := by
  unfold cardIndex at h
  split at h
  · next j hj =>
    simp only [Except.ok.injEq] at h
    subst h
    rw [List.findIdx?_eq_some_iff_getElem] at hj
    obtain ⟨hi, h1, _⟩ := hj
    exact ⟨hi, by simpa [Card.eq] using h1⟩
  · simp at h

theorem cardIndex_error {l : List Card} {c : Card} {e : Err} (h : cardIndex l c = .error e) :
    e = .valueError ∧ ∀ x ∈ l, x.eq c = false := by
  unfold cardIndex at h
  split at h
  · simp at h
  · next hj =>
    simp only [Except.error.injEq] at h
    exact ⟨h.symm, by simpa using hj⟩

theorem mapM_ok_iff {α β : Type} (f : α → Except Err β) (l : List α) (l' : List β) :
    l.mapM f = .ok l' ↔ List.Forall₂ (fun a b => f a = .ok b) l l' := by
  induction l generalizing l' with
  | nil =>
    constructor
    · intro h
      have : l' = [] := by simpa [List.mapM_nil, pure, Except.pure, eq_comm] using h
      subst this; exact .nil
    · intro h; cases h; rfl
  | cons a l ih =>
    rw [List.mapM_cons]
    constructor
    · intro h
      cases ha : f a with
      | error e => simp [ha, bind, Except.bind] at h
      | ok b =>
        cases hl : l.mapM f with
        | error e => simp [ha, hl, bind, Except.bind] at h
        | ok l'' =>
          simp [ha, hl, bind, Except.bind, pure, Except.pure] at h
          subst h
          exact .cons ha ((ih _).1 hl)
    · intro h
      cases h with
      | cons h1 h2 =>
        rw [h1, (ih _).2 h2]; rfl

theorem mapM_error {α β : Type} (f : α → Except Err β) (l : List α) (e : Err)
    (h : l.mapM f = .error e) : ∃ a ∈ l, f a = .error e := by
  induction l with
  | nil => simp [List.mapM_nil, pure, Except.pure] at h
  | cons a l ih =>
    rw [List.mapM_cons] at h
    cases ha : f a with
    | error e' =>
      simp [ha, bind, Except.bind] at h
      exact ⟨a, by simp, by rw [ha, h]⟩
    | ok b =>
      cases hl : l.mapM f with
      | error e' =>
        simp [ha, hl, bind, Except.bind] at h
        subst h
        obtain ⟨x, hx, hfx⟩ := ih hl
        exact ⟨x, by simp [hx], hfx⟩
      | ok l'' => simp [ha, hl, bind, Except.bind, pure, Except.pure] at h

theorem trick_idcs {l top : List Card} {idcs : List Nat}
    (h : List.Forall₂ (fun a b => cardIndex l a = .ok b) top idcs) :
    (∀ i ∈ idcs, i < l.length) ∧
    (top.Pairwise (fun a b => a.eq b = false) → idcs.Nodup) ∧
    ((idcs.filterMap (l[·]?)).map Card.int = top.map Card.int) := by
  induction h with
  | nil => simp
  | @cons a b top idcs h1 h2 ih =>
    obtain ⟨ih1, ih2, ih3⟩ := ih
    obtain ⟨hb, hb'⟩ := cardIndex_ok h1
    refine ⟨?_, ?_, ?_⟩
    · intro i hi
      rcases List.mem_cons.1 hi with rfl | hi
      · exact hb
      · exact ih1 i hi
    · intro hp
      rw [List.pairwise_cons] at hp
      rw [List.nodup_cons]
      refine ⟨?_, ih2 hp.2⟩
      intro hmem
      have hx : l[b].int ∈ (idcs.filterMap (l[·]?)).map Card.int := by
        rw [List.mem_map]
        refine ⟨l[b], ?_, rfl⟩
        rw [List.mem_filterMap]
        exact ⟨b, hmem, by simp [hb]⟩
      rw [ih3, List.mem_map] at hx
      obtain ⟨y, hy, hy'⟩ := hx
      have := hp.1 y hy
      rw [hb'] at hy'
      simp [Card.eq, hy'] at this
    · simp [hb, hb', ih3]

theorem filterMap_range {α : Type} (l : List α) : (List.range l.length).filterMap (l[·]?) = l := by
  induction l with
  | nil => rfl
  | cons a l ih =>
    rw [List.length_cons, List.range_succ_eq_map, List.filterMap_cons, List.filterMap_map]
    simp only [List.getElem?_cons_zero, List.cons.injEq, true_and]
    exact ih

/-- selecting all positions, in any order, permutes the list -/
theorem filterMap_get_perm {α : Type} (l : List α) (idcs : List Nat)
    (h : idcs.Perm (List.range l.length)) : (idcs.filterMap (l[·]?)).Perm l := by
  have h1 := h.filterMap (l[·]?)
  rwa [filterMap_range] at h1

theorem top_bottom_perm {n : Nat} {idcs : List Nat} (h1 : ∀ i ∈ idcs, i < n) (h2 : idcs.Nodup) :
    (idcs ++ (List.range n).filter (fun i => !idcs.contains i)).Perm (List.range n) := by
  have hn : (idcs ++ (List.range n).filter (fun i => !idcs.contains i)).Nodup := by
    rw [List.nodup_append]
    refine ⟨h2, List.nodup_range.filter _, ?_⟩
    intro a ha b hb
    simp only [List.mem_filter, Bool.not_eq_true', List.contains_eq_mem] at hb
    rintro rfl
    simp [ha] at hb
  rw [List.perm_ext_iff_of_nodup hn List.nodup_range]
  intro a
  simp only [List.mem_append, List.mem_filter, List.mem_range, Bool.not_eq_true',
    List.contains_eq_mem, decide_eq_false_iff_not]
  constructor
  · rintro (h | h)
    · exact h1 a h
    · exact h.1
  · intro h
    by_cases ha : a ∈ idcs
    · exact .inl ha
    · exact .inr ⟨h, ha⟩

theorem Deck.shuffle_perm {d : Deck} (h : d.WF) {shuf : Shuffle} (hs : IsShuffle shuf) :
    (d.shuffle shuf).cards.Perm d.fullDeck := by
  unfold Deck.shuffle
  split
  · next hc =>
    simp only [Bool.and_eq_true] at hc
    show (_ ++ shuf _).Perm _
    refine ((List.Perm.refl _).append (hs _)).trans ?_
    rw [← List.filterMap_append]
    apply filterMap_get_perm
    rw [h.bottom hc.1.1]
    exact top_bottom_perm h.top_lt h.top_nodup
  · exact hs _

theorem Deck.shuffle_wf {d : Deck} (h : d.WF) (shuf : Shuffle) : (d.shuffle shuf).WF := by
  unfold Deck.shuffle
  split <;> exact ⟨h.len, h.nodup, h.top_lt, h.top_nodup, h.bottom⟩

@[simp] theorem Deck.shuffle_fullDeck (d : Deck) (shuf : Shuffle) :
    (d.shuffle shuf).fullDeck = d.fullDeck := by
  unfold Deck.shuffle
  split <;> rfl

theorem Deck.trick_wf {d d' : Deck} (h : d.WF) {top : List Card}
    (hp : top.Pairwise (fun a b => a.eq b = false)) (ht : d.trick top = .ok d') : d'.WF := by
  unfold Deck.trick at ht
  split at ht
  · simp at ht
  · next idcs hi =>
    simp only [Except.ok.injEq] at ht
    subst ht
    rw [mapM_ok_iff] at hi
    obtain ⟨t1, t2, _⟩ := trick_idcs hi
    exact ⟨h.len, h.nodup, t1, t2 hp, fun _ => by simp [h.len]⟩

theorem Deck.trick_same {d d' : Deck} {top : List Card} (ht : d.trick top = .ok d') :
    d'.fullDeck = d.fullDeck ∧ d'.cards = d.cards := by
  unfold Deck.trick at ht
  split at ht
  · simp at ht
  · simp only [Except.ok.injEq] at ht
    subst ht
    exact ⟨rfl, rfl⟩

/-! ## histories -/

theorem deckOp_inv {s : DeckRun} (op : DeckOp) (hop : op.Legal) (hw : s.deck.WF)
    (hp : (s.drawn ++ s.deck.cards).Perm s.deck.fullDeck) :
    (op.apply s).deck.WF ∧ (op.apply s).deck.fullDeck = s.deck.fullDeck ∧
      ((op.apply s).drawn ++ (op.apply s).deck.cards).Perm s.deck.fullDeck := by
  cases op with
  | draw n =>
    simp only [DeckOp.apply, Deck.draw_eq]
    refine ⟨⟨hw.len, hw.nodup, hw.top_lt, hw.top_nodup, hw.bottom⟩, trivial, ?_⟩
    rw [List.append_assoc, List.take_append_drop]
    exact hp
  | shuffle shuf =>
    simp only [DeckOp.apply]
    exact ⟨Deck.shuffle_wf hw shuf, by simp, by simpa using Deck.shuffle_perm hw hop⟩
  | trick top =>
    simp only [DeckOp.apply]
    split
    · next d hd =>
      obtain ⟨e1, e2⟩ := Deck.trick_same hd
      exact ⟨Deck.trick_wf hw hop hd, e1, by rw [e2]; exact hp⟩
    · exact ⟨hw, rfl, hp⟩
  | untrick =>
    simp only [DeckOp.apply]
    exact ⟨⟨hw.len, hw.nodup, by simp [Deck.untrick], by simp [Deck.untrick],
      by simp [Deck.untrick]⟩, rfl, hp⟩

theorem runDeck_inv {s : DeckRun} (ops : List DeckOp) (hop : ∀ o ∈ ops, o.Legal) (hw : s.deck.WF)
    (hp : (s.drawn ++ s.deck.cards).Perm s.deck.fullDeck) :
    (runDeck s ops).deck.WF ∧ (runDeck s ops).deck.fullDeck = s.deck.fullDeck ∧
      ((runDeck s ops).drawn ++ (runDeck s ops).deck.cards).Perm s.deck.fullDeck := by
  induction ops generalizing s with
  | nil => exact ⟨hw, rfl, hp⟩
  | cons o ops ih =>
    obtain ⟨h1, h2, h3⟩ := deckOp_inv o (hop o (by simp)) hw hp
    have := ih (s := o.apply s) (fun o' ho' => hop o' (by simp [ho'])) h1 (by rw [h2]; exact h3)
    simp only [runDeck, List.foldl_cons] at this ⊢
    rwa [h2] at this

theorem deckOp_wf {s : DeckRun} (op : DeckOp) (hop : op.Legal) (hw : s.deck.WF) :
    (op.apply s).deck.WF ∧ (op.apply s).deck.fullDeck = s.deck.fullDeck := by
  cases op with
  | draw n =>
    simp only [DeckOp.apply, Deck.draw_eq]
    exact ⟨⟨hw.len, hw.nodup, hw.top_lt, hw.top_nodup, hw.bottom⟩, trivial⟩
  | shuffle shuf => exact ⟨Deck.shuffle_wf hw shuf, by simp [DeckOp.apply]⟩
  | trick top =>
    simp only [DeckOp.apply]
    split
    · next d hd => exact ⟨Deck.trick_wf hw hop hd, (Deck.trick_same hd).1⟩
    · exact ⟨hw, rfl⟩
  | untrick =>
    exact ⟨⟨hw.len, hw.nodup, by simp [DeckOp.apply, Deck.untrick],
      by simp [DeckOp.apply, Deck.untrick], by simp [DeckOp.apply, Deck.untrick]⟩, rfl⟩

theorem runDeck_wf {s : DeckRun} (ops : List DeckOp) (hop : ∀ o ∈ ops, o.Legal) (hw : s.deck.WF) :
    (runDeck s ops).deck.WF ∧ (runDeck s ops).deck.fullDeck = s.deck.fullDeck := by
  induction ops generalizing s with
  | nil => exact ⟨hw, rfl⟩
  | cons o ops ih =>
    obtain ⟨h1, h2⟩ := deckOp_wf o (hop o (by simp)) hw
    have := ih (s := o.apply s) (fun o' ho' => hop o' (by simp [ho'])) h1
    simp only [runDeck, List.foldl_cons] at this ⊢
    rwa [h2] at this

/-- draws and shuffles do not touch the tricking -/
theorem runDeck_trick_same {s : DeckRun} (ops : List DeckOp) (hop : ∀ o ∈ ops, o.isDrawOrShuffle) :
    (runDeck s ops).deck.topIdcs = s.deck.topIdcs ∧
    (runDeck s ops).deck.bottomIdcs = s.deck.bottomIdcs ∧
    (runDeck s ops).deck.tricked = s.deck.tricked ∧
    (runDeck s ops).deck.fullDeck = s.deck.fullDeck := by
  induction ops generalizing s with
  | nil => exact ⟨rfl, rfl, rfl, rfl⟩
  | cons o ops ih =>
    have h1 := ih (s := o.apply s) (fun o' ho' => hop o' (by simp [ho']))
    have h2 : (o.apply s).deck.topIdcs = s.deck.topIdcs ∧
        (o.apply s).deck.bottomIdcs = s.deck.bottomIdcs ∧
        (o.apply s).deck.tricked = s.deck.tricked ∧
        (o.apply s).deck.fullDeck = s.deck.fullDeck := by
      have ho := hop o (by simp)
      cases o with
      | draw n => simp [DeckOp.apply, Deck.draw_eq]
      | shuffle shuf => simp only [DeckOp.apply, Deck.shuffle]; split <;> simp
      | trick top => exact ho.elim
      | untrick => exact ho.elim
    simp only [runDeck, List.foldl_cons] at h1 ⊢
    rw [h2.1, h2.2.1, h2.2.2.1, h2.2.2.2] at h1
    exact h1

theorem int_inj_of_nodup {l : List Card} (hl : (l.map Card.int).Nodup) {a b : Card} (ha : a ∈ l)
    (hb : b ∈ l) (h : a.int = b.int) : a = b :=
  List.inj_on_of_nodup_map hl ha hb h

theorem trick_idcs_exact {l top : List Card} {idcs : List Nat} (hl : (l.map Card.int).Nodup)
    (hmem : ∀ c ∈ top, c ∈ l)
    (h : List.Forall₂ (fun a b => cardIndex l a = .ok b) top idcs) :
    idcs.filterMap (l[·]?) = top := by
  induction h with
  | nil => rfl
  | @cons a b top idcs h1 h2 ih =>
    obtain ⟨hb, hb'⟩ := cardIndex_ok h1
    have : l[b] = a := int_inj_of_nodup hl (List.getElem_mem hb) (hmem a (by simp)) hb'
    simp [hb, this, ih (fun c hc => hmem c (by simp [hc]))]

theorem Deck.trick_ok {d : Deck} {top : List Card} (hmem : ∀ c ∈ top, c ∈ d.fullDeck) :
    ∃ idcs, List.Forall₂ (fun a b => cardIndex d.fullDeck a = .ok b) top idcs ∧
      d.trick top = .ok { d with
          topIdcs := idcs
          bottomIdcs := (List.range (d.numRanks * d.numSuits)).filter (fun i => !idcs.contains i)
          tricked := true } := by
  cases hm : top.mapM (cardIndex d.fullDeck) with
  | error e =>
    obtain ⟨a, ha, he⟩ := mapM_error _ _ _ hm
    obtain ⟨_, hne⟩ := cardIndex_error he
    have := hne a (hmem a ha)
    simp [Card.eq] at this
  | ok idcs =>
    exact ⟨idcs, (mapM_ok_iff _ _ _).1 hm, by simp [Deck.trick, hm]⟩

end Clubs
