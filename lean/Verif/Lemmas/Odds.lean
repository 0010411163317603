import Verif.Spec.Odds
import Verif.Lemmas.Dealing
import Verif.Lemmas.Showdown
import Verif.Lemmas.Lists
import Verif.Props.Evaluator

/-!
# Helper lemmas for winning chances and for the hands at a showdown
-/

namespace Clubs

open Spec

/-- cards out of the deck are a hand in the sense of the evaluator theorems -/
theorem subperm_hand {s r : Nat} (hs : s ≤ 4) (hr : r ≤ 13) {L : List Card} (h : L.Subperm (deckList s r)) :
    ∃ ps : List (Nat × Nat), IsHand s r L.length ps ∧ L = ps.map fun p => mkCard p.1 p.2 := by
  have hmem : ∀ c ∈ L, ∃ p : Nat × Nat, (13 - r ≤ p.1 ∧ p.1 < 13) ∧ p.2 < s ∧ c = mkCard p.1 p.2 := by
    intro c hc
    obtain ⟨k, u, h1, h2, h3, rfl⟩ := (mem_deckList hr).1 (h.subset hc)
    exact ⟨(k, u), ⟨h1, h2⟩, h3, rfl⟩
  have hex : ∀ L : List Card, (∀ c ∈ L, ∃ p : Nat × Nat, (13 - r ≤ p.1 ∧ p.1 < 13) ∧ p.2 < s ∧ c = mkCard p.1 p.2) →
      ∃ ps : List (Nat × Nat), (∀ p ∈ ps, (13 - r ≤ p.1 ∧ p.1 < 13) ∧ p.2 < s) ∧ L = ps.map fun p => mkCard p.1 p.2 := by
    intro L
    induction L with
    | nil => intro _; exact ⟨[], by simp, rfl⟩
    | cons c L ih =>
      intro hc
      obtain ⟨ps, h1, h2⟩ := ih (fun x hx => hc x (by simp [hx]))
      obtain ⟨p, h3, h4, h5⟩ := hc c (by simp)
      refine ⟨p :: ps, ?_, by rw [h5, h2]; rfl⟩
      intro q hq
      rcases List.mem_cons.1 hq with rfl | hq
      · exact ⟨h3, h4⟩
      · exact h1 q hq
  obtain ⟨ps, h1, h2⟩ := hex L hmem
  refine ⟨ps, ⟨by rw [h2]; simp, ?_, h1⟩, h2⟩
  have hn : L.Nodup := by
    have h3 := (deckList_int_nodup s r (by omega) (by omega)).of_map
    obtain ⟨l, hl, hsub⟩ := h
    exact (hl.nodup_iff).1 (h3.sublist hsub)
  rw [h2] at hn
  exact hn.of_map

/-- Cards of the table's deck can be evaluated. -/
theorem evaluate_ok {d : Dealer} (hd : Dealt d) (hg : GoodEvaluator d.cfg) (hm : 0 ≤ d.cfg.mandatoryNumHoleCards)
    (hmc : d.cfg.mandatoryNumHoleCards ≤ d.cfg.numCardsForHand) {hole comm : List Card}
    (h : (hole ++ comm).Subperm d.deck.fullDeck) :
    ∃ v, d.cfg.evaluator.evaluate hole comm = .ok v ∧
      (∀ sel, Selection d.cfg.numCardsForHand d.cfg.mandatoryNumHoleCards hole comm sel →
        ∃ w, d.cfg.evaluator.table.lookup sel = .ok w ∧ v ≤ w) ∧
      ((∃ sel, Selection d.cfg.numCardsForHand d.cfg.mandatoryNumHoleCards hole comm sel) →
        ∃ sel, Selection d.cfg.numCardsForHand d.cfg.mandatoryNumHoleCards hole comm sel ∧
          d.cfg.evaluator.table.lookup sel = .ok v) := by
  obtain ⟨low, order, he, ho⟩ := hg
  have hc := (Evaluator.new_table he).2.2.2
  have h1 := hd.suits
  have h2 := hd.ranks
  rw [hd.full] at h
  obtain ⟨ps, hp, he2⟩ := subperm_hand (by omega) (by omega) h
  obtain ⟨ps, qs, rfl, rfl, rfl⟩ := List.append_eq_map_iff.1 he2
  have ha : AreCards (ps ++ qs) := fun p hp' => by have := hp.2.2 p hp'; omega
  have e1 : ((d.cfg.numSuits.toNat : Nat) : Int) = d.cfg.numSuits := by omega
  have e2 : ((d.cfg.numRanks.toNat : Nat) : Int) = d.cfg.numRanks := by omega
  have e3 : ((d.cfg.numCardsForHand.toNat : Nat) : Int) = d.cfg.numCardsForHand := by omega
  have e4 : ((d.cfg.mandatoryNumHoleCards.toNat : Nat) : Int) = d.cfg.mandatoryNumHoleCards := by omega
  have := C13_real_cards d.cfg.numSuits.toNat d.cfg.numRanks.toNat d.cfg.numCardsForHand.toNat (by omega) (by omega)
    (by omega) d.cfg.mandatoryNumHoleCards.toNat (by omega) low order ho d.cfg.evaluator (by rw [e1, e2, e3, e4]; exact he)
    ps qs _ hp _ _ (denotes_mk ps fun p hp' => ha p (by simp [hp'])) (denotes_mk qs fun p hp' => ha p (by simp [hp']))
  rw [e3, e4] at this
  exact this

/-- the hole cards of a seat, the board, and some of the cards left are different cards of the deck -/
theorem seat_subperm {d : Dealer} (hd : Dealt d) {i : Nat} (hi : i < d.holeCards.length) {extra : List Card}
    (he : extra.Sublist d.deck.cards) :
    (d.holeCards.getD i [] ++ (d.communityCards ++ extra)).Subperm d.deck.fullDeck := by
  refine List.Subperm.trans ?_ hd.perm.subperm
  unfold allCards
  rw [← List.append_assoc]
  apply List.Sublist.subperm
  refine List.Sublist.append (List.Sublist.append ?_ (List.Sublist.refl _)) he
  rw [getD_eq _ _ _ hi]
  exact List.sublist_flatten_of_mem (List.getElem_mem hi)

theorem combinations_perm_sublistsLen {α : Type} (k : Nat) (l : List α) : (combinations k l).Perm (List.sublistsLen k l) := by
  induction l generalizing k with
  | nil => cases k <;> simp [combinations]
  | cons x l ih =>
    cases k with
    | zero => simp [combinations]
    | succ k =>
      rw [List.sublistsLen_succ_cons, combinations]
      exact (List.perm_append_comm).trans ((ih (k + 1)).append ((ih k).map _))

/-! ## the smallest element -/

theorem foldl_min_le (l : List Int) (x : Int) : l.foldl min x ≤ x ∧ ∀ y ∈ l, l.foldl min x ≤ y := by
  induction l generalizing x with
  | nil => simp
  | cons a l ih =>
    rw [List.foldl_cons]
    obtain ⟨h1, h2⟩ := ih (min x a)
    refine ⟨by omega, ?_⟩
    intro y hy
    rcases List.mem_cons.1 hy with rfl | hy
    · omega
    · exact h2 y hy

theorem foldl_min_mem (l : List Int) (x : Int) : l.foldl min x = x ∨ l.foldl min x ∈ l := by
  induction l generalizing x with
  | nil => simp
  | cons a l ih =>
    rw [List.foldl_cons]
    rcases ih (min x a) with h | h
    · rcases le_total x a with hle | hle
      · left; rw [h]; omega
      · right; rw [h, show min x a = a by omega]; simp
    · right; simp [h]

theorem pyMin_le {l : List Int} {y : Int} (h : y ∈ l) : pyMin l ≤ y := by
  cases l with
  | nil => simp at h
  | cons a l =>
    rcases List.mem_cons.1 h with rfl | h
    · exact (foldl_min_le l y).1
    · exact (foldl_min_le l a).2 y h

theorem pyMin_mem {l : List Int} (h : l ≠ []) : pyMin l ∈ l := by
  cases l with
  | nil => exact absurd rfl h
  | cons a l =>
    rcases foldl_min_mem l a with h | h
    · simp [pyMin, h]
    · simp [pyMin, h]

/-! ## counting -/

/-- `evalHands`, seat by seat -/
theorem evalHands_get {d : Dealer} {board : List Card} {T : List Int}
    (h : d.evalHands d.holeCards board = .ok T) :
    T.length = d.cfg.numPlayers ∧ ∀ i < d.cfg.numPlayers,
      (isIn d i → rankOn d board i = some (T.getD i 0) ∧ T.getD i 0 < d.worstHand) ∧
      (¬ isIn d i → rankOn d board i = none ∧ T.getD i 0 = d.worstHand) := by
  unfold Dealer.evalHands at h
  rw [mapM_ok_iff] at h
  have hlen := h.length_eq
  rw [List.length_range] at hlen
  refine ⟨hlen.symm, fun i hi => ?_⟩
  have := List.Forall₂.get h (i := i) (by simpa using hi) (by omega)
  simp only [List.get_eq_getElem, List.getElem_range] at this
  rw [getD_eq T i 0 (by omega)]
  unfold rankOn
  constructor
  · intro ha
    rw [if_pos (show d.active.getD i false = true from ha)] at this
    rw [if_pos ha]
    split at this
    · simp at this
    · next hole hh =>
      rw [List.getD_eq_getElem?_getD, hh, Option.getD_some, this]
      refine ⟨rfl, ?_⟩
      have := evaluate_le this
      unfold Dealer.worstHand
      omega
  · intro ha
    rw [if_neg (show ¬ d.active.getD i false = true from ha), Except.ok.injEq] at this
    rw [if_neg ha]
    exact ⟨rfl, this.symm⟩

/-- a seat with the smallest value is one that wins -/
theorem best_iff {d : Dealer} {board : List Card} {T : List Int} (hone : ∃ i < d.cfg.numPlayers, isIn d i)
    (h : d.evalHands d.holeCards board = .ok T) (i : Nat) (hi : i < d.cfg.numPlayers) :
    T.getD i 0 = pyMin T ↔ bestOn d board i = true := by
  obtain ⟨hl, hT⟩ := evalHands_get h
  have hge : ∀ j < d.cfg.numPlayers, pyMin T ≤ T.getD j 0 := by
    intro j hj
    rw [getD_eq _ _ _ (by omega)]
    exact pyMin_le (List.getElem_mem _)
  obtain ⟨p, hp, hpin⟩ := hone
  have hlt : pyMin T < d.worstHand := by
    have h1 := hge p hp
    have h2 := ((hT p hp).1 hpin).2
    omega
  unfold bestOn
  by_cases hin : isIn d i
  · rw [((hT i hi).1 hin).1]
    simp only [List.all_eq_true, List.mem_range]
    constructor
    · intro e j hj
      by_cases hjin : isIn d j
      · rw [((hT j hj).1 hjin).1]
        simp only [decide_eq_true_eq]
        rw [e]; exact hge j hj
      · rw [((hT j hj).2 hjin).1]
    · intro hall
      obtain ⟨j, hj, hjm⟩ := (mem_getD 0).1 (pyMin_mem (l := T) (by rintro rfl; simp at hl; omega))
      rw [hl] at hj
      have hjin : isIn d j := by
        by_contra hjn
        have := ((hT j hj).2 hjn).2
        omega
      have := hall j hj
      rw [((hT j hj).1 hjin).1] at this
      simp only [decide_eq_true_eq] at this
      have h3 := hge i hi
      omega
  · rw [((hT i hi).2 hin).1]
    constructor
    · intro e
      have := ((hT i hi).2 hin).2
      omega
    · simp

/-- the loop over the boards -/
theorem countWins_fold {d : Dealer} (hone : ∃ i < d.cfg.numPlayers, isIn d i) (L : List (List Card)) (w w' : List Nat)
    (hw : w.length = d.cfg.numPlayers) (h : L.foldlM d.countWins w = .ok w') :
    w'.length = d.cfg.numPlayers ∧ (∀ i < d.cfg.numPlayers,
      w'.getD i 0 = w.getD i 0 + L.countP fun e => bestOn d (d.communityCards ++ e) i) ∧
    ∀ e ∈ L, ∃ T, d.evalHands d.holeCards (d.communityCards ++ e) = .ok T := by
  induction L generalizing w with
  | nil =>
    simp only [List.foldlM_nil, pure, Except.pure, Except.ok.injEq] at h
    subst h
    exact ⟨hw, by simp, by simp⟩
  | cons e L ih =>
    rw [List.foldlM_cons] at h
    cases hT : d.evalHands d.holeCards (d.communityCards ++ e) with
    | error x => simp [Dealer.countWins, hT, bind, Except.bind] at h
    | ok T =>
      simp only [Dealer.countWins, hT, bind, Except.bind] at h
      have hTl := (evalHands_get hT).1
      obtain ⟨h1, h2, h3⟩ := ih _ (by simp [hw, hTl]) h
      refine ⟨h1, ?_, ?_⟩
      · intro i hi
        rw [h2 i hi, getD_zipWith _ _ _ _ 0 0 _ (by omega) (by omega), List.countP_cons]
        have := best_iff hone hT i hi
        by_cases hb : bestOn d (d.communityCards ++ e) i = true
        · rw [if_pos (this.2 hb), if_pos hb]; omega
        · rw [if_neg (fun x => hb (this.1 x)), if_neg hb]; omega
      · intro x hx
        rcases List.mem_cons.1 hx with rfl | hx
        · exact ⟨T, hT⟩
        · exact h3 x hx

theorem countWins_total {d : Dealer} (L : List (List Card)) (w : List Nat)
    (h : ∀ e ∈ L, ∃ T, d.evalHands d.holeCards (d.communityCards ++ e) = .ok T) :
    ∃ w', L.foldlM d.countWins w = .ok w' := by
  induction L generalizing w with
  | nil => exact ⟨w, rfl⟩
  | cons e L ih =>
    obtain ⟨T, hT⟩ := h e (by simp)
    rw [List.foldlM_cons]
    simp only [Dealer.countWins, hT, bind, Except.bind]
    exact ih _ (fun x hx => h x (by simp [hx]))

/-- with every board at least one seat wins -/
theorem numBest_pos {d : Dealer} {board : List Card} {T : List Int} (hone : ∃ i < d.cfg.numPlayers, isIn d i)
    (h : d.evalHands d.holeCards board = .ok T) : 1 ≤ numBest d board := by
  obtain ⟨hl, hT⟩ := evalHands_get h
  obtain ⟨p, hp, hpin⟩ := hone
  obtain ⟨j, hj, hjm⟩ := (mem_getD 0).1 (pyMin_mem (l := T) (by rintro rfl; simp at hl; omega))
  rw [hl] at hj
  have := (best_iff ⟨p, hp, hpin⟩ h j hj).1 hjm
  unfold numBest
  rw [Nat.one_le_iff_ne_zero, Ne, List.countP_eq_zero]
  intro hh
  exact hh j (List.mem_range.2 hj) this

theorem countP_swap {α β : Type} (p : α → β → Bool) (A : List α) (B : List β) :
    (A.map fun a => B.countP (p a)).sum = (B.map fun b => A.countP (fun a => p a b)).sum := by
  induction A with
  | nil => simp
  | cons a A ih =>
    rw [List.map_cons, List.sum_cons, ih]
    clear ih
    induction B with
    | nil => simp
    | cons b B ih =>
      rw [List.countP_cons, List.map_cons, List.sum_cons, List.map_cons, List.sum_cons, List.countP_cons]
      omega

/-- all wins together, counted by seats and by boards -/
theorem wins_total (d : Dealer) :
    ((List.range d.cfg.numPlayers).map (timesBest d)).sum = ((boards d).map (numBest d)).sum := by
  unfold timesBest numBest
  exact countP_swap (fun i b => bestOn d b i) _ _

theorem sum_ge_length (l : List (List Card)) (f : List Card → Nat) (h : ∀ x ∈ l, 1 ≤ f x) : l.length ≤ (l.map f).sum := by
  induction l with
  | nil => simp
  | cons a l ih =>
    rw [List.length_cons, List.map_cons, List.sum_cons]
    have := h a (by simp)
    have := ih (fun x hx => h x (by simp [hx]))
    omega

theorem boards_length (d : Dealer) : (boards d).length = d.deck.cards.length.choose (toCome d).toNat := by
  unfold boards
  rw [List.length_map, List.length_sublistsLen]

/-- what `win_probabilities` computes -/
theorem winProbabilities_eq {d : Dealer} (hone : ∃ i < d.cfg.numPlayers, isIn d i) {ps : List Rat}
    (h : d.winProbabilities = .ok ps) :
    ps = (List.range d.cfg.numPlayers).map (fun i => (timesBest d i : Rat) /
      ((((List.range d.cfg.numPlayers).map (timesBest d)).sum : Nat) : Rat)) ∧
    0 ≤ toCome d ∧ (∀ b ∈ boards d, ∃ T, d.evalHands d.holeCards b = .ok T) ∧
    ((List.range d.cfg.numPlayers).map (timesBest d)).sum ≠ 0 := by
  unfold Dealer.winProbabilities at h
  unfold combinationsInt at h
  split at h
  · simp at h
  next combs hc =>
  split at hc
  · simp at hc
  next hneg =>
  simp only [Except.ok.injEq] at hc
  split at h
  · simp at h
  next wins hw =>
  subst hc
  obtain ⟨h1, h2, h3⟩ := countWins_fold hone _ _ _ (by simp) hw
  have hwins : wins = (List.range d.cfg.numPlayers).map (timesBest d) := by
    apply ext_getD 0 (by simp [h1])
    intro i hi
    rw [h1] at hi
    rw [h2 i hi, getD_replicate _ _ _ _ hi, Nat.zero_add, getD_map _ _ _ 0 _ (by simpa using hi),
      getD_eq _ _ _ (by simpa using hi), List.getElem_range]
    unfold timesBest boards
    rw [List.countP_map]
    exact (combinations_perm_sublistsLen _ _).countP_eq _
  obtain ⟨p, hp, hpin⟩ := hone
  split at h
  · simp at h
  next hz =>
  simp only [Except.ok.injEq] at h
  rw [hwins] at h hz
  refine ⟨?_, by unfold toCome; omega, ?_, ?_⟩
  · rw [← h, List.map_map]; rfl
  · intro b hb
    unfold boards at hb
    obtain ⟨e, he, rfl⟩ := List.mem_map.1 hb
    exact h3 e ((combinations_perm_sublistsLen _ _).mem_iff.2 he)
  · intro h0; exact hz ⟨h0, by omega⟩

end Clubs
