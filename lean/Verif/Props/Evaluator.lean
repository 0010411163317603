import Verif.Lemmas.Eval2

/-!
# Properties C09–C17: the hand evaluator

Every theorem is about tables and evaluators obtained from the constructor (`Evaluator.new`,
`evaluator.py:36-70`), for all numbers of suits, ranks and cards that the package supports
(`1..4`, `1..13`, `1..5`). Hands are lists of different cards of the deck (`Spec.IsHand`), made into card
objects by `Card.new` (`Spec.Denotes`).
-/

namespace Clubs

open Spec

/-! ## C09: construction -/

/-- C09: a hand size outside `1..5` is rejected, whatever the other arguments. -/
theorem C09_hand_size (s r c m : Int) (low : Bool) (order : Option (List String)) (h : c < 1 ∨ 5 < c) :
    Evaluator.new s r c m low order = .error .invalidHandSize := by
  unfold Evaluator.new
  rw [if_pos (by omega)]

/-- C09, as far as it is true: without a custom order the constructor succeeds **exactly** when there
are at most one more cards than ranks and, with the low-ace straight, not exactly as many cards as
ranks (from three on), or in the degenerate case of one suit, the low-ace straight and two more cards than ranks
(where there are no hands). -/
theorem C09_exact_partial (s r c : Nat) (hs : 1 ≤ s ∧ s ≤ 4) (hr : 1 ≤ r ∧ r ≤ 13) (hc : 1 ≤ c ∧ c ≤ 5)
    (m : Int) (low : Bool) :
    (∃ e, Evaluator.new s r c m low none = .ok e) ↔
      (c ≤ r + 1 ∧ ¬ (low = true ∧ c = r ∧ 3 ≤ c)) ∨ (s = 1 ∧ low = true ∧ r + 2 = c) := by
  constructor
  · rintro ⟨e, he⟩
    by_contra hcon
    rw [not_or] at hcon
    have hS : ¬ Shape s r c low := fun h => hcon.1 ⟨h.2.2.2.1, h.2.2.2.2⟩
    have hr5 : r < 6 := by
      by_contra hr5
      apply hS
      refine ⟨hs, hr, hc, by omega, ?_⟩
      rintro ⟨-, h1, -⟩
      omega
    have := (bad_shape_table s (by omega) r hr5 c (by omega) low).resolve_left
      (fun hn => hn ⟨hs.1, hr.1, hc.1, hS, hcon.2⟩)
    rw [(Evaluator.new_table he).1] at this
    simp [isErr] at this
  · rintro (h | ⟨rfl, rfl, h⟩)
    · have hS : Shape s r c low := ⟨hs, hr, hc, h.1, h.2⟩
      have ho : orderedClasses (classCount s r c low) none =
          .ok ((sortHands (CLASS_LIST.map fun k => ((classCount s r c low k).1, k))).map (·.2)) := rfl
      obtain ⟨h1, h2, -⟩ := classes_none ho
      refine new_of_runs hS (by simp) ho h1 h2 ?_ m
      intro k
      by_cases hk : cnt s r c low k = 0
      · left; rw [none_zero hS ho k hk, hk]; rfl
      · right
        have := hS.facts.1 k (mem_classList k)
        unfold cnt at *; omega
    · subst h
      have := (odd_shape_table r (by omega)).resolve_left (fun h => h hr.1)
      cases he : Evaluator.new 1 r ((r + 2 : Nat) : Int) 0 true none with
      | error x => rw [he] at this; simp [isErr] at this
      | ok e =>
        have hm : Evaluator.new 1 r ((r + 2 : Nat) : Int) m true none = .ok { e with mandatoryHoleCards := m } := by
          unfold Evaluator.new at he ⊢
          revert he
          split
          · simp
          · cases Table.new 1 r ((r + 2 : Nat) : Int) true none with
            | error x => simp
            | ok t =>
              simp only []
              split
              · simp
              · intro he
                simp only [Except.ok.injEq] at he ⊢
                rw [← he]
        exact ⟨_, hm⟩

/-- C09 does not hold: five-card hands from three ranks of four suits, or five-card hands from five
ranks with the low-ace straight, make the constructor fail with an `AssertionError`. -/
theorem C09_false :
    Table.new 4 3 5 false none = .error .assertionError ∧
    Evaluator.new 4 3 5 0 false none = .error .assertionError ∧
    Evaluator.new 4 5 5 0 true none = .error .assertionError ∧
    Evaluator.new 2 3 3 0 true none = .error .assertionError := by
  have h : ∀ {x : Except Err Table}, isErr x = true → (match x with | .error .assertionError => true | _ => false) = true →
      x = .error .assertionError := by
    intro x h1 h2
    cases x with
    | ok t => simp [isErr] at h1
    | error e => cases e <;> simp_all
  have ev : ∀ {a b c : Int} {l : Bool}, ¬ (c < 1 ∨ c > 5) → Table.new a b c l none = .error .assertionError →
      Evaluator.new a b c 0 l none = .error .assertionError := by
    intro a b c l h1 h2
    unfold Evaluator.new; rw [if_neg h1, h2]
  have t1 := h (x := Table.new 4 3 5 false none) (by decide +kernel) (by decide +kernel)
  have t2 := h (x := Table.new 4 5 5 true none) (by decide +kernel) (by decide +kernel)
  have t3 := h (x := Table.new 2 3 3 true none) (by decide +kernel) (by decide +kernel)
  exact ⟨t1, ev (by omega) t1, ev (by omega) t2, ev (by omega) t3⟩

/-- the usual decks: full deck, five cards; short deck (nine ranks); Leduc (two suits, three ranks) -/
example (m : Int) (low : Bool) : (∃ e, Evaluator.new 4 13 5 m low none = .ok e) ∧
    (∃ e, Evaluator.new 4 9 5 m low none = .ok e) ∧ (∃ e, Evaluator.new 2 3 2 m low none = .ok e) :=
  ⟨(C09_exact_partial 4 13 5 (by omega) (by omega) (by omega) m low).2 (by simp),
   (C09_exact_partial 4 9 5 (by omega) (by omega) (by omega) m low).2 (by simp),
   (C09_exact_partial 2 3 2 (by omega) (by omega) (by omega) m low).2 (by simp)⟩

/-! ## C10: every hand has a rank -/

/-- C10: in a table built without a custom order, or with each code exactly once (for a proper shape),
every hand of the deck is found, with a value between 0 and `max_rank`. -/
theorem C10_in_range_partial (s r c : Nat) (hs : 1 ≤ s ∧ s ≤ 4) (hr : 1 ≤ r ∧ r ≤ 13)
    (hc : 1 ≤ c ∧ c ≤ 5) (m : Int) (low : Bool) (order : Option (List String))
    (ho : GoodOrder s r c low order) (e : Evaluator) (he : Evaluator.new s r c m low order = .ok e)
    (ps : List (Nat × Nat)) (hp : IsHand s r c ps) (h : List Card) (hd : Denotes ps h) :
    ∃ v, e.table.lookup h = .ok v ∧ 0 ≤ v ∧ v ≤ e.table.maxRank := by
  obtain ⟨classes, X, hex⟩ := ctx_good hs hr hc ho (Evaluator.new_table he).1 (isHand_card_le hp hr.2)
  obtain ⟨v, k, h1, h2, -⟩ := X.lookup hp hex
  rw [denotes_eq (isHand_cards hp hs.2) hd]
  exact ⟨v, h1, (filed_range X h2).1⟩

/-- a code list in which the code for high cards appears twice -/
def dupOrder : List String := ["sf", "fk", "fh", "fl", "st", "tk", "tp", "pa", "hc", "hc"]

/-- a permutation of the codes -/
def lateFlush : List String := ["sf", "fk", "fh", "tk", "tp", "pa", "st", "fl", "hc"]

/-- the ace of spades alone; and the five highest spades -/
def aceOnly : List Card := [mkCard 12 0]
def fiveSpades : List Card := [mkCard 12 0, mkCard 11 0, mkCard 10 0, mkCard 9 0, mkCard 8 0]

/-- C10 does not hold for every table. With a code appearing twice (which the constructor accepts) the
value of a hand is larger than `max_rank`; with one suit, five ranks, five cards and this permutation of
the codes the only hand of the deck is not found (`KeyError`). -/
theorem C10_false :
    (∃ e, Evaluator.new 4 2 1 0 false (some dupOrder) = .ok e ∧ e.table.lookup aceOnly = .ok 5 ∧
      e.table.maxRank = 4) ∧
    (∃ e, Evaluator.new 1 5 5 0 false (some lateFlush) = .ok e ∧
      e.table.lookup fiveSpades = .error .keyError) := by
  have get : ∀ {x : Except Err Evaluator}, isErr x = false → ∃ e, x = .ok e := by
    intro x h; cases x with
    | ok e => exact ⟨e, rfl⟩
    | error _ => simp [isErr] at h
  constructor
  · obtain ⟨e, he⟩ := get (x := Evaluator.new 4 2 1 0 false (some dupOrder)) (by decide +kernel)
    have h1 : (Evaluator.new 4 2 1 0 false (some dupOrder)).bind (fun e => e.table.lookup aceOnly) = .ok 5 := by
      decide +kernel
    have h2 : (Evaluator.new 4 2 1 0 false (some dupOrder)).bind (fun e => .ok e.table.maxRank) = .ok 4 := by
      decide +kernel
    rw [he] at h1 h2
    exact ⟨e, he, h1, by simpa [Except.bind] using h2⟩
  · obtain ⟨e, he⟩ := get (x := Evaluator.new 1 5 5 0 false (some lateFlush)) (by decide +kernel)
    have h1 : (Evaluator.new 1 5 5 0 false (some lateFlush)).bind (fun e => e.table.lookup fiveSpades)
        = .error .keyError := by decide +kernel
    rw [he] at h1
    exact ⟨e, he, h1⟩

/-- the hypotheses of `C10_in_range_partial` for the full deck and a royal flush -/
example : (∃ e, Evaluator.new 4 13 5 0 true none = .ok e) ∧ GoodOrder 4 13 5 true none ∧
    IsHand 4 13 5 [(12, 0), (11, 0), (10, 0), (9, 0), (8, 0)] :=
  ⟨(C09_exact_partial 4 13 5 (by omega) (by omega) (by omega) 0 true).2 (by simp), .inl rfl,
   rfl, by decide, by decide⟩

/-! ## C11: the order of the ranks -/

/-- the position of a class in the table's list of classes -/
def classPos (e : Evaluator) (k : HandKind) : Nat := (e.table.rankedHands.map (·.name)).idxOf k.name

/-- C11: a hand has a smaller value iff it is of a class listed earlier, or of the same class and
its ranks are better; equal values iff same class and same ranks. (Left out: at least three cards from exactly as many ranks,
see `C11_false`, and the tables left out in C10.) -/
theorem C11_order_partial (s r c : Nat) (hs : 1 ≤ s ∧ s ≤ 4) (hr : 1 ≤ r ∧ r ≤ 13)
    (hc : 1 ≤ c ∧ c ≤ 5) (hne : ¬ (3 ≤ c ∧ r = c)) (m : Int) (low : Bool) (order : Option (List String))
    (ho : GoodOrder s r c low order) (e : Evaluator) (he : Evaluator.new s r c m low order = .ok e)
    (ps qs : List (Nat × Nat)) (hp : IsHand s r c ps) (hq : IsHand s r c qs) (h k : List Card)
    (hh : Denotes ps h) (hk : Denotes qs k) :
    ∃ v w, e.table.lookup h = .ok v ∧ e.table.lookup k = .ok w ∧
      (v < w ↔ classPos e (handKind s r low ps) < classPos e (handKind s r low qs) ∨
        (handKind s r low ps = handKind s r low qs ∧
          tieKey r low (qs.map (·.1)) < tieKey r low (ps.map (·.1)))) ∧
      (v = w ↔ handKind s r low ps = handKind s r low qs ∧ (ps.map (·.1)).Perm (qs.map (·.1))) := by
  obtain ⟨classes, X, hex⟩ := ctx_good hs hr hc ho (Evaluator.new_table he).1 (isHand_card_le hp hr.2)
  obtain ⟨v, k1, h1, h2, h3, h4⟩ := X.lookup hp hex
  obtain ⟨w, k2, g1, g2, g3, -⟩ := X.lookup hq hex
  rw [denotes_eq (isHand_cards hp hs.2) hh, denotes_eq (isHand_cards hq hs.2) hk]
  have e1 : k1 = handKind s r low ps := h3.resolve_right (fun hx => hne ⟨hx.1, hx.2.1⟩)
  have e2 : k2 = handKind s r low qs := g3.resolve_right (fun hx => hne ⟨hx.1, hx.2.1⟩)
  refine ⟨v, w, h1, g1, ?_, ?_⟩
  · rw [(filed_order X h2 g2 h4).1, e1, e2]
    unfold classPos
    rw [← cls_name, ← cls_name, idxOf_map_name, idxOf_map_name]
  · rw [filed_eq X h2 g2 h4, e1, e2]

/-- C11 for the standard deck: the values order five-card hands by the usual list of classes, then by the
ranks. -/
theorem C11_standard (m : Int) (low : Bool) (e : Evaluator) (he : Evaluator.new 4 13 5 m low none = .ok e)
    (ps qs : List (Nat × Nat)) (hp : IsHand 4 13 5 ps) (hq : IsHand 4 13 5 qs) (h k : List Card)
    (hh : Denotes ps h) (hk : Denotes qs k) :
    ∃ v w, e.table.lookup h = .ok v ∧ e.table.lookup k = .ok w ∧
      (v < w ↔ standardNames.idxOf (handKind 4 13 low ps).name < standardNames.idxOf (handKind 4 13 low qs).name ∨
        (handKind 4 13 low ps = handKind 4 13 low qs ∧
          tieKey 13 low (qs.map (·.1)) < tieKey 13 low (ps.map (·.1)))) ∧
      (v = w ↔ handKind 4 13 low ps = handKind 4 13 low qs ∧ (ps.map (·.1)).Perm (qs.map (·.1))) := by
  have := C11_order_partial 4 13 5 (by omega) (by omega) (by omega) (by omega) m low none (.inl rfl) e he
    ps qs hp hq h k hh hk
  have hn : e.table.rankedHands.map (·.name) = standardNames := by
    obtain ⟨classes, B⟩ := Table.new_ok (Evaluator.new_table he).1
    rw [B.ranked]
    have : (orderedClasses (classCount 4 13 5 low) none).bind
        (fun classes => Except.ok ((rankLoop (classCount 4 13 5 low) classes).rankedHands.map (·.name)))
        = .ok standardNames := by
      cases low <;> decide +kernel
    rw [B.ordered] at this
    simpa [Except.bind] using this
  unfold classPos at this
  rw [hn] at this
  exact this

/-- C11 does not hold for three-card hands from three ranks and two suits: a straight flush and a
straight get the same value. -/
theorem C11_false :
    ∃ e, Evaluator.new 2 3 3 0 false none = .ok e ∧
      handKind 2 3 false [(12, 0), (11, 0), (10, 0)] = .straightFlush ∧
      handKind 2 3 false [(12, 0), (11, 0), (10, 1)] = .straight ∧
      ∃ v, e.table.lookup [mkCard 12 0, mkCard 11 0, mkCard 10 0] = .ok v ∧
        e.table.lookup [mkCard 12 0, mkCard 11 0, mkCard 10 1] = .ok v := by
  obtain ⟨e, he⟩ := (C09_exact_partial 2 3 3 (by omega) (by omega) (by omega) 0 false).2 (by simp)
  have he' : Evaluator.new 2 3 3 0 false none = .ok e := he
  have h1 : (Evaluator.new 2 3 3 0 false none).bind
      (fun e => e.table.lookup [mkCard 12 0, mkCard 11 0, mkCard 10 0]) = .ok 2 := by decide +kernel
  have h2 : (Evaluator.new 2 3 3 0 false none).bind
      (fun e => e.table.lookup [mkCard 12 0, mkCard 11 0, mkCard 10 1]) = .ok 2 := by decide +kernel
  rw [he'] at h1 h2
  exact ⟨e, he', by decide, by decide, 2, h1, h2⟩

/-- aces over kings beats kings over aces; the wheel is the lowest straight -/
example : handKind 4 13 true [(12, 0), (12, 1), (12, 2), (11, 0), (11, 1)] = .fullHouse ∧
    tieKey 13 true [11, 11, 11, 12, 12] < tieKey 13 true [12, 12, 12, 11, 11] ∧
    tieKey 13 true [12, 0, 1, 2, 3] = [3] ∧ tieKey 13 true [0, 1, 2, 3, 4] = [4] := by
  refine ⟨by decide, ?_, by decide, by decide⟩
  have h1 : tieKey 13 true [11, 11, 11, 12, 12] = [11, 11, 11, 12, 12] := by
    simp [tieKey, byGroups, List.mergeSort, List.MergeSort.Internal.splitInTwo, IsStraight, IsRun, IsWheel]
    decide
  have h2 : tieKey 13 true [12, 12, 12, 11, 11] = [12, 12, 12, 11, 11] := by
    simp [tieKey, byGroups, List.mergeSort, List.MergeSort.Internal.splitInTwo, IsStraight, IsRun, IsWheel]
    decide
  rw [h1, h2]; decide

/-! ## C12: order of the cards and names of the suits -/

/-- C12: `lookup` does not depend on the order of the cards, for every table and every list of cards. -/
theorem C12_lookup_order (t : Table) (h h' : List Card) (hp : h.Perm h') : t.lookup h = t.lookup h' :=
  lookup_perm t hp

/-- C12: `evaluate` does not depend on the order of the hole cards and of the community cards. -/
theorem C12_evaluate_order (e : Evaluator) (hole hole' comm comm' : List Card) (h1 : hole.Perm hole')
    (h2 : comm.Perm comm') : e.evaluate hole comm = e.evaluate hole' comm' :=
  evaluate_perm e h1 h2

/-- C12: `lookup` does not depend on the names of the suits. -/
theorem C12_lookup_suits (t : Table) (σ : Nat → Nat) (hσ : ∀ u < 4, σ u < 4)
    (hinj : ∀ u < 4, ∀ w < 4, σ u = σ w → u = w) (ps : List (Nat × Nat)) (hp : AreCards ps)
    (h h' : List Card) (hh : Denotes ps h) (hh' : Denotes (ps.map fun p => (p.1, σ p.2)) h') :
    t.lookup h = t.lookup h' := by
  have hp' : AreCards (ps.map fun p => (p.1, σ p.2)) := by
    intro q hq
    obtain ⟨p, hp1, rfl⟩ := List.mem_map.1 hq
    exact ⟨(hp p hp1).1, hσ _ (hp p hp1).2⟩
  rw [denotes_eq hp hh, denotes_eq hp' hh', lookup_rename t ps hp σ hσ hinj]

/-- C12: `evaluate` does not depend on the names of the suits. -/
theorem C12_evaluate_suits (e : Evaluator) (σ : Nat → Nat) (hσ : ∀ u < 4, σ u < 4)
    (hinj : ∀ u < 4, ∀ w < 4, σ u = σ w → u = w) (ps qs : List (Nat × Nat)) (hp : AreCards ps)
    (hq : AreCards qs) (hole comm hole' comm' : List Card) (h1 : Denotes ps hole) (h2 : Denotes qs comm)
    (h3 : Denotes (ps.map fun p => (p.1, σ p.2)) hole') (h4 : Denotes (qs.map fun p => (p.1, σ p.2)) comm') :
    e.evaluate hole comm = e.evaluate hole' comm' := by
  have ren : ∀ {l : List (Nat × Nat)}, AreCards l → AreCards (l.map fun p => (p.1, σ p.2)) := by
    intro l hl q hq
    obtain ⟨p, hp1, rfl⟩ := List.mem_map.1 hq
    exact ⟨(hl p hp1).1, hσ _ (hl p hp1).2⟩
  rw [denotes_eq hp h1, denotes_eq hq h2, denotes_eq (ren hp) h3, denotes_eq (ren hq) h4]
  let F : Nat × Nat → Card := fun p => mkCard p.1 p.2
  let G : Nat × Nat → Card := fun p => mkCard p.1 (σ p.2)
  have eG : ∀ l : List (Nat × Nat), (l.map fun p => (p.1, σ p.2)).map F = l.map G := by
    intro l; rw [List.map_map]; rfl
  change e.evaluate (ps.map F) (qs.map F) =
    e.evaluate ((ps.map fun p => (p.1, σ p.2)).map F) ((qs.map fun p => (p.1, σ p.2)).map F)
  rw [eG, eG]
  have lk : ∀ l : List (Nat × Nat), AreCards l → e.table.lookup (l.map F) = e.table.lookup (l.map G) := by
    intro l hl
    rw [← eG]; exact (lookup_rename e.table l hl σ hσ hinj).symm
  -- the selections are the images of selections of pairs
  have hc : ∃ r : Except Err (List (List (Nat × Nat))),
      e.handCombs (ps.map F) (qs.map F) = r.map (List.map (List.map F)) ∧
      e.handCombs (ps.map G) (qs.map G) = r.map (List.map (List.map G)) ∧
      ∀ L, r = .ok L → ∀ x ∈ L, AreCards x := by
    unfold Evaluator.handCombs combinationsInt
    have sub : ∀ {k : Nat} {l : List (Nat × Nat)}, AreCards l → ∀ x ∈ combinations k l, AreCards x := by
      intro k l hl x hx p hpx
      exact hl p (((mem_combinations _ _ _).1 hx).1.subset hpx)
    have prod : ∀ (H : Nat × Nat → Card) (A B : List (List (Nat × Nat))),
        productConcat (A.map (List.map H)) (B.map (List.map H)) = (productConcat A B).map (List.map H) := by
      intro H A B
      simp only [productConcat, List.flatMap_map, List.map_flatMap, List.map_map, Function.comp_def, List.map_append]
    by_cases hm : e.mandatoryHoleCards ≠ 0
    · simp only [if_pos hm]
      by_cases h1 : e.mandatoryHoleCards < 0
      · exact ⟨.error .valueError, by simp [h1, Except.map], by simp [h1, Except.map], by simp⟩
      · simp only [if_neg h1]
        by_cases h2 : e.cardsForHand - e.mandatoryHoleCards ≠ 0
        · simp only [if_pos h2]
          by_cases h3 : e.cardsForHand - e.mandatoryHoleCards < 0
          · exact ⟨.error .valueError, by simp [h3, Except.map], by simp [h3, Except.map], by simp⟩
          · refine ⟨.ok (productConcat (combinations e.mandatoryHoleCards.toNat ps)
              (combinations (e.cardsForHand - e.mandatoryHoleCards).toNat qs)), ?_, ?_, ?_⟩
            · simp only [if_neg h3, combinations_map, prod, Except.map]
            · simp only [if_neg h3, combinations_map, prod, Except.map]
            · intro L hL x hx
              simp only [Except.ok.injEq] at hL
              subst hL
              simp only [productConcat, List.mem_flatMap, List.mem_map] at hx
              obtain ⟨a, ha, b, hb, rfl⟩ := hx
              intro p hpx
              rcases List.mem_append.1 hpx with hpx | hpx
              · exact sub hp a ha p hpx
              · exact sub hq b hb p hpx
        · simp only [if_neg h2]
          refine ⟨.ok (combinations e.mandatoryHoleCards.toNat ps), by simp [combinations_map, Except.map],
            by simp [combinations_map, Except.map], ?_⟩
          intro L hL
          simp only [Except.ok.injEq] at hL
          subst hL
          exact sub hp
    · simp only [if_neg hm]
      by_cases h3 : e.cardsForHand < 0
      · exact ⟨.error .valueError, by simp [h3, Except.map], by simp [h3, Except.map], by simp⟩
      · refine ⟨.ok (combinations e.cardsForHand.toNat (ps ++ qs)), ?_, ?_, ?_⟩
        · simp only [if_neg h3, ← List.map_append, combinations_map, Except.map]
        · simp only [if_neg h3, ← List.map_append, combinations_map, Except.map]
        · intro L hL
          simp only [Except.ok.injEq] at hL
          subst hL
          apply sub
          intro p hpx
          rcases List.mem_append.1 hpx with hpx | hpx
          · exact hp p hpx
          · exact hq p hpx
  obtain ⟨r, r1, r2, r3⟩ := hc
  unfold Evaluator.evaluate
  rw [r1, r2]
  cases r with
  | error x => rfl
  | ok L => exact minLoop_map e.table _ _ L _ (fun x hx => lk x (r3 L rfl x hx))

/-- swapping spades and hearts is such a renaming -/
example : let σ : Nat → Nat := fun u => if u = 0 then 1 else if u = 1 then 0 else u
    (∀ u < 4, σ u < 4) ∧ (∀ u < 4, ∀ w < 4, σ u = σ w → u = w) := by decide

/-! ## C13: evaluate takes the best selection -/

/-- C13: for every evaluator with `0 ≤ m ≤ n` (`m` mandatory hole cards) and all lists of cards: `evaluate`
returns `v` exactly if every allowed selection is in the table and `v` is the least of `max_rank` and their
values. So with no allowed selection it returns `max_rank`. -/
theorem C13_minimum (e : Evaluator) (h0 : 0 ≤ e.mandatoryHoleCards)
    (h1 : e.mandatoryHoleCards ≤ e.cardsForHand) (hole comm : List Card) (v : Int) :
    e.evaluate hole comm = .ok v ↔
      (∀ sel, Selection e.cardsForHand e.mandatoryHoleCards hole comm sel →
        ∃ w, e.table.lookup sel = .ok w ∧ v ≤ w) ∧
      v ≤ e.table.maxRank ∧
      (v = e.table.maxRank ∨ ∃ sel, Selection e.cardsForHand e.mandatoryHoleCards hole comm sel ∧
        e.table.lookup sel = .ok v) := by
  obtain ⟨combs, hc⟩ := handCombs_ok hole comm h0 h1
  have hmem := mem_handCombs hc
  unfold Evaluator.evaluate
  rw [hc]
  simp only []
  constructor
  · intro h
    obtain ⟨a1, a2, a3⟩ := minLoop_ok h
    refine ⟨fun sel hs => a1 sel ((hmem sel).2 hs), a2, ?_⟩
    rcases a3 with a3 | ⟨x, hx, a3⟩
    · exact .inl a3
    · exact .inr ⟨x, (hmem x).1 hx, a3⟩
  · rintro ⟨a1, a2, a3⟩
    obtain ⟨w, hw⟩ := minLoop_total (t := e.table) (hs := combs) e.table.maxRank (by
      intro x hx
      obtain ⟨w, hw, -⟩ := a1 x ((hmem x).1 hx)
      exact ⟨w, hw⟩)
    rw [hw]
    obtain ⟨b1, b2, b3⟩ := minLoop_ok hw
    have l1 : v ≤ w := by
      rcases b3 with rfl | ⟨x, hx, b3⟩
      · exact a2
      · obtain ⟨u, hu, hle⟩ := a1 x ((hmem x).1 hx)
        rw [b3] at hu; simp at hu; omega
    have l2 : w ≤ v := by
      rcases a3 with rfl | ⟨x, hx, a3⟩
      · exact b2
      · obtain ⟨u, hu, hle⟩ := b1 x ((hmem x).2 hx)
        rw [a3] at hu; simp at hu; omega
    congr 1; omega

/-- C13: a negative number of mandatory hole cards, or more than cards in a hand, is reported by a
`ValueError` from `evaluate`. -/
theorem C13_bad_mandatory (e : Evaluator) (hole comm : List Card)
    (h : e.mandatoryHoleCards < 0 ∨ (0 < e.mandatoryHoleCards ∧ e.cardsForHand < e.mandatoryHoleCards)) :
    e.evaluate hole comm = .error .valueError := by
  unfold Evaluator.evaluate
  have : e.handCombs hole comm = .error .valueError := by
    unfold Evaluator.handCombs combinationsInt
    rw [if_pos (by omega)]
    rcases h with h | h
    · rw [if_pos h]
    · rw [if_neg (by omega)]
      simp only []
      rw [if_pos (by omega), if_pos (by omega)]
  rw [this]

/-- C13 for real cards: with different cards of the deck `evaluate` does not fail, and if there is an
allowed selection the result is the value of one of them and no other has a smaller value. -/
theorem C13_real_cards (s r c : Nat) (hs : 1 ≤ s ∧ s ≤ 4) (hr : 1 ≤ r ∧ r ≤ 13) (hc : 1 ≤ c ∧ c ≤ 5)
    (m : Nat) (hm : m ≤ c) (low : Bool) (order : Option (List String)) (ho : GoodOrder s r c low order)
    (e : Evaluator) (he : Evaluator.new s r c m low order = .ok e) (ps qs : List (Nat × Nat)) (n : Nat)
    (hp : IsHand s r n (ps ++ qs)) (hole comm : List Card) (hh : Denotes ps hole) (hk : Denotes qs comm) :
    ∃ v, e.evaluate hole comm = .ok v ∧
      (∀ sel, Selection c m hole comm sel → ∃ w, e.table.lookup sel = .ok w ∧ v ≤ w) ∧
      ((∃ sel, Selection c m hole comm sel) → ∃ sel, Selection c m hole comm sel ∧ e.table.lookup sel = .ok v) := by
  obtain ⟨-, e1, e2, -⟩ := Evaluator.new_table he
  have ap : AreCards ps := fun p hp' => by have := hp.2.2 p (by simp [hp']); omega
  have aq : AreCards qs := fun p hp' => by have := hp.2.2 p (by simp [hp']); omega
  rw [denotes_eq ap hh, denotes_eq aq hk]
  -- every selection is a hand
  have hsel : ∀ sel, Selection c m (ps.map fun p => mkCard p.1 p.2) (qs.map fun p => mkCard p.1 p.2) sel →
      ∃ w, e.table.lookup sel = .ok w ∧ w ≤ e.table.maxRank := by
    intro sel hsel
    obtain ⟨xs, hsub, hlen, rfl⟩ : ∃ xs : List (Nat × Nat), xs.Sublist (ps ++ qs) ∧ xs.length = c ∧
        sel = xs.map fun p => mkCard p.1 p.2 := by
      unfold Selection at hsel
      split at hsel
      · rw [← List.map_append] at hsel
        obtain ⟨xs, h1, rfl⟩ := sublist_pairs hsel.1
        exact ⟨xs, h1, by have := hsel.2; simp at this; omega, rfl⟩
      · obtain ⟨a, b, ha, hal, hb, hbl, rfl⟩ := hsel
        obtain ⟨xa, h1, rfl⟩ := sublist_pairs ha
        obtain ⟨xb, h2, rfl⟩ := sublist_pairs hb
        refine ⟨xa ++ xb, h1.append h2, ?_, by simp⟩
        simp only [List.length_map] at hal hbl
        rw [List.length_append]; omega
    have hhand : IsHand s r c xs :=
      ⟨hlen, hp.2.1.sublist hsub, fun p hpx => hp.2.2 p (hsub.subset hpx)⟩
    obtain ⟨v, h1, -, h2⟩ := C10_in_range_partial s r c hs hr hc m low order ho e he xs hhand _
      (denotes_mk xs (isHand_cards hhand hs.2))
    exact ⟨v, h1, h2⟩
  obtain ⟨combs, hcb⟩ := handCombs_ok (e := e) (ps.map fun p => mkCard p.1 p.2) (qs.map fun p => mkCard p.1 p.2)
    (by omega) (by omega)
  have hmem := mem_handCombs hcb
  rw [e1, e2] at hmem
  obtain ⟨v, hv⟩ := minLoop_total (t := e.table) (hs := combs) e.table.maxRank (by
    intro x hx
    obtain ⟨w, hw, -⟩ := hsel x ((hmem x).1 hx)
    exact ⟨w, hw⟩)
  have hev : e.evaluate (ps.map fun p => mkCard p.1 p.2) (qs.map fun p => mkCard p.1 p.2) = .ok v := by
    unfold Evaluator.evaluate; rw [hcb]; exact hv
  have hmin := (C13_minimum e (by omega) (by omega) _ _ v).1 hev
  rw [e1, e2] at hmin
  refine ⟨v, hev, hmin.1, ?_⟩
  rintro ⟨sel, hs'⟩
  rcases hmin.2.2 with h | h
  · obtain ⟨w, hw, hle⟩ := hmin.1 sel hs'
    obtain ⟨w', hw', hle'⟩ := hsel sel hs'
    rw [hw] at hw'
    simp only [Except.ok.injEq] at hw'
    exact ⟨sel, hs', by rw [hw]; congr 1; omega⟩
  · exact h

/-- two hole cards and five community cards of the full deck -/
example : IsHand 4 13 7 ([(12, 0), (11, 0)] ++ [(10, 0), (9, 0), (8, 0), (0, 1), (0, 2)]) ∧
    Selection 5 2 [mkCard 12 0, mkCard 11 0] [mkCard 10 0, mkCard 9 0, mkCard 8 0]
      [mkCard 12 0, mkCard 11 0, mkCard 10 0, mkCard 9 0, mkCard 8 0] := by
  refine ⟨⟨by decide, by decide, by decide⟩, ?_⟩
  unfold Selection
  rw [if_neg (by omega)]
  exact ⟨_, _, List.Sublist.refl _, by decide, List.Sublist.refl _, by decide, rfl⟩

/-! ## C14: more cards never hurt -/

/-- C14: with more community cards the result of `evaluate` is not larger; without mandatory hole cards the
same holds for more hole cards. -/
theorem C14_monotone (e : Evaluator) (h0 : 0 ≤ e.mandatoryHoleCards)
    (h1 : e.mandatoryHoleCards ≤ e.cardsForHand) (hole hole' comm comm' : List Card)
    (hc : comm.Sublist comm') (hh : hole = hole' ∨ (e.mandatoryHoleCards = 0 ∧ hole.Sublist hole'))
    (v v' : Int) (hv : e.evaluate hole comm = .ok v) (hv' : e.evaluate hole' comm' = .ok v') : v' ≤ v := by
  obtain ⟨-, a2, a3⟩ := (C13_minimum e h0 h1 hole comm v).1 hv
  obtain ⟨b1, b2, -⟩ := (C13_minimum e h0 h1 hole' comm' v').1 hv'
  rcases a3 with rfl | ⟨sel, hs, hl⟩
  · exact b2
  · have hs' : Selection e.cardsForHand e.mandatoryHoleCards hole' comm' sel := by
      unfold Selection at *
      by_cases hm : e.mandatoryHoleCards = 0
      · rw [if_pos hm] at *
        refine ⟨hs.1.trans (List.Sublist.append ?_ hc), hs.2⟩
        rcases hh with rfl | ⟨-, hh⟩
        · exact .refl _
        · exact hh
      · rw [if_neg hm] at *
        obtain ⟨a, b, x1, x2, x3, x4, rfl⟩ := hs
        rcases hh with rfl | ⟨hh, -⟩
        · exact ⟨a, b, x1, x2, x3.trans hc, x4, rfl⟩
        · exact absurd hh hm
    obtain ⟨w, hw, hle⟩ := b1 sel hs'
    rw [hl] at hw
    simp at hw; omega

/-! ## C15: get_rank_class -/

/-- C15: the class named for the rank of a hand is the class of the hand (with the tables of C11 left
out). -/
theorem C15_class_partial (s r c : Nat) (hs : 1 ≤ s ∧ s ≤ 4) (hr : 1 ≤ r ∧ r ≤ 13)
    (hc : 1 ≤ c ∧ c ≤ 5) (hne : ¬ (3 ≤ c ∧ r = c)) (m : Int) (low : Bool) (order : Option (List String))
    (ho : GoodOrder s r c low order) (e : Evaluator) (he : Evaluator.new s r c m low order = .ok e)
    (ps : List (Nat × Nat)) (hp : IsHand s r c ps) (h : List Card) (hh : Denotes ps h) :
    ∃ v, e.table.lookup h = .ok v ∧ e.getRankClass v = .ok (handKind s r low ps).name := by
  obtain ⟨classes, X, hex⟩ := ctx_good hs hr hc ho (Evaluator.new_table he).1 (isHand_card_le hp hr.2)
  obtain ⟨v, k1, h1, h2, h3, h4⟩ := X.lookup hp hex
  rw [denotes_eq (isHand_cards hp hs.2) hh]
  have e1 : k1 = handKind s r low ps := h3.resolve_right (fun hx => hne ⟨hx.1, hx.2.1⟩)
  refine ⟨v, h1, ?_⟩
  unfold Evaluator.getRankClass
  rw [if_neg (by have := (filed_range X h2).1; omega), filed_class X h2, e1]

/-- C15: every rank in `0..max_rank` gets the name of one of the table's classes, every other integer is
rejected. -/
theorem C15_range_partial (s r c : Nat) (hs : 1 ≤ s ∧ s ≤ 4) (hr : 1 ≤ r ∧ r ≤ 13) (hc : 1 ≤ c ∧ c ≤ 5)
    (hcard : c ≤ r * s) (m : Int) (low : Bool) (order : Option (List String))
    (ho : GoodOrder s r c low order) (e : Evaluator) (he : Evaluator.new s r c m low order = .ok e) (v : Int) :
    (0 ≤ v ∧ v ≤ e.table.maxRank → ∃ k ∈ e.table.rankedHands, e.getRankClass v = .ok k.name) ∧
    (¬ (0 ≤ v ∧ v ≤ e.table.maxRank) → e.getRankClass v = .error .invalidHandRank) := by
  obtain ⟨classes, X, -⟩ := ctx_good hs hr hc ho (Evaluator.new_table he).1 hcard
  obtain ⟨h1, h2, k, hk, h3⟩ := ranked_max X
  unfold Evaluator.getRankClass
  constructor
  · rintro ⟨a, b⟩
    rw [if_neg (by omega)]
    exact rankClassLoop_some _ _ _ k hk (by omega)
  · intro hn
    by_cases hv : v < 0
    · rw [if_pos hv]
    · rw [if_neg hv]
      apply rankClassLoop_miss
      intro d hd
      have := h1 d hd
      omega

/-- C15: a negative rank is rejected by every evaluator. -/
theorem C15_negative (e : Evaluator) (v : Int) (h : v < 0) : e.getRankClass v = .error .invalidHandRank := by
  unfold Evaluator.getRankClass; rw [if_pos h]

/-! ## C16: rarity -/

/-- the model's order of class names is the order of the strings (the tie-break of `sorted`) -/
theorem nameOrd_spec (a b : HandClass) : a.nameOrd < b.nameOrd ↔ a.name < b.name := by
  have : ∀ a ∈ CLASS_LIST, ∀ b ∈ CLASS_LIST, a.nameOrd < b.nameOrd ↔ a.name < b.name := by decide
  exact this a (mem_classList a) b (mem_classList b)

/-- C16, as far as it is true: without a custom order the classes are listed by increasing number of hands *as
computed by the code's formulas* (`hand_dict[...]["suited"]`), ties by name. -/
theorem C16_sorted_partial (s r c : Nat) (hs : 1 ≤ s ∧ s ≤ 4) (hr : 1 ≤ r ∧ r ≤ 13) (hc : 1 ≤ c ∧ c ≤ 5)
    (hcard : c ≤ r * s) (m : Int) (low : Bool) (e : Evaluator)
    (he : Evaluator.new s r c m low none = .ok e) :
    e.table.rankedHands.Pairwise (fun a b =>
      (e.table.handDict a).suited < (e.table.handDict b).suited ∨
        ((e.table.handDict a).suited = (e.table.handDict b).suited ∧ a.name < b.name)) ∧
    ∀ k, k ∈ e.table.rankedHands ↔ 0 < (e.table.handDict k).suited := by
  obtain ⟨classes, X⟩ := ctx_none hs hr hc (Evaluator.new_table he).1 hcard
  have hsort := (classes_none X.built.ordered).2.2
  have hsu : ∀ k, (e.table.handDict k).suited = (classCount s r c low k).1 := by
    intro k; rw [X.built.dict]; exact (X.spec.info k (X.all k)).1
  have hS := X.shape
  have htab := ((none_sorted_table s (by omega) r (by omega) c (by omega) low).resolve_left (fun hh => hh hS)).1
  constructor
  · rw [X.built.ranked, X.spec.ranked]
    refine List.Pairwise.filter _ ?_
    have hboth := hsort.and X.nodup
    refine hboth.imp ?_
    intro a b ⟨h1, h2⟩
    rw [hsu, hsu]
    unfold handLe at h1
    simp only at h1
    rcases h1 with h1 | ⟨h1, h3⟩
    · exact .inl h1
    · refine .inr ⟨h1, (nameOrd_spec a b).1 ?_⟩
      rcases Nat.lt_or_ge a.nameOrd b.nameOrd with h | h
      · exact h
      · have : a.nameOrd = b.nameOrd := by omega
        exfalso; apply h2
        revert this; cases a <;> cases b <;> decide
  · intro k
    rw [X.built.ranked, X.spec.ranked, List.mem_filter, decide_eq_true_eq]
    have h1 := htab k (mem_classList k)
    have h2 := X.nonneg k
    have h3 := X.bef_nonneg k
    have h4 := none_zero hS X.built.ordered k
    rw [hsu]
    unfold cnt bef at *
    constructor
    · rintro ⟨-, h⟩
      by_contra hneg
      have h5 : (classCount s r c low k).1 = 0 := by omega
      have h6 := h1.1.1 h5
      rw [h4 h6, h6] at h
      simp at h
    · intro h
      refine ⟨X.all k, ?_⟩
      have : (classCount s r c low k).2 ≠ 0 := fun e => by
        have := h1.1.2 e; omega
      omega

/-- C16 does not hold: with two suits, two ranks and two cards, 4 hands are high cards and 2 are pairs, but
high cards are listed (and ranked) above pairs. -/
theorem C16_false :
    ((combinations 2 (deckCards 2 2)).filter (fun h => handKind 2 2 false h == .highCard)).length = 4 ∧
    ((combinations 2 (deckCards 2 2)).filter (fun h => handKind 2 2 false h == .pair)).length = 2 ∧
    ∃ e, Evaluator.new 2 2 2 0 false none = .ok e ∧ e.table.rankedHands = [.highCard, .pair] := by
  refine ⟨by decide, by decide, ?_⟩
  obtain ⟨e, he⟩ := (C09_exact_partial 2 2 2 (by omega) (by omega) (by omega) 0 false).2 (by simp)
  have he' : Evaluator.new 2 2 2 0 false none = .ok e := he
  have h1 : (Evaluator.new 2 2 2 0 false none).bind (fun e => .ok e.table.rankedHands)
      = .ok [.highCard, .pair] := by decide +kernel
  rw [he'] at h1
  exact ⟨e, he', by simpa [Except.bind] using h1⟩

/-! ## C17: custom orders -/

/-- C17: a list that lacks one of the nine codes is rejected. -/
theorem C17_missing (s r c m : Int) (hc : 1 ≤ c ∧ c ≤ 5) (low : Bool) (o : List String) (x : String)
    (hx : x ∈ ["sf", "fk", "fh", "fl", "st", "tk", "tp", "pa", "hc"]) (h : x ∉ o) :
    Evaluator.new s r c m low (some o) = .error .invalidOrder := by
  unfold Evaluator.new
  rw [if_neg (by omega)]
  have : (ORDER_STRINGS.any fun s => !o.contains s) = true := by
    rw [List.any_eq_true]
    exact ⟨x, hx, by simp [h]⟩
  have ht : Table.new s r c low (some o) = .error .invalidOrder := by
    unfold Table.new
    simp only [this, if_true]
    rfl
  rw [ht]

/-- C17: with an order that lists every code once, hands are ranked by the position of their class in the
given list (same shapes as C11). -/
theorem C17_obeyed_partial (s r c : Nat) (hs : 1 ≤ s ∧ s ≤ 4) (hr : 1 ≤ r ∧ r ≤ 13)
    (hc : 1 ≤ c ∧ c ≤ 5) (hcr : c ≤ r + 1) (hne : ¬ (3 ≤ c ∧ r = c)) (m : Int) (low : Bool)
    (o : List String) (hn : o.Nodup)
    (e : Evaluator) (he : Evaluator.new s r c m low (some o) = .ok e)
    (ps qs : List (Nat × Nat)) (hp : IsHand s r c ps) (hq : IsHand s r c qs) (h k : List Card)
    (hh : Denotes ps h) (hk : Denotes qs k) :
    ∃ v w, e.table.lookup h = .ok v ∧ e.table.lookup k = .ok w ∧
      (v < w ↔ o.idxOf ((handKind s r low ps).code) < o.idxOf ((handKind s r low qs).code) ∨
        (handKind s r low ps = handKind s r low qs ∧
          tieKey r low (qs.map (·.1)) < tieKey r low (ps.map (·.1)))) := by
  have ho : GoodOrder s r c low (some o) :=
    .inr ⟨o, rfl, hn, hcr, fun h => hne ⟨h.2.2, h.2.1.symm⟩, fun h => hne ⟨h.2.2, h.2.1⟩⟩
  obtain ⟨classes, X, hex⟩ := ctx_good hs hr hc ho (Evaluator.new_table he).1 (isHand_card_le hp hr.2)
  obtain ⟨v, k1, h1, h2, h3, h4⟩ := X.lookup hp hex
  obtain ⟨w, k2, g1, g2, g3, -⟩ := X.lookup hq hex
  rw [denotes_eq (isHand_cards hp hs.2) hh, denotes_eq (isHand_cards hq hs.2) hk]
  have e1 : k1 = handKind s r low ps := h3.resolve_right (fun hx => hne ⟨hx.1, hx.2.1⟩)
  have e2 : k2 = handKind s r low qs := g3.resolve_right (fun hx => hne ⟨hx.1, hx.2.1⟩)
  refine ⟨v, w, h1, g1, ?_⟩
  rw [(filed_order X h2 g2 h4).1, e1, e2]
  have hcl : classes.map codeOf = o := classes_some X.built.ordered
  have hidx : ∀ (l : List HandClass) (a : HandClass), (l.map codeOf).idxOf (codeOf a) = l.idxOf a := by
    intro l a
    induction l with
    | nil => rfl
    | cons x l ih =>
      rw [List.map_cons, List.idxOf_cons, List.idxOf_cons, ih]
      by_cases h : x = a
      · subst h; simp
      · have h1 : (x == a) = false := beq_eq_false_iff_ne.2 h
        have h2 : (codeOf x == codeOf a) = false := beq_eq_false_iff_ne.2 (fun e => h (codeOf_inj e))
        rw [h1, h2]
  have hfil : e.table.rankedHands.idxOf (cls (handKind s r low ps)) < e.table.rankedHands.idxOf (cls (handKind s r low qs)) ↔
      classes.idxOf (cls (handKind s r low ps)) < classes.idxOf (cls (handKind s r low qs)) := by
    rw [X.built.ranked, X.spec.ranked]
    have r1 := (filed_range X h2).2.2.2
    have r2 := (filed_range X g2).2.2.2
    rw [e1] at r1
    rw [e2] at r2
    apply idxOf_filter_lt
    · have := X.bef_nonneg (cls (handKind s r low ps))
      rw [decide_eq_true_eq]; unfold bef cnt at *; omega
    · have := X.bef_nonneg (cls (handKind s r low qs))
      rw [decide_eq_true_eq]; unfold bef cnt at *; omega
  rw [hfil, ← hcl]
  rw [← codeOf_cls, ← codeOf_cls, hidx, hidx]

/-- C17: for five-card hands of four suits and at least six ranks (where every class has hands) every
permutation of the codes is accepted. -/
theorem C17_accepted_partial (r : Nat) (hr : 6 ≤ r ∧ r ≤ 13) (m : Int) (low : Bool) (o : List String)
    (h : o.Perm ["sf", "fk", "fh", "fl", "st", "tk", "tp", "pa", "hc"]) :
    ∃ e, Evaluator.new 4 r 5 m low (some o) = .ok e := by
  have hS : Shape 4 r 5 low := ⟨by omega, by omega, by omega, by omega, fun h => by omega⟩
  obtain ⟨classes, ho⟩ := orderedClasses_perm (count := classCount 4 r 5 low) h
  have hcomp : ∀ x ∈ ORDER_STRINGS, x ∈ o := fun x hx => h.mem_iff.2 hx
  obtain ⟨h1, h2⟩ := classes_perm ho (h.nodup_iff.2 (by decide)) hcomp
  refine new_of_runs (s := 4) (r := r) (c := 5) (order := some o) hS ?_ ho h1 h2 ?_ m
  · intro o' e; simp at e; subst e; exact hcomp
  · intro k
    right
    have : ∀ r < 14, ∀ low : Bool, ¬ (6 ≤ r) ∨ ∀ k ∈ CLASS_LIST, 1 ≤ cnt 4 r 5 low k := by decide +kernel
    exact ((this r (by omega) low).resolve_left (fun h => h hr.1)) k (mem_classList k)

/-- an order that starts with the high cards -/
def highFirst : List String := ["hc", "sf", "fk", "fh", "fl", "st", "tk", "tp", "pa"]

/-- C17 does not hold in general: a code may appear twice; an unknown string gives a `ValueError`; a
permutation that lists a class with hands before one without makes the constructor fail. -/
theorem C17_false :
    (∃ e, Evaluator.new 4 2 1 0 false (some dupOrder) = .ok e) ∧
    (∀ s r c m : Int, 1 ≤ c ∧ c ≤ 5 → ∀ low,
      Evaluator.new s r c m low (some ("xx" :: ORDER_STRINGS)) = .error .valueError) ∧
    Evaluator.new 4 2 1 0 false (some highFirst) = .error .assertionError := by
  refine ⟨?_, ?_, ?_⟩
  · obtain ⟨e, he, -⟩ := C10_false.1
    exact ⟨e, he⟩
  · intro s r c m hc low
    unfold Evaluator.new
    rw [if_neg (by omega)]
    have ht : Table.new s r c low (some ("xx" :: ORDER_STRINGS)) = .error .valueError := by
      unfold Table.new
      have h1 : (ORDER_STRINGS.any fun s => !("xx" :: ORDER_STRINGS).contains s) = false := by decide
      have h2 : orderedClasses (classCount s r c low) (some ("xx" :: ORDER_STRINGS)) = .error .valueError := by
        have : ("xx" :: ORDER_STRINGS).mapM orderIndex = .error .valueError := by decide
        simp only [orderedClasses, this]
      simp only [h1, h2]
      rfl
    rw [ht]
  · have h1 : (match Evaluator.new 4 2 1 0 false (some highFirst) with
        | .error .assertionError => true | _ => false) = true := by decide +kernel
    cases he : Evaluator.new 4 2 1 0 false (some highFirst) with
    | ok e => rw [he] at h1; simp at h1
    | error x => rw [he] at h1; cases x <;> simp_all

/-- a custom order for short-deck poker: flush above full house -/
example : ∃ e, Evaluator.new 4 9 5 0 true (some ["sf", "fk", "fl", "fh", "st", "tk", "tp", "pa", "hc"]) = .ok e :=
  C17_accepted_partial 9 (by omega) 0 true _ (by decide)

end Clubs
