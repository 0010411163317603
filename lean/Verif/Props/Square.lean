import Verif.Lemmas.Square
import Verif.Props.Orders

/-!
# Properties C11 and C17, continued: as many cards as ranks

With three or more cards from exactly as many ranks the cards of one suit are always a straight flush, so the class
"flush" is empty. What the code makes of it depends on where this empty class is listed. `Spec.plain` is the class
of a hand when nobody looks at the suits: a straight flush is a straight.
-/

namespace Clubs

open Spec

/-- **C11** for three or more cards from exactly as many ranks, without a custom order: the code does not look at
the suits. Hands are ordered by their class and then by their ranks, as in `C11_order_partial`, but a straight flush
counts as a straight. -/
theorem C11_square_partial (s c : Nat) (hs : 1 ≤ s ∧ s ≤ 4) (hc : 3 ≤ c ∧ c ≤ 5) (m : Int) (low : Bool)
    (e : Evaluator) (he : Evaluator.new s c c m low none = .ok e)
    (ps qs : List (Nat × Nat)) (hp : IsHand s c c ps) (hq : IsHand s c c qs) (h k : List Card)
    (hh : Denotes ps h) (hk : Denotes qs k) :
    ∃ v w, e.table.lookup h = .ok v ∧ e.table.lookup k = .ok w ∧
      (v < w ↔ classPos e (plain (handKind s c low ps)) < classPos e (plain (handKind s c low qs)) ∨
        (plain (handKind s c low ps) = plain (handKind s c low qs) ∧
          tieKey c low (qs.map (·.1)) < tieKey c low (ps.map (·.1)))) ∧
      (v = w ↔ plain (handKind s c low ps) = plain (handKind s c low qs) ∧ (ps.map (·.1)).Perm (qs.map (·.1))) := by
  obtain ⟨classes, X⟩ := ctx_none hs (by omega) (by omega) (Evaluator.new_table he).1 (isHand_card_le hp (by omega))
  have hfl : (e.table.handDict .flush).cumulative = 0 := by
    have hq := (square_table s (by omega) c (by omega) low).resolve_left (fun h => h ⟨hs.1, by omega, X.shape.2.2.2.2⟩)
    have h0 : cnt s c c low .flush = 0 := hq.2.2.1 _ (mem_classList _) (by simp [free, hc.1])
    rw [X.cum, none_zero X.shape X.built.ordered .flush h0, h0]
    rfl
  obtain ⟨v, h1, h2, h3⟩ := X.lookup_flat hp hfl
  obtain ⟨w, g1, g2, -⟩ := X.lookup_flat hq hfl
  rw [denotes_eq (isHand_cards hp hs.2) hh, denotes_eq (isHand_cards hq hs.2) hk]
  refine ⟨v, w, h1, g1, ?_, filed_eq X h2 g2 (.inl h3)⟩
  rw [(filed_order X h2 g2 (.inl h3)).1]
  unfold classPos
  rw [← cls_name, ← cls_name, idxOf_map_name, idxOf_map_name]

/-- Flushes are listed before every class with hands. -/
def Spec.FlushFirst (s c : Nat) (low : Bool) (o : List String) : Prop :=
  ∀ b : HandKind, numHands s c c low b ≠ 0 → o.idxOf "fl" < o.idxOf b.code

/-- **C17** for three or more cards from exactly as many ranks: an accepted order is obeyed in full if there is a
class with hands before the (empty) flush; otherwise a straight flush counts as a straight. -/
theorem C17_square_partial (s c : Nat) (hs : 2 ≤ s ∧ s ≤ 4) (hc : 3 ≤ c ∧ c ≤ 5) (m : Int) (low : Bool)
    (o : List String) (hn : o.Nodup) (e : Evaluator) (he : Evaluator.new s c c m low (some o) = .ok e)
    (ps qs : List (Nat × Nat)) (hp : IsHand s c c ps) (hq : IsHand s c c qs) (h k : List Card)
    (hh : Denotes ps h) (hk : Denotes qs k) :
    ∃ v w, e.table.lookup h = .ok v ∧ e.table.lookup k = .ok w ∧
      (FlushFirst s c low o → (v < w ↔
        o.idxOf (plain (handKind s c low ps)).code < o.idxOf (plain (handKind s c low qs)).code ∨
        (plain (handKind s c low ps) = plain (handKind s c low qs) ∧
          tieKey c low (qs.map (·.1)) < tieKey c low (ps.map (·.1))))) ∧
      (¬ FlushFirst s c low o → (v < w ↔
        o.idxOf (handKind s c low ps).code < o.idxOf (handKind s c low qs).code ∨
        (handKind s c low ps = handKind s c low qs ∧
          tieKey c low (qs.map (·.1)) < tieKey c low (ps.map (·.1))))) := by
  have hst : StraightOK c c low := by
    rintro ⟨rfl, -, -⟩
    obtain ⟨cl, B⟩ := Table.new_ok (Evaluator.new_table he).1
    obtain ⟨h1, h2⟩ := classes_perm B.ordered hn (B.complete o rfl)
    exact no_table_wrap ⟨by omega, hs.2⟩ hc h1 h2 B
  have hS : Shape s c c low := ⟨⟨by omega, hs.2⟩, by omega, by omega, by omega, hst⟩
  obtain ⟨classes, X⟩ := ctx_some hS (Evaluator.new_table he).1 hn
  obtain ⟨-, -, q3, -, -, n4⟩ := (square_table s (by omega) c (by omega) low).resolve_left
    (fun h => h ⟨by omega, by omega, hst⟩)
  have hidx : ∀ k : HandKind, o.idxOf k.code = classes.idxOf (cls k) := by
    intro k
    rw [← classes_some X.built.ordered, ← codeOf_cls, idxOf_codeOf]
  have hz : ∀ k, numHands s c c low k = 0 ↔ cnt s c c low (cls k) = 0 := by
    intro k
    rw [numHands_eq hs.2 (by omega) hc.2 (by omega) hst, n4 k (mem_kindList k)]
  have h0 : cnt s c c low .flush = 0 := q3 _ (mem_classList _) (by simp [free, hc.1])
  have hflat : FlushFirst s c low o ↔ (e.table.handDict .flush).cumulative = 0 := by
    rw [X.cum, h0, Int.add_zero]
    change _ ↔ before (cnt s c c low) classes .flush = 0
    rw [before_eq_zero _ X.nonneg]
    constructor
    · intro H d hd hlt
      obtain ⟨b, rfl⟩ := cls_surj d
      by_contra hb
      have := H b (fun e => hb ((hz b).1 e))
      rw [show ("fl" : String) = HandKind.flush.code from rfl, hidx, hidx] at this
      exact absurd this (by simp only [cls] at *; omega)
    · intro H b hb
      rw [show ("fl" : String) = HandKind.flush.code from rfl, hidx, hidx]
      by_contra hlt
      rcases Nat.lt_or_eq_of_le (Nat.le_of_not_lt hlt) with h4 | h4
      · exact hb ((hz b).2 (H (cls b) (X.all _) h4))
      · have := (List.idxOf_inj (X.all (cls b))).1 h4
        exact hb ((hz b).2 (by rw [this]; exact h0))
  rw [denotes_eq (isHand_cards hp hs.2) hh, denotes_eq (isHand_cards hq hs.2) hk]
  by_cases hfl : (e.table.handDict .flush).cumulative = 0
  · obtain ⟨v, h1, h2, h3⟩ := X.lookup_flat hp hfl
    obtain ⟨w, g1, g2, -⟩ := X.lookup_flat hq hfl
    refine ⟨v, w, h1, g1, fun _ => ?_, fun H => absurd (hflat.2 hfl) H⟩
    rw [(filed_order X h2 g2 (.inl h3)).1, X.ranked_lt (filed_range X h2).2.2.2 (filed_range X g2).2.2.2, hidx, hidx]
  · obtain ⟨v, k1, h1, h2, h3, h4⟩ := X.lookup hp (.inl (by omega))
    obtain ⟨w, k2, g1, g2, g3, -⟩ := X.lookup hq (.inl (by omega))
    have e1 : k1 = handKind s c low ps := h3.resolve_right (fun hx => hfl hx.2.2.2.1)
    have e2 : k2 = handKind s c low qs := g3.resolve_right (fun hx => hfl hx.2.2.2.1)
    refine ⟨v, w, h1, g1, fun H => absurd (hflat.1 H) hfl, fun _ => ?_⟩
    rw [(filed_order X h2 g2 h4).1, X.ranked_lt (filed_range X h2).2.2.2 (filed_range X g2).2.2.2, e1, e2, hidx, hidx]

/-- Three cards of three ranks and four suits: with flushes listed last a straight flush beats a straight … -/
example (e : Evaluator)
    (he : Evaluator.new 4 3 3 0 false (some ["fk", "fh", "tp", "sf", "st", "tk", "pa", "fl", "hc"]) = .ok e) :
    ∃ v w, e.table.lookup [mkCard 12 0, mkCard 11 0, mkCard 10 0] = .ok v ∧
      e.table.lookup [mkCard 12 0, mkCard 11 0, mkCard 10 1] = .ok w ∧ v < w := by
  have hp : IsHand 4 3 3 [(12, 0), (11, 0), (10, 0)] := ⟨by decide, by decide, by decide⟩
  have hq : IsHand 4 3 3 [(12, 0), (11, 0), (10, 1)] := ⟨by decide, by decide, by decide⟩
  obtain ⟨v, w, h1, h2, -, h3⟩ := C17_square_partial 4 3 (by omega) (by omega) 0 false _ (by decide) e he _ _ hp hq _ _
    (denotes_mk _ (isHand_cards hp (by omega))) (denotes_mk _ (isHand_cards hq (by omega)))
  refine ⟨v, w, h1, h2, (h3 ?_).2 (.inl (by decide))⟩
  intro H
  have := H .straight
  rw [numHands_eq (by omega) (by omega) (by omega) (by omega) (by decide)] at this
  exact absurd this (by decide +kernel)

/-- … with flushes listed first it does not. -/
example (e : Evaluator)
    (he : Evaluator.new 4 3 3 0 false (some ["fk", "fh", "tp", "fl", "sf", "st", "tk", "pa", "hc"]) = .ok e) :
    ∃ v w, e.table.lookup [mkCard 12 0, mkCard 11 0, mkCard 10 0] = .ok v ∧
      e.table.lookup [mkCard 12 0, mkCard 11 0, mkCard 10 1] = .ok w ∧ ¬ v < w := by
  have hp : IsHand 4 3 3 [(12, 0), (11, 0), (10, 0)] := ⟨by decide, by decide, by decide⟩
  have hq : IsHand 4 3 3 [(12, 0), (11, 0), (10, 1)] := ⟨by decide, by decide, by decide⟩
  obtain ⟨v, w, h1, h2, h3, -⟩ := C17_square_partial 4 3 (by omega) (by omega) 0 false _ (by decide) e he _ _ hp hq _ _
    (denotes_mk _ (isHand_cards hp (by omega))) (denotes_mk _ (isHand_cards hq (by omega)))
  have hF : FlushFirst 4 3 false ["fk", "fh", "tp", "fl", "sf", "st", "tk", "pa", "hc"] := by
    intro b
    rw [numHands_eq (by omega) (by omega) (by omega) (by omega) (by decide)]
    cases b <;> decide +kernel
  refine ⟨v, w, h1, h2, fun hlt => ?_⟩
  rcases (h3 hF).1 hlt with h | h
  · exact absurd h (by decide)
  · exact absurd h.2 (by simp)

/-- without an order a straight flush and a straight of the same ranks tie -/
example (e : Evaluator) (he : Evaluator.new 4 3 3 0 false none = .ok e) :
    ∃ v, e.table.lookup [mkCard 12 0, mkCard 11 0, mkCard 10 0] = .ok v ∧
      e.table.lookup [mkCard 12 0, mkCard 11 0, mkCard 10 1] = .ok v := by
  have hp : IsHand 4 3 3 [(12, 0), (11, 0), (10, 0)] := ⟨by decide, by decide, by decide⟩
  have hq : IsHand 4 3 3 [(12, 0), (11, 0), (10, 1)] := ⟨by decide, by decide, by decide⟩
  obtain ⟨v, w, h1, h2, -, h3⟩ := C11_square_partial 4 3 (by omega) (by omega) 0 false e he _ _ hp hq _ _
    (denotes_mk _ (isHand_cards hp (by omega))) (denotes_mk _ (isHand_cards hq (by omega)))
  have : v = w := h3.2 ⟨by decide, by simp⟩
  exact ⟨v, h1, this ▸ h2⟩

end Clubs
