import Verif.Lemmas.Orders3

/-! Helper lemmas: looking hands up when a hand has as many cards as there are ranks. -/

namespace Clubs

open Spec

/-- the class of a hand when nobody looks at the suits -/
def Spec.plain : HandKind → HandKind
  | .straightFlush => .straight
  | .flush => .highCard
  | k => k

theorem plain_handKind (s r : Nat) (low : Bool) (ps : List (Nat × Nat)) :
    plain (handKind s r low ps) = rankKind r low (ps.map (·.1)) := by
  unfold handKind rankKind
  simp only []
  repeat' split
  all_goals rfl

section
variable {s r c : Nat} {low : Bool} {order : Option (List String)} {t : Table} {classes : List HandClass}

/-- If nothing is listed before the empty class of flushes, the suits are not looked at. -/
theorem Ctx.lookup_flat (X : Ctx s r c low order t classes) {ps : List (Nat × Nat)} (h : IsHand s r c ps)
    (hfl : (t.handDict .flush).cumulative = 0) :
    ∃ v, t.lookup (ps.map fun p => mkCard p.1 p.2) = .ok v ∧ FiledAs s r c low classes (ps.map (·.1)) (plain (handKind s r low ps)) v ∧
      Fits r c (plain (handKind s r low ps)) := by
  obtain ⟨hs, hr, hc, hcr1, hst⟩ := id X.shape
  have ha := isHand_cards h hs.2
  have hrs := isHand_ranks h hr.2
  obtain ⟨p, ps', rfl⟩ : ∃ p ps', ps = p :: ps' := by
    cases ps with
    | nil => have := h.1; simp at this; omega
    | cons p ps' => exact ⟨p, ps', rfl⟩
  obtain ⟨v, hv1, hv2, hv3⟩ := X.unsuited_lookup hrs (isHand_count_le h)
  rw [plain_handKind]
  refine ⟨v, ?_, hv2, hv3⟩
  rw [← hv1]
  by_cases hsuit : ∀ q ∈ p :: ps', q.2 = p.2
  · have hfold := (sameSuit_iff p ps' ha).2 hsuit
    have hn : ((p :: ps').map (·.1)).Nodup := by
      refine List.Nodup.map_on ?_ h.2.1
      intro a ha b hb hab
      exact Prod.ext hab ((hsuit a ha).trans (hsuit b hb).symm)
    have hlk : t.lookup ((p :: ps').map fun p => mkCard p.1 p.2)
        = t.suitedLookup.get (prodKey ((p :: ps').map (·.1))) := by
      unfold Table.lookup
      rw [if_pos hfold, ← primeFromBits_hand p ps' ha hn]
      rfl
    obtain ⟨su, -, hsl⟩ := X.built.suited
    rw [if_pos hfl] at hsl
    rw [hlk, hsl]
  · have hfold := fun e => hsuit ((sameSuit_iff p ps' ha).1 e)
    unfold Table.lookup
    rw [if_neg hfold, primeFromHand_eq _ ha]

/-- the positions of two classes with hands in the table's list are those in the given order -/
theorem Ctx.ranked_lt (X : Ctx s r c low order t classes) {a b : HandClass} (ha : 1 ≤ cnt s r c low a) (hb : 1 ≤ cnt s r c low b) :
    t.rankedHands.idxOf a < t.rankedHands.idxOf b ↔ classes.idxOf a < classes.idxOf b := by
  rw [X.built.ranked, X.spec.ranked]
  apply idxOf_filter_lt
  · have := X.bef_nonneg a
    rw [decide_eq_true_eq]; unfold bef cnt at *; omega
  · have := X.bef_nonneg b
    rw [decide_eq_true_eq]; unfold bef cnt at *; omega

end

end Clubs
