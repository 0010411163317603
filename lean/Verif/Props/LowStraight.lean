import Verif.Props.DeckSize
import Verif.Props.Orders

/-!
# C118: what `low_end_straight` changes
-/

namespace Clubs

open Spec

variable {s r c m n : Nat} {o : List String} {e e' : Evaluator}

/-- without the lowest straight, the class of a hand and what decides within the class are the same -/
theorem handKind_low {xs ps : List (Nat × Nat)} (hl : xs.length = c) (hsub : xs.Sublist ps) (hw : ¬ WheelAmong r c ps) :
    handKind s r true xs = handKind s r false xs ∧ tieKey r true (xs.map (·.1)) = tieKey r false (xs.map (·.1)) := by
  have h : IsStraight r true (xs.map (·.1)) ↔ IsStraight r false (xs.map (·.1)) := by
    unfold IsStraight
    constructor
    · rintro ⟨h1, h2 | ⟨-, -, h3, h4⟩⟩
      · exact ⟨h1, .inl h2⟩
      · rw [List.length_map, hl] at h4
        exact absurd ⟨(hsub.map _).subset h3, fun i hi => (hsub.map _).subset (h4 i hi)⟩ hw
    · rintro ⟨h1, h2 | ⟨h2, -⟩⟩
      · exact ⟨h1, .inl h2⟩
      · cases h2
  constructor
  · unfold handKind
    simp only [h]
  · unfold tieKey
    simp only [h]

/-- the shapes for which the evaluator with the low straight accepts an order -/
theorem low_shape (hs : 1 ≤ s ∧ s ≤ 4) (hr : 1 ≤ r ∧ r ≤ 13) (hc : 1 ≤ c ∧ c ≤ 5)
    (ho : o.Perm ["sf", "fk", "fh", "fl", "st", "tk", "tp", "pa", "hc"]) {k : Int}
    (he : Evaluator.new s r c k true (some o) = .ok e) {xs : List (Nat × Nat)} (hx : IsHand s r c xs) : c ≤ r + 1 ∧ ¬ (3 ≤ c ∧ r = c) := by
  obtain ⟨h1 | h1, -⟩ := (C17_accepted_every_shape_partial s r c hs hr hc k true o ho).1 ⟨e, he⟩
  · exact ⟨h1.1, fun h => h1.2 ⟨rfl, h.2.symm, h.1⟩⟩
  · obtain ⟨rfl, -, h2⟩ := h1
    have := isHand_card_le hx hr.2
    omega

/-- **C118**: two evaluators made with the same arguments, an order that lists every class once among them, except that one knows the
lowest straight and the other does not, agree on which of two players has the better cards and on whether they tie, unless
somebody has the cards of the lowest straight. -/
theorem C118_evaluate (hs : 1 ≤ s ∧ s ≤ 4) (hr : 1 ≤ r ∧ r ≤ 13) (hc : 1 ≤ c ∧ c ≤ 5) (hm : m ≤ c)
    (ho : o.Perm ["sf", "fk", "fh", "fl", "st", "tk", "tp", "pa", "hc"])
    (he : Evaluator.new s r c m true (some o) = .ok e) (he' : Evaluator.new s r c m false (some o) = .ok e')
    {ps qs ps₂ qs₂ : List (Nat × Nat)} {n₂ : Nat} (hp : IsHand s r n (ps ++ qs)) (hq : IsHand s r n₂ (ps₂ ++ qs₂))
    (hw : ¬ WheelAmong r c (ps ++ qs)) (hw₂ : ¬ WheelAmong r c (ps₂ ++ qs₂))
    {hole comm hole₂ comm₂ : List Card} (h1 : Denotes ps hole) (h2 : Denotes qs comm) (h3 : Denotes ps₂ hole₂) (h4 : Denotes qs₂ comm₂)
    (hx : ∃ sel, Selection c m hole comm sel) (hy : ∃ sel, Selection c m hole₂ comm₂ sel) :
    ∃ v w v' w', e.evaluate hole comm = .ok v ∧ e.evaluate hole₂ comm₂ = .ok w ∧ e'.evaluate hole comm = .ok v' ∧
      e'.evaluate hole₂ comm₂ = .ok w' ∧ (v < w ↔ v' < w') ∧ (v = w ↔ v' = w') := by
  have hn : o.Nodup := ho.nodup_iff.2 (by decide)
  have hand : ∀ {s r n : Nat} {l xs : List (Nat × Nat)}, IsHand s r n l → xs.Sublist l → xs.length = c → IsHand s r c xs :=
    fun h hsub hl => ⟨hl, h.2.1.sublist hsub, fun p hx => h.2.2 p (hsub.subset hx)⟩
  obtain ⟨hcr, hne⟩ : c ≤ r + 1 ∧ ¬ (3 ≤ c ∧ r = c) := by
    obtain ⟨sel, hsel⟩ := hx
    obtain ⟨xs, x1, x2, -⟩ := selection_hand hs.2 hp h1 h2 hsel
    exact low_shape hs hr hc ho he (hand hp x1 x2)
  have go : ∀ low, GoodOrder s r c low (some o) := fun low => .inr ⟨o, rfl, hn, hcr, by omega, by omega⟩
  obtain ⟨v, a1, a2, a3⟩ := C13_real_cards s r c hs hr hc m hm _ _ (go true) e he ps qs n hp hole comm h1 h2
  obtain ⟨w, b1, b2, b3⟩ := C13_real_cards s r c hs hr hc m hm _ _ (go true) e he ps₂ qs₂ n₂ hq hole₂ comm₂ h3 h4
  obtain ⟨v', a1', a2', a3'⟩ := C13_real_cards s r c hs hr hc m hm _ _ (go false) e' he' ps qs n hp hole comm h1 h2
  obtain ⟨w', b1', b2', b3'⟩ := C13_real_cards s r c hs hr hc m hm _ _ (go false) e' he' ps₂ qs₂ n₂ hq hole₂ comm₂ h3 h4
  refine ⟨v, w, v', w', a1, b1, a1', b1', same_comparison a2 b2 a2' b2' (a3 hx) (b3 hy) (a3' hx) (b3' hy) ?_⟩
  intro a b ha hb
  obtain ⟨xs, x1, x2, x3⟩ := selection_hand hs.2 hp h1 h2 ha
  obtain ⟨ys, y1, y2, y3⟩ := selection_hand hs.2 hq h3 h4 hb
  have X := hand hp x1 x2
  have Y := hand hq y1 y2
  obtain ⟨kx, tx⟩ := handKind_low (s := s) x2 x1 hw
  obtain ⟨ky, ty⟩ := handKind_low (s := s) y2 y1 hw₂
  obtain ⟨va, vb, k1, k2, k3⟩ := C17_obeyed_partial s r c hs hr hc hcr hne m true o hn e he xs ys X Y a b x3 y3
  obtain ⟨va', vb', k1', k2', k3'⟩ := C17_obeyed_partial s r c hs hr hc hcr hne m false o hn e' he' xs ys X Y a b x3 y3
  obtain ⟨vb2, va2, l1, l2, l3⟩ := C17_obeyed_partial s r c hs hr hc hcr hne m true o hn e he ys xs Y X b a y3 x3
  obtain ⟨vb2', va2', l1', l2', l3'⟩ := C17_obeyed_partial s r c hs hr hc hcr hne m false o hn e' he' ys xs Y X b a y3 x3
  rw [k2] at l1; rw [k1] at l2; rw [k2'] at l1'; rw [k1'] at l2'
  cases l1; cases l2; cases l1'; cases l2'
  refine ⟨va, vb, va', vb', k1, k2, k1', k2', ?_, ?_⟩
  · rw [k3, k3', kx, ky, tx, ty]
  · rw [l3, l3', kx, ky, tx, ty]

/-- **C118**: the lowest straight is a straight for the one and a high card for the other: ace to five beats three kings or loses. -/
theorem C118_wheel : ∃ e e' x y v w v' w', Evaluator.new 4 13 5 0 true (some usualOrder) = .ok e ∧
    Evaluator.new 4 13 5 0 false (some usualOrder) = .ok e' ∧
    Denotes [(12, 0), (0, 0), (1, 1), (2, 1), (3, 2)] x ∧ Denotes [(11, 1), (11, 2), (11, 3), (12, 0), (9, 1)] y ∧
    e.table.lookup x = .ok v ∧ e.table.lookup y = .ok w ∧ e'.table.lookup x = .ok v' ∧ e'.table.lookup y = .ok w' ∧ v < w ∧ w' < v' := by
  obtain ⟨e, he⟩ := C17_accepted_partial 13 (by omega) 0 true usualOrder (List.Perm.refl _)
  obtain ⟨e', he'⟩ := C17_accepted_partial 13 (by omega) 0 false usualOrder (List.Perm.refl _)
  have hx : IsHand 4 13 5 [(12, 0), (0, 0), (1, 1), (2, 1), (3, 2)] := ⟨rfl, by decide, by decide⟩
  have hy : IsHand 4 13 5 [(11, 1), (11, 2), (11, 3), (12, 0), (9, 1)] := ⟨rfl, by decide, by decide⟩
  have dx := denotes_mk _ (isHand_cards hx (by omega))
  have dy := denotes_mk _ (isHand_cards hy (by omega))
  obtain ⟨v, w, h1, h2, h3⟩ := C17_obeyed_partial 4 13 5 (by omega) (by omega) (by omega) (by omega) (by omega) 0 true usualOrder (by decide)
    e he _ _ hx hy _ _ dx dy
  obtain ⟨w', v', h1', h2', h3'⟩ := C17_obeyed_partial 4 13 5 (by omega) (by omega) (by omega) (by omega) (by omega) 0 false usualOrder (by decide)
    e' he' _ _ hy hx _ _ dy dx
  exact ⟨e, e', _, _, v, w, v', w', he, he', dx, dy, h1, h2, h2', h1', h3.2 (.inl (by decide)), h3'.2 (.inl (by decide))⟩

/-- hypotheses of `C118_evaluate`: a pair of kings or a low pair with a board of five cards -/
example : ∃ e e', Evaluator.new 4 13 5 (0 : Nat) true (some usualOrder) = .ok e ∧ Evaluator.new 4 13 5 (0 : Nat) false (some usualOrder) = .ok e' ∧
    usualOrder.Perm ["sf", "fk", "fh", "fl", "st", "tk", "tp", "pa", "hc"] ∧
    ∀ ps ∈ [[(11, 0), (11, 1)], [(4, 0), (4, 1)]], ∀ qs ∈ [[(12, 0), (0, 1), (1, 2), (2, 2), (5, 3)]],
      IsHand 4 13 7 (ps ++ qs) ∧ ¬ WheelAmong 13 5 (ps ++ qs) := by
  obtain ⟨e, he⟩ := C17_accepted_partial 13 (by omega) 0 true usualOrder (List.Perm.refl _)
  obtain ⟨e', he'⟩ := C17_accepted_partial 13 (by omega) 0 false usualOrder (List.Perm.refl _)
  refine ⟨e, e', he, he', List.Perm.refl _, ?_⟩
  intro ps hps qs hqs
  simp only [List.mem_cons, List.not_mem_nil, or_false] at hps hqs
  subst hqs
  rcases hps with rfl | rfl
  · exact ⟨⟨rfl, by decide, by decide⟩, by decide⟩
  · exact ⟨⟨rfl, by decide, by decide⟩, by decide⟩

end Clubs
