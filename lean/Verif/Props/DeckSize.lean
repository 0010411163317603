import Verif.Props.Evaluator

/-!
# C115: which hand is better does not depend on the deck
-/

namespace Clubs

open Spec

namespace Spec

/-- among the cards are those of the lowest straight of a deck with `r` ranks: an ace and the `c - 1` lowest ranks -/
def WheelAmong (r c : Nat) (ps : List (Nat × Nat)) : Prop :=
  12 ∈ ps.map (·.1) ∧ ∀ i < c - 1, 13 - r + i ∈ ps.map (·.1)

instance (r c : Nat) (ps : List (Nat × Nat)) : Decidable (WheelAmong r c ps) := inferInstanceAs (Decidable (_ ∧ _))

end Spec

variable {s r s' r' c m n : Nat} {low : Bool} {o : List String} {e e' : Evaluator}

/-- The deck matters to the class of a hand and to what decides within the class only by its lowest straight
and by whether there are different suits. -/
theorem handKind_deck {ps : List (Nat × Nat)} (hsu : 2 ≤ s ↔ 2 ≤ s')
    (hw : low = true → r = r' ∨ (¬ IsStraight r low (ps.map (·.1)) ∨ IsRun (ps.map (·.1))) ∧
      (¬ IsStraight r' low (ps.map (·.1)) ∨ IsRun (ps.map (·.1)))) :
    handKind s r low ps = handKind s' r' low ps ∧ tieKey r low (ps.map (·.1)) = tieKey r' low (ps.map (·.1)) := by
  have hf : IsFlush s ps ↔ IsFlush s' ps := by unfold IsFlush; rw [hsu]
  have hs : IsStraight r low (ps.map (·.1)) ↔ IsStraight r' low (ps.map (·.1)) := by
    by_cases hrun : IsRun (ps.map (·.1))
    · simp only [IsStraight, hrun, true_or]
    · cases low with
      | false => simp [IsStraight]
      | true =>
        rcases hw rfl with rfl | ⟨h1, h2⟩
        · rfl
        · simp only [hrun, or_false] at h1 h2
          simp only [h1, h2]
  constructor
  · unfold handKind
    simp only [hs, hf]
  · unfold tieKey
    by_cases hx : IsStraight r low (ps.map (·.1))
    · rw [if_pos hx, if_pos (hs.1 hx)]
      unfold straightTop
      by_cases hrun : IsRun (ps.map (·.1))
      · rw [if_pos hrun, if_pos hrun]
      · rw [if_neg hrun, if_neg hrun]
        cases low with
        | false => simp [IsStraight, hrun] at hx
        | true =>
          rcases hw rfl with rfl | ⟨h1, -⟩
          · rfl
          · exact absurd hx (h1.resolve_right hrun)
    · rw [if_neg hx, if_neg (fun h => hx (hs.2 h))]

/-- cards of the smaller deck without its lowest straight contain no lowest straight at all -/
theorem no_wheel {xs ps : List (Nat × Nat)} (hr : r ≤ r') (hr' : r' ≤ 13) (hp : IsHand s r c xs) (hsub : xs ⊆ ps)
    (hw : low = true → r = r' ∨ ¬ WheelAmong r c ps) :
    low = true → r = r' ∨ (¬ IsStraight r low (xs.map (·.1)) ∨ IsRun (xs.map (·.1))) ∧
      (¬ IsStraight r' low (xs.map (·.1)) ∨ IsRun (xs.map (·.1))) := by
  intro hl
  rcases hw hl with h | h
  · exact .inl h
  by_cases heq : r = r'
  · exact .inl heq
  refine .inr ⟨?_, ?_⟩
  · by_cases hrun : IsRun (xs.map (·.1))
    · exact .inr hrun
    · left
      rintro ⟨h3, h4 | ⟨-, -, h5, h6⟩⟩
      · exact hrun h4
      · have hin : ∀ {a}, a ∈ xs.map (·.1) → a ∈ ps.map (·.1) := by
          intro a ha
          obtain ⟨x, hx, rfl⟩ := List.mem_map.1 ha
          exact List.mem_map.2 ⟨x, hsub hx, rfl⟩
        rw [List.length_map, hp.1] at h6
        exact h ⟨hin h5, fun i hi => hin (h6 i hi)⟩
  · by_cases hrun : IsRun (xs.map (·.1))
    · exact .inr hrun
    · left
      rintro ⟨h3, h4 | ⟨-, -, -, h6⟩⟩
      · exact hrun h4
      · obtain ⟨x, hx, he⟩ := List.mem_map.1 (h6 0 (by omega))
        have := (hp.2.2 x hx).1.1
        omega

/-- **C115** (tables): two evaluators with the same order of the classes, for decks of different size, put two hands that
consist of cards of both decks into the same order. Missing: the lowest straight of the smaller deck (`C115_false_wheel`), as
many ranks as cards (`C11_false`), one suit against several, and evaluators without a given order (`C115_false_default`). -/
theorem C115_lookup_partial (hs : 1 ≤ s ∧ s ≤ 4) (hs' : 1 ≤ s' ∧ s' ≤ 4) (hsu : 2 ≤ s ↔ 2 ≤ s') (hr : 1 ≤ r) (hrr : r ≤ r') (hr' : r' ≤ 13)
    (hc : 1 ≤ c ∧ c ≤ 5) (hcr : c ≤ r + 1) (hne : ¬ (3 ≤ c ∧ (r = c ∨ r' = c))) {k k' : Int} (hn : o.Nodup)
    (he : Evaluator.new s r c k low (some o) = .ok e) (he' : Evaluator.new s' r' c k' low (some o) = .ok e')
    {ps qs : List (Nat × Nat)} (hp : IsHand s r c ps) (hp' : IsHand s' r' c ps) (hq : IsHand s r c qs) (hq' : IsHand s' r' c qs)
    (hw : low = true → r = r' ∨ ¬ WheelAmong r c ps) (hv : low = true → r = r' ∨ ¬ WheelAmong r c qs)
    {x y : List Card} (hx : Denotes ps x) (hy : Denotes qs y) :
    ∃ v w v' w', e.table.lookup x = .ok v ∧ e.table.lookup y = .ok w ∧ e'.table.lookup x = .ok v' ∧ e'.table.lookup y = .ok w' ∧
      (v < w ↔ v' < w') := by
  obtain ⟨v, w, h1, h2, h3⟩ := C17_obeyed_partial s r c hs ⟨hr, by omega⟩ hc hcr (by omega) k low o hn e he ps qs hp hq x y hx hy
  obtain ⟨v', w', h1', h2', h3'⟩ := C17_obeyed_partial s' r' c hs' ⟨by omega, hr'⟩ hc (by omega) (by omega) k' low o hn e' he' ps qs hp' hq' x y hx hy
  refine ⟨v, w, v', w', h1, h2, h1', h2', ?_⟩
  obtain ⟨a1, a2⟩ := handKind_deck hsu (no_wheel hrr hr' hp (fun _ h => h) hw)
  obtain ⟨b1, b2⟩ := handKind_deck hsu (no_wheel hrr hr' hq (fun _ h => h) hv)
  rw [h3, h3', a1, a2, b1, b2]

/-- an allowed selection of cards is a hand -/
theorem selection_hand {ps qs : List (Nat × Nat)} (hs : s ≤ 4) (hp : IsHand s r n (ps ++ qs)) {hole comm sel : List Card}
    (hh : Denotes ps hole) (hk : Denotes qs comm) (hsel : Selection c m hole comm sel) :
    ∃ xs : List (Nat × Nat), xs.Sublist (ps ++ qs) ∧ xs.length = c ∧ Denotes xs sel := by
  have ap : AreCards (ps ++ qs) := isHand_cards hp hs
  have a1 : AreCards ps := fun p h => ap p (by simp [h])
  have a2 : AreCards qs := fun p h => ap p (by simp [h])
  rw [denotes_eq a1 hh, denotes_eq a2 hk] at hsel
  obtain ⟨xs, hsub, hlen, rfl⟩ : ∃ xs : List (Nat × Nat), xs.Sublist (ps ++ qs) ∧ xs.length = c ∧
      sel = xs.map fun p => mkCard p.1 p.2 := by
    unfold Selection at hsel
    split at hsel
    · rw [← List.map_append] at hsel
      obtain ⟨xs, h1, rfl⟩ := sublist_pairs hsel.1
      exact ⟨xs, h1, by have := hsel.2; simp at this; omega, rfl⟩
    · obtain ⟨a, b, ha, hal, hb, hbl, rfl⟩ := hsel
      obtain ⟨xa, h1, rfl⟩ := sublist_pairs ha
      obtain ⟨xb, h2, rfl⟩ := sublist_pairs hb
      refine ⟨xa ++ xb, h1.append h2, ?_, by simp⟩
      simp only [List.length_map] at hal hbl
      rw [List.length_append]; omega
  exact ⟨xs, hsub, hlen, denotes_mk xs (fun p h => ap p (hsub.subset h))⟩

/-- if two tables order all selections alike they order the best ones alike -/
theorem same_comparison {P Q : List Card → Prop} {t t' : Table} {v w v' w' : Int}
    (a2 : ∀ sel, P sel → ∃ x, t.lookup sel = .ok x ∧ v ≤ x) (b2 : ∀ sel, Q sel → ∃ x, t.lookup sel = .ok x ∧ w ≤ x)
    (a2' : ∀ sel, P sel → ∃ x, t'.lookup sel = .ok x ∧ v' ≤ x) (b2' : ∀ sel, Q sel → ∃ x, t'.lookup sel = .ok x ∧ w' ≤ x)
    (a3 : ∃ sel, P sel ∧ t.lookup sel = .ok v) (b3 : ∃ sel, Q sel ∧ t.lookup sel = .ok w)
    (a3' : ∃ sel, P sel ∧ t'.lookup sel = .ok v') (b3' : ∃ sel, Q sel ∧ t'.lookup sel = .ok w')
    (key : ∀ a b, P a → Q b → ∃ va vb va' vb', t.lookup a = .ok va ∧ t.lookup b = .ok vb ∧ t'.lookup a = .ok va' ∧
      t'.lookup b = .ok vb' ∧ (va < vb ↔ va' < vb') ∧ (vb < va ↔ vb' < va')) : (v < w ↔ v' < w') ∧ (v = w ↔ v' = w') := by
  obtain ⟨a0, sa, la⟩ := a3
  obtain ⟨b0, sb, lb⟩ := b3
  obtain ⟨a0', sa', la'⟩ := a3'
  obtain ⟨b0', sb', lb'⟩ := b3'
  have lt1 : v < w ↔ v' < w' := by
    constructor
    · intro hlt
      obtain ⟨va, vb, va', vb', k1, k2, k3, k4, k5, -⟩ := key a0 b0' sa sb'
      obtain ⟨x, hx1, hx2⟩ := b2 b0' sb'
      obtain ⟨y, hy1, hy2⟩ := a2' a0 sa
      rw [la] at k1; rw [hx1] at k2; rw [hy1] at k3; rw [lb'] at k4
      cases k1; cases k2; cases k3; cases k4
      have := k5.1 (by omega)
      omega
    · intro hlt
      obtain ⟨va, vb, va', vb', k1, k2, k3, k4, k5, -⟩ := key a0' b0 sa' sb
      obtain ⟨x, hx1, hx2⟩ := b2' b0 sb
      obtain ⟨y, hy1, hy2⟩ := a2 a0' sa'
      rw [hy1] at k1; rw [lb] at k2; rw [la'] at k3; rw [hx1] at k4
      cases k1; cases k2; cases k3; cases k4
      have := k5.2 (by omega)
      omega
  have lt2 : w < v ↔ w' < v' := by
    constructor
    · intro hlt
      obtain ⟨va, vb, va', vb', k1, k2, k3, k4, -, k5⟩ := key a0' b0 sa' sb
      obtain ⟨x, hx1, hx2⟩ := a2 a0' sa'
      obtain ⟨y, hy1, hy2⟩ := b2' b0 sb
      rw [hx1] at k1; rw [lb] at k2; rw [la'] at k3; rw [hy1] at k4
      cases k1; cases k2; cases k3; cases k4
      have := k5.1 (by omega)
      omega
    · intro hlt
      obtain ⟨va, vb, va', vb', k1, k2, k3, k4, -, k5⟩ := key a0 b0' sa sb'
      obtain ⟨x, hx1, hx2⟩ := a2' a0 sa
      obtain ⟨y, hy1, hy2⟩ := b2 b0' sb'
      rw [la] at k1; rw [hy1] at k2; rw [hx1] at k3; rw [lb'] at k4
      cases k1; cases k2; cases k3; cases k4
      have := k5.2 (by omega)
      omega
  exact ⟨lt1, by omega⟩

/-- **C115**: two evaluators with the same order of the classes and as many mandatory hole cards, for decks of different size,
agree on which of two players has the better cards and on whether they tie. Missing: as in `C115_lookup_partial`. -/
theorem C115_evaluate_partial (hs : 1 ≤ s ∧ s ≤ 4) (hs' : 1 ≤ s' ∧ s' ≤ 4) (hsu : 2 ≤ s ↔ 2 ≤ s') (hr : 1 ≤ r) (hrr : r ≤ r') (hr' : r' ≤ 13)
    (hc : 1 ≤ c ∧ c ≤ 5) (hcr : c ≤ r + 1) (hne : ¬ (3 ≤ c ∧ (r = c ∨ r' = c))) (hm : m ≤ c) (hn : o.Nodup)
    (he : Evaluator.new s r c m low (some o) = .ok e) (he' : Evaluator.new s' r' c m low (some o) = .ok e')
    {ps qs ps₂ qs₂ : List (Nat × Nat)} {n₂ : Nat} (hp : IsHand s r n (ps ++ qs)) (hp' : IsHand s' r' n (ps ++ qs))
    (hq : IsHand s r n₂ (ps₂ ++ qs₂)) (hq' : IsHand s' r' n₂ (ps₂ ++ qs₂))
    (hw : low = true → r = r' ∨ ¬ WheelAmong r c (ps ++ qs) ∧ ¬ WheelAmong r c (ps₂ ++ qs₂))
    {hole comm hole₂ comm₂ : List Card} (h1 : Denotes ps hole) (h2 : Denotes qs comm) (h3 : Denotes ps₂ hole₂) (h4 : Denotes qs₂ comm₂)
    (hx : ∃ sel, Selection c m hole comm sel) (hy : ∃ sel, Selection c m hole₂ comm₂ sel) :
    ∃ v w v' w', e.evaluate hole comm = .ok v ∧ e.evaluate hole₂ comm₂ = .ok w ∧ e'.evaluate hole comm = .ok v' ∧
      e'.evaluate hole₂ comm₂ = .ok w' ∧ (v < w ↔ v' < w') ∧ (v = w ↔ v' = w') := by
  have ho : GoodOrder s r c low (some o) := .inr ⟨o, rfl, hn, hcr, by omega, by omega⟩
  have ho' : GoodOrder s' r' c low (some o) := .inr ⟨o, rfl, hn, by omega, by omega, by omega⟩
  obtain ⟨v, a1, a2, a3⟩ := C13_real_cards s r c hs ⟨hr, by omega⟩ hc m hm low _ ho e he ps qs n hp hole comm h1 h2
  obtain ⟨w, b1, b2, b3⟩ := C13_real_cards s r c hs ⟨hr, by omega⟩ hc m hm low _ ho e he ps₂ qs₂ n₂ hq hole₂ comm₂ h3 h4
  obtain ⟨v', a1', a2', a3'⟩ := C13_real_cards s' r' c hs' ⟨by omega, hr'⟩ hc m hm low _ ho' e' he' ps qs n hp' hole comm h1 h2
  obtain ⟨w', b1', b2', b3'⟩ := C13_real_cards s' r' c hs' ⟨by omega, hr'⟩ hc m hm low _ ho' e' he' ps₂ qs₂ n₂ hq' hole₂ comm₂ h3 h4
  refine ⟨v, w, v', w', a1, b1, a1', b1', ?_⟩
  have hand : ∀ {s r n : Nat} {l xs : List (Nat × Nat)}, IsHand s r n l → xs.Sublist l → xs.length = c → IsHand s r c xs :=
    fun h hsub hl => ⟨hl, h.2.1.sublist hsub, fun p hx => h.2.2 p (hsub.subset hx)⟩
  have wh : ∀ {l xs : List (Nat × Nat)}, (low = true → r = r' ∨ ¬ WheelAmong r c l) → xs.Sublist l →
      (low = true → r = r' ∨ ¬ WheelAmong r c xs) := by
    intro l xs h hsub hl
    refine (h hl).imp id (fun h hx => h ⟨?_, fun i hi => ?_⟩)
    · exact (hsub.map _).subset hx.1
    · exact (hsub.map _).subset (hx.2 i hi)
  -- any two selections are in the same order
  have key : ∀ a b, Selection c m hole comm a → Selection c m hole₂ comm₂ b →
      ∃ va vb va' vb', e.table.lookup a = .ok va ∧ e.table.lookup b = .ok vb ∧ e'.table.lookup a = .ok va' ∧ e'.table.lookup b = .ok vb' ∧
        (va < vb ↔ va' < vb') ∧ (vb < va ↔ vb' < va') := by
    intro a b ha hb
    obtain ⟨xs, x1, x2, x3⟩ := selection_hand hs.2 hp h1 h2 ha
    obtain ⟨ys, y1, y2, y3⟩ := selection_hand hs.2 hq h3 h4 hb
    have wx := wh (fun hl => (hw hl).imp id And.left) x1
    have wy := wh (fun hl => (hw hl).imp id And.right) y1
    obtain ⟨va, vb, va', vb', k1, k2, k3, k4, k5⟩ := C115_lookup_partial hs hs' hsu hr hrr hr' hc hcr hne hn he he'
      (hand hp x1 x2) (hand hp' x1 x2) (hand hq y1 y2) (hand hq' y1 y2) wx wy x3 y3
    obtain ⟨vb2, va2, vb2', va2', l1, l2, l3, l4, l5⟩ := C115_lookup_partial hs hs' hsu hr hrr hr' hc hcr hne hn he he'
      (hand hq y1 y2) (hand hq' y1 y2) (hand hp x1 x2) (hand hp' x1 x2) wy wx y3 x3
    rw [k2] at l1; rw [k1] at l2; rw [k4] at l3; rw [k3] at l4
    cases l1; cases l2; cases l3; cases l4
    exact ⟨va, vb, va', vb', k1, k2, k3, k4, k5, l5⟩
  exact same_comparison a2 b2 a2' b2' (a3 hx) (b3 hy) (a3' hx) (b3' hy) key

/-- the usual order -/
def usualOrder : List String := ["sf", "fk", "fh", "fl", "st", "tk", "tp", "pa", "hc"]

/-- hypotheses of `C115_evaluate_partial`: kings against queens on a board of a full and a short deck -/
example : ∃ e e', Evaluator.new 4 9 5 (0 : Nat) true (some usualOrder) = .ok e ∧ Evaluator.new 4 13 5 (0 : Nat) true (some usualOrder) = .ok e' ∧
    usualOrder.Nodup ∧ ∀ ps ∈ [[(11, 0), (11, 1)], [(10, 0), (10, 1)]], ∀ qs ∈ [[(12, 0), (8, 1), (7, 2), (6, 2), (5, 3)]],
      IsHand 4 9 7 (ps ++ qs) ∧ IsHand 4 13 7 (ps ++ qs) ∧ ¬ WheelAmong 9 5 (ps ++ qs) ∧
      ∃ hole comm sel, Denotes ps hole ∧ Denotes qs comm ∧ Selection (5 : Nat) (0 : Nat) hole comm sel := by
  obtain ⟨e, he⟩ := C17_accepted_partial 9 (by omega) 0 true usualOrder (List.Perm.refl _)
  obtain ⟨e', he'⟩ := C17_accepted_partial 13 (by omega) 0 true usualOrder (List.Perm.refl _)
  refine ⟨e, e', he, he', by decide, ?_⟩
  have hsel : ∀ ps qs : List (Nat × Nat), IsHand 4 9 7 (ps ++ qs) →
      ∃ hole comm sel, Denotes ps hole ∧ Denotes qs comm ∧ Selection (5 : Nat) (0 : Nat) hole comm sel := by
    intro ps qs h
    have ap := isHand_cards h (by omega)
    refine ⟨_, _, (ps.map (fun p => mkCard p.1 p.2) ++ qs.map (fun p => mkCard p.1 p.2)).take 5,
      denotes_mk ps (fun p hp => ap p (by simp [hp])), denotes_mk qs (fun p hp => ap p (by simp [hp])), ?_⟩
    unfold Selection
    rw [if_pos Int.natCast_zero]
    refine ⟨List.take_sublist _ _, ?_⟩
    have := h.1
    rw [List.length_append] at this
    rw [List.length_take, List.length_append, List.length_map, List.length_map, this]
    rfl
  intro ps hps qs hqs
  simp only [List.mem_cons, List.not_mem_nil, or_false] at hps hqs
  subst hqs
  rcases hps with rfl | rfl
  · exact ⟨⟨rfl, by decide, by decide⟩, ⟨rfl, by decide, by decide⟩, by decide, hsel _ _ ⟨rfl, by decide, by decide⟩⟩
  · exact ⟨⟨rfl, by decide, by decide⟩, ⟨rfl, by decide, by decide⟩, by decide, hsel _ _ ⟨rfl, by decide, by decide⟩⟩

/-- C115 does not hold for the lowest straight of the smaller deck: with the same order of the classes nine, eight, seven, six
and ace beat three aces in the short deck and lose in the full one. -/
theorem C115_false_wheel : ∃ e e' x y v w v' w', Evaluator.new 4 9 5 0 true (some usualOrder) = .ok e ∧
    Evaluator.new 4 13 5 0 true (some usualOrder) = .ok e' ∧
    Denotes [(12, 0), (4, 0), (5, 1), (6, 1), (7, 2)] x ∧ Denotes [(12, 1), (12, 2), (12, 3), (11, 0), (9, 1)] y ∧
    e.table.lookup x = .ok v ∧ e.table.lookup y = .ok w ∧ e'.table.lookup x = .ok v' ∧ e'.table.lookup y = .ok w' ∧ v < w ∧ w' < v' := by
  obtain ⟨e, he⟩ := C17_accepted_partial 9 (by omega) 0 true usualOrder (List.Perm.refl _)
  obtain ⟨e', he'⟩ := C17_accepted_partial 13 (by omega) 0 true usualOrder (List.Perm.refl _)
  have hx : IsHand 4 9 5 [(12, 0), (4, 0), (5, 1), (6, 1), (7, 2)] := ⟨rfl, by decide, by decide⟩
  have hy : IsHand 4 9 5 [(12, 1), (12, 2), (12, 3), (11, 0), (9, 1)] := ⟨rfl, by decide, by decide⟩
  have hx' : IsHand 4 13 5 [(12, 0), (4, 0), (5, 1), (6, 1), (7, 2)] := ⟨rfl, by decide, by decide⟩
  have hy' : IsHand 4 13 5 [(12, 1), (12, 2), (12, 3), (11, 0), (9, 1)] := ⟨rfl, by decide, by decide⟩
  have dx := denotes_mk _ (isHand_cards hx (by omega))
  have dy := denotes_mk _ (isHand_cards hy (by omega))
  obtain ⟨v, w, h1, h2, h3⟩ := C17_obeyed_partial 4 9 5 (by omega) (by omega) (by omega) (by omega) (by omega) 0 true usualOrder (by decide)
    e he _ _ hx hy _ _ dx dy
  obtain ⟨w', v', h1', h2', h3'⟩ := C17_obeyed_partial 4 13 5 (by omega) (by omega) (by omega) (by omega) (by omega) 0 true usualOrder (by decide)
    e' he' _ _ hy' hx' _ _ dy dx
  exact ⟨e, e', _, _, v, w, v', w', he, he', dx, dy, h1, h2, h2', h1', h3.2 (.inl (by decide)), h3'.2 (.inl (by decide))⟩

/-- C115 does not hold without a given order: the classes are ordered by the numbers of hands, and in the short deck a flush beats a full house. -/
theorem C115_false_default : ∃ e e' x y v w v' w', Evaluator.new 4 9 5 0 true none = .ok e ∧
    Evaluator.new 4 13 5 0 true none = .ok e' ∧
    Denotes [(12, 0), (11, 0), (10, 0), (9, 0), (7, 0)] x ∧ Denotes [(12, 1), (12, 2), (12, 3), (11, 2), (11, 1)] y ∧
    e.table.lookup x = .ok v ∧ e.table.lookup y = .ok w ∧ e'.table.lookup x = .ok v' ∧ e'.table.lookup y = .ok w' ∧ v < w ∧ w' < v' := by
  obtain ⟨e, he⟩ := (C09_exact_partial 4 9 5 (by omega) (by omega) (by omega) 0 true).2 (by simp)
  obtain ⟨e', he'⟩ := (C09_exact_partial 4 13 5 (by omega) (by omega) (by omega) 0 true).2 (by simp)
  have hx : IsHand 4 9 5 [(12, 0), (11, 0), (10, 0), (9, 0), (7, 0)] := ⟨rfl, by decide, by decide⟩
  have hy : IsHand 4 9 5 [(12, 1), (12, 2), (12, 3), (11, 2), (11, 1)] := ⟨rfl, by decide, by decide⟩
  have hx' : IsHand 4 13 5 [(12, 0), (11, 0), (10, 0), (9, 0), (7, 0)] := ⟨rfl, by decide, by decide⟩
  have hy' : IsHand 4 13 5 [(12, 1), (12, 2), (12, 3), (11, 2), (11, 1)] := ⟨rfl, by decide, by decide⟩
  have dx := denotes_mk _ (isHand_cards hx (by omega))
  have dy := denotes_mk _ (isHand_cards hy (by omega))
  have hz : Evaluator.new 4 9 5 0 true none = .ok e := he
  obtain ⟨v, w, h1, h2, h3, -⟩ := C11_order_partial 4 9 5 (by omega) (by omega) (by omega) (by omega) 0 true none (.inl rfl)
    e he _ _ hx hy _ _ dx dy
  obtain ⟨w', v', h1', h2', h3', -⟩ := C11_standard 0 true e' he' _ _ hy' hx' _ _ dy dx
  have hn : (e.table.rankedHands.map (·.name)).idxOf "flush" < (e.table.rankedHands.map (·.name)).idxOf "full house" := by
    obtain ⟨classes, B⟩ := Table.new_ok (Evaluator.new_table hz).1
    rw [B.ranked]
    have : (orderedClasses (classCount 4 9 5 true) none).bind (fun classes => Except.ok (decide
        (((rankLoop (classCount 4 9 5 true) classes).rankedHands.map (·.name)).idxOf "flush" <
          ((rankLoop (classCount 4 9 5 true) classes).rankedHands.map (·.name)).idxOf "full house"))) = .ok true := by
      decide +kernel
    rw [B.ordered] at this
    simpa [Except.bind] using this
  have k1 : handKind 4 9 true [(12, 0), (11, 0), (10, 0), (9, 0), (7, 0)] = .flush := by decide
  have k2 : handKind 4 9 true [(12, 1), (12, 2), (12, 3), (11, 2), (11, 1)] = .fullHouse := by decide
  refine ⟨e, e', _, _, v, w, v', w', he, he', dx, dy, h1, h2, h2', h1', h3.2 (.inl ?_), h3'.2 (.inl (by decide))⟩
  rw [k1, k2]
  exact hn

end Clubs
