import Verif.Lemmas.Lookup2

/-! Helper lemmas: `Table.lookup` on a hand, and the order of the values. -/

namespace Clubs

open Spec

theorem and_suit (k u v : Nat) (hk : k < 13) (hu : u < 4) (hv : v < 4) :
    (1 <<< (12 + v)) &&& (mkCard k u).int = if u = v then 1 <<< (12 + v) else 0 := by
  have : ∀ k < 13, ∀ u < 4, ∀ v < 4,
      (1 <<< (12 + v)) &&& (mkCard k u).int = if u = v then 1 <<< (12 + v) else 0 := by decide +kernel
  exact this k hk u hu v hv

theorem and_all (k u : Nat) (hk : k < 13) (hu : u < 4) : 0xF000 &&& (mkCard k u).int = 1 <<< (12 + u) := by
  have : ∀ k < 13, ∀ u < 4, 0xF000 &&& (mkCard k u).int = 1 <<< (12 + u) := by decide +kernel
  exact this k hk u hu

theorem suitedKind_false (k : HandKind) : suitedKind false k = k := by cases k <;> rfl

theorem foldl_and_zero (cs : List Card) : cs.foldl (fun a c => a &&& c.int) 0 = 0 := by
  induction cs with
  | nil => rfl
  | cons c cs ih => rw [List.foldl_cons, Nat.zero_and, ih]

theorem foldl_and_suit (ps : List (Nat × Nat)) (hp : AreCards ps) (v : Nat) (hv : v < 4) :
    ((ps.map fun p => mkCard p.1 p.2).foldl (fun a c => a &&& c.int) (1 <<< (12 + v)) ≠ 0)
      ↔ ∀ q ∈ ps, q.2 = v := by
  induction ps with
  | nil => simp [Nat.shiftLeft_eq]
  | cons q ps ih =>
    have hq := hp q (by simp)
    rw [List.map_cons, List.foldl_cons, and_suit _ _ _ hq.1 hq.2 hv]
    by_cases h : q.2 = v
    · rw [if_pos h, ih (fun x hx => hp x (by simp [hx]))]
      simp [h]
    · rw [if_neg h, foldl_and_zero]
      simp [h]

theorem sameSuit_iff (p : Nat × Nat) (ps : List (Nat × Nat)) (hp : AreCards (p :: ps)) :
    (((p :: ps).map fun p => mkCard p.1 p.2).foldl (fun a c => a &&& c.int) 0xF000 ≠ 0)
      ↔ ∀ q ∈ p :: ps, q.2 = p.2 := by
  have hq := hp p (by simp)
  rw [List.map_cons, List.foldl_cons, and_all _ _ hq.1 hq.2,
    foldl_and_suit _ (fun x hx => hp x (by simp [hx])) _ hq.2]
  simp

section
variable {s r c : Nat} {low : Bool} {order : Option (List String)} {t : Table} {classes : List HandClass}

theorem isHand_cards {ps : List (Nat × Nat)} (h : IsHand s r c ps) (hs : s ≤ 4) : AreCards ps := by
  intro p hp
  have := h.2.2 p hp
  omega

theorem isHand_ranks {ps : List (Nat × Nat)} (h : IsHand s r c ps) (hr : r ≤ 13) :
    RanksOf r c (ps.map (·.1)) := by
  refine ⟨by simp [h.1], ?_⟩
  intro x hx
  obtain ⟨p, hp, rfl⟩ := List.mem_map.1 hx
  exact (mem_backwardsRanks r _ hr).2 (h.2.2 p hp).1

/-- a rank occurs at most once per suit -/
theorem isHand_count_le {ps : List (Nat × Nat)} (h : IsHand s r c ps) (x : Nat) :
    (ps.map (·.1)).count x ≤ s := by
  have e : (ps.map (·.1)).count x = (ps.filter fun p => p.1 == x).length := by
    rw [List.count, List.countP_map, List.countP_eq_length_filter]; rfl
  rw [e]
  have hn : ((ps.filter fun p => p.1 == x).map (·.2)).Nodup := by
    refine List.Nodup.map_on ?_ (h.2.1.filter _)
    intro a ha b hb hab
    simp only [List.mem_filter, beq_iff_eq] at ha hb
    exact Prod.ext (ha.2.trans hb.2.symm) hab
  have hsub : ((ps.filter fun p => p.1 == x).map (·.2)) ⊆ List.range s := by
    intro y hy
    obtain ⟨p, hp, rfl⟩ := List.mem_map.1 hy
    exact List.mem_range.2 (h.2.2 p (List.mem_filter.1 hp).1).2
  have := (hn.subperm hsub).length_le
  simpa using this

theorem Ctx.lookup (X : Ctx s r c low order t classes) {ps : List (Nat × Nat)} (h : IsHand s r c ps)
    (hex : ¬ (s = 1 ∧ r = c ∧ 3 ≤ c) ∨ (t.handDict .flush).cumulative = 0) :
    ∃ v k, t.lookup (ps.map fun p => mkCard p.1 p.2) = .ok v ∧ FiledAs s r c low classes (ps.map (·.1)) k v ∧
      (k = handKind s r low ps ∨ (3 ≤ c ∧ r = c ∧ 2 ≤ s ∧ (t.handDict .flush).cumulative = 0 ∧
        handKind s r low ps = .straightFlush ∧ k = .straight)) ∧
      (Fits r c k ∨ ((k = .flush ∨ k = .straightFlush) ∧ 3 ≤ c ∧ c ≤ r)) := by
  obtain ⟨hs, hr, hc, hcr1, hst⟩ := id X.shape
  have ha := isHand_cards h hs.2
  have hrs := isHand_ranks h hr.2
  obtain ⟨p, ps', rfl⟩ : ∃ p ps', ps = p :: ps' := by
    cases ps with
    | nil => have := h.1; simp at this; omega
    | cons p ps' => exact ⟨p, ps', rfl⟩
  have hU := X.unsuited_lookup hrs (isHand_count_le h)
  rw [handKind_eq]
  by_cases hsuit : ∀ q ∈ p :: ps', q.2 = p.2
  · have hfold := (sameSuit_iff p ps' ha).2 hsuit
    have hn : ((p :: ps').map (·.1)).Nodup := by
      refine List.Nodup.map_on ?_ h.2.1
      intro a ha b hb hab
      exact Prod.ext hab ((hsuit a ha).trans (hsuit b hb).symm)
    have hlk : t.lookup ((p :: ps').map fun p => mkCard p.1 p.2)
        = t.suitedLookup.get (prodKey ((p :: ps').map (·.1))) := by
      unfold Table.lookup
      rw [if_pos hfold, ← primeFromBits_hand p ps' ha hn]
      rfl
    have hcr : c ≤ r := by
      have := length_le_of_nodup hn hrs.2
      rwa [hrs.1] at this
    rw [hlk]
    by_cases hfl : (t.handDict .flush).cumulative = 0
    · obtain ⟨su, -, hsl⟩ := X.built.suited
      rw [if_pos hfl] at hsl
      obtain ⟨v, hv1, hv2, hv3⟩ := hU
      refine ⟨v, _, by rw [hsl]; exact hv1, hv2, ?_, .inl hv3⟩
      by_cases hF : IsFlush s (p :: ps')
      · have h3 : 3 ≤ c := h.1 ▸ hF.2.1
        have hrc : r = c := by
          by_contra hne
          exact X.cum_pos (k := .flush) (X.shape.facts.2.2.2.2.2.1 ⟨h3, by omega, hF.1⟩) hfl
        have hk := rankKind_nodup (r := r) (low := low) hn
        right
        have : rankKind r low ((p :: ps').map (·.1)) = .straight := by
          by_contra hne
          have e : rankKind r low ((p :: ps').map (·.1)) = .highCard := by
            rw [hk] at hne ⊢
            split at hne
            · exact absurd rfl hne
            · next hh => rw [if_neg hh]
          obtain ⟨i, l, hi, -⟩ := hv2
          rw [e, show patterns r c low .highCard = highPatterns r c low from rfl,
            (highPatterns_full r (by omega) c (by omega) low).resolve_left (fun hn => hn ⟨h3, hrc⟩)] at hi
          simp at hi
        rw [this]
        refine ⟨h3, hrc, hF.1, hfl, ?_, rfl⟩
        rw [decide_eq_true hF]; rfl
      · left
        rw [decide_eq_false hF, suitedKind_false]
    · obtain ⟨v, hv1, hv2, h3, -, h2⟩ := X.suited_lookup hrs hn hfl (by
        intro hh
        rcases hex with hex | hex
        · exact hfl (by
            by_contra hfl'
            have h3 : 3 ≤ c := by
              by_contra h3
              exact hfl' (X.small (by omega)).2
            exact hex ⟨hh.1, hh.2, h3⟩)
        · exact hfl hex)
      refine ⟨v, _, hv1, hv2, .inl ?_, .inr ⟨?_, h3, hcr⟩⟩
      · have hF : IsFlush s (p :: ps') := by
          refine ⟨h2, by rw [h.1]; exact h3, ?_⟩
          intro a ha b hb
          exact (hsuit a ha).trans (hsuit b hb).symm
        rw [decide_eq_true hF, rankKind_nodup hn]
        split <;> rfl
      · split <;> simp
  · have hfold : ¬ (((p :: ps').map fun p => mkCard p.1 p.2).foldl (fun a c => a &&& c.int) 0xF000 ≠ 0) :=
      fun hh => hsuit ((sameSuit_iff p ps' ha).1 hh)
    have hlk : t.lookup ((p :: ps').map fun p => mkCard p.1 p.2)
        = t.unsuitedLookup.get (prodKey ((p :: ps').map (·.1))) := by
      unfold Table.lookup
      rw [if_neg hfold, primeFromHand_eq _ ha]
    obtain ⟨v, hv1, hv2, hv3⟩ := hU
    refine ⟨v, _, by rw [hlk]; exact hv1, hv2, .inl ?_, .inl hv3⟩
    have hF : ¬ IsFlush s (p :: ps') := fun hF => hsuit (fun q hq => hF.2.2 q hq p (by simp))
    rw [decide_eq_false hF, suitedKind_false]

/-! ### the order of the values -/

theorem filed_range (X : Ctx s r c low order t classes) {rs : List Nat} {k : HandKind} {v : Int}
    (h : FiledAs s r c low classes rs k v) :
    (0 ≤ v ∧ v ≤ t.maxRank) ∧ (bef s r c low classes (cls k) ≤ v ∧ (bef s r c low classes (cls k) ≠ 0 → bef s r c low classes (cls k) < v)) ∧
    v ≤ bef s r c low classes (cls k) + cnt s r c low (cls k) ∧ 1 ≤ cnt s r c low (cls k) := by
  obtain ⟨i, l, hi, -, hv, hlen⟩ := h
  have hi' : i < (patterns r c low k).length := (List.getElem?_eq_some_iff.1 hi).1
  have h1 := X.bef_nonneg (cls k)
  have h2 := X.bef_le (cls k)
  unfold baseOf at hv
  split at hv <;> omega

theorem idxOf_filter_lt {α : Type} [BEq α] [LawfulBEq α] (p : α → Bool) (l : List α) (a b : α) (ha : p a = true) (hb : p b = true) :
    (l.filter p).idxOf a < (l.filter p).idxOf b ↔ l.idxOf a < l.idxOf b := by
  induction l with
  | nil => simp
  | cons x l ih =>
    by_cases hx : p x = true
    · rw [List.filter_cons_of_pos hx, List.idxOf_cons, List.idxOf_cons, List.idxOf_cons, List.idxOf_cons]
      cases h1 : (x == a) <;> cases h2 : (x == b) <;> simp [ih]
    · rw [List.filter_cons_of_neg hx, ih, List.idxOf_cons, List.idxOf_cons]
      have h1 : (x == a) = false := beq_eq_false_iff_ne.2 (fun e => hx (e ▸ ha))
      have h2 : (x == b) = false := beq_eq_false_iff_ne.2 (fun e => hx (e ▸ hb))
      rw [h1, h2]
      simp

theorem filed_order (X : Ctx s r c low order t classes) {rs rs' : List Nat} {k k' : HandKind} {v v' : Int}
    (h : FiledAs s r c low classes rs k v) (h' : FiledAs s r c low classes rs' k' v')
    (hk : Fits r c k ∨ ((k = .flush ∨ k = .straightFlush) ∧ 3 ≤ c ∧ c ≤ r)) :
    (v < v' ↔ (t.rankedHands.idxOf (cls k) < t.rankedHands.idxOf (cls k') ∨
      (k = k' ∧ tieKey r low rs' < tieKey r low rs))) ∧
    (v = v' ↔ (k = k' ∧ tieKey r low rs = tieKey r low rs')) := by
  obtain ⟨hs, hr, hc, hcr1, hst⟩ := id X.shape
  have r1 := filed_range X h
  have r2 := filed_range X h'
  by_cases hkk : k = k'
  · subst hkk
    obtain ⟨i, l, hi, hlp, hv, hlen⟩ := h
    obtain ⟨j, l', hj, hlp', hv', -⟩ := h'
    have hd : (patterns r c low k).Pairwise (fun a b => tieKey r low b < tieKey r low a) := by
      rcases hk with hk | ⟨hk, h3, hcr⟩
      · exact patterns_desc hr.2 hc.2 hst hk
      · rcases hk with rfl | rfl
        · exact patterns_desc hr.2 hc.2 hst (k := .highCard) (by simp [Fits, hcr])
        · exact patterns_desc hr.2 hc.2 hst (k := .straight) (by simp [Fits, h3, hcr])
    rw [List.pairwise_iff_getElem] at hd
    obtain ⟨hi', rfl⟩ := List.getElem?_eq_some_iff.1 hi
    obtain ⟨hj', rfl⟩ := List.getElem?_eq_some_iff.1 hj
    rw [← tieKey_perm hlp, ← tieKey_perm hlp']
    simp only [lt_irrefl, false_or, true_and]
    rcases lt_trichotomy i j with hij | hij | hij
    · have := hd i j hi' hj' hij
      refine ⟨⟨fun _ => this, fun _ => by omega⟩, ⟨fun _ => by omega, fun e => ?_⟩⟩
      rw [e] at this; exact absurd this (lt_irrefl _)
    · subst hij
      refine ⟨⟨fun _ => by omega, fun e => absurd e (lt_irrefl _)⟩, ⟨fun _ => rfl, fun _ => by omega⟩⟩
    · have := hd j i hj' hi' hij
      refine ⟨⟨fun _ => by omega, fun e => absurd (lt_trans e this) (lt_irrefl _)⟩, ⟨fun _ => by omega, fun e => ?_⟩⟩
      rw [e] at this; exact absurd this (lt_irrefl _)
  · have hne : cls k ≠ cls k' := fun e => hkk (cls_inj e)
    have hb := before_lt (fun c' => (classCount s r c low c').2) X.nonneg classes (cls k) (cls k') hne (X.all _) (X.all _)
    have hidx : t.rankedHands.idxOf (cls k) < t.rankedHands.idxOf (cls k') ↔
        classes.idxOf (cls k) < classes.idxOf (cls k') := by
      rw [X.built.ranked, X.spec.ranked]
      apply idxOf_filter_lt
      · have := X.bef_nonneg (cls k); have := r1.2.2.2
        rw [decide_eq_true_eq]; unfold bef cnt at *; omega
      · have := X.bef_nonneg (cls k'); have := r2.2.2.2
        rw [decide_eq_true_eq]; unfold bef cnt at *; omega
    simp only [hkk, false_and, or_false, iff_false, hidx]
    have n1 := X.bef_nonneg (cls k)
    have n2 := X.bef_nonneg (cls k')
    unfold bef cnt at *
    rcases hb with ⟨hb, hlt⟩ | ⟨hb, hlt⟩
    · simp only [hlt, iff_true]; omega
    · have : ¬ classes.idxOf (cls k) < classes.idxOf (cls k') := by omega
      simp only [this, iff_false]; omega

end

end Clubs
