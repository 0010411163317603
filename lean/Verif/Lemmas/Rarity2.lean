import Verif.Lemmas.Rarity

/-! Helper lemmas: the number of hands of each kind. -/

namespace Clubs

open Spec

section
variable {s r c : Nat} {low : Bool}

theorem pattern_nodup (hr : r ≤ 13) (hc : c ≤ 5) (hst : StraightOK r c low) {k : HandKind} (hk : k = .straight ∨ k = .highCard)
    (hf : Fits r c k) {l : List Nat} (hl : l ∈ patterns r c low k) : l.Nodup := by
  rcases hk with rfl | rfl
  · have hf' : 3 ≤ c ∧ c ≤ r := by simpa [Fits] using hf
    exact ((straightPatterns_ok hr hc hf'.1 hf'.2 hst).1 l hl).2.2.1
  · simp only [patterns, highPatterns, List.mem_filter, mem_combinations] at hl
    exact ((backwardsRanks_desc r hr).sublist hl.1.1).imp (fun h => Nat.ne_of_gt h)

theorem pattern_ranks (hr : r ≤ 13) (hc : c ≤ 5) (hst : StraightOK r c low) {k : HandKind} (hf : Fits r c k) {l : List Nat}
    (hl : l ∈ patterns r c low k) : l.length = c ∧ ∀ x ∈ l, 13 - r ≤ x ∧ x < 13 :=
  (ranksOf_iff hr).1 (pattern_all hr hc hst hf hl).2.1

/-- the suits of a pattern without pairs -/
theorem card_nodup (hr : r ≤ 13) (hc : c ≤ 5) (h1 : 1 ≤ c) (hst : StraightOK r c low) {k : HandKind}
    (hk : k = .straight ∨ k = .highCard) (hf : Fits r c k) {l : List Nat} (hl : l ∈ patterns r c low k) (b : Bool) :
    ((withRanks s r c l).filter fun H => b = true ∧ OneSuit H).card = (if b then s else 0) ∧
    ((withRanks s r c l).filter fun H => ¬ (b = true ∧ OneSuit H)).card = (if b then s ^ c - s else s ^ c) := by
  obtain ⟨h2, h3⟩ := pattern_ranks hr hc hst hf hl
  have hn := pattern_nodup hr hc hst hk hf hl
  have e1 := card_oneSuit s r c l h2 h3 hn h1
  have e2 : (withRanks s r c l).card = s ^ c := by rw [card_withRanks s r c l h2 h3, prod_nodup s l hn, h2]
  cases b with
  | false => simp [e2]
  | true =>
    simp only [true_and, if_true]
    refine ⟨e1, ?_⟩
    have := Finset.card_filter_add_card_filter_not (s := withRanks s r c l) (p := OneSuit)
    omega

theorem nodup_of_subperm {a b : List Nat} (h : a.Subperm b) (hb : b.Nodup) : a.Nodup := by
  obtain ⟨l, h1, h2⟩ := h
  exact h1.nodup_iff.1 (hb.sublist h2)

/-- the suits of a pattern with pairs -/
theorem card_multi (hr : r ≤ 13) (hc : c ≤ 5) (hst : StraightOK r c low) {k : HandKind}
    (hk : k ≠ .straight ∧ k ≠ .highCard) (hf : Fits r c k) {l : List Nat} (hl : l ∈ patterns r c low k) :
    (withRanks s r c l).card = suitChoices s c k := by
  obtain ⟨h2, h3⟩ := pattern_ranks hr hc hst hf hl
  rw [card_withRanks s r c l h2 h3]
  have one : ∀ m, 1 ≤ m → l ∈ multiPatterns r c [m] →
      ∏ x ∈ l.toFinset, s.choose (l.count x) = s.choose m * s ^ (c - m) := by
    intro m hm h
    obtain ⟨a, ks, -, hks, hlen, rfl⟩ := (mem_multi_one r c m l).1 h
    obtain ⟨q1, -, q2, -⟩ := kick1 hr hks
    rw [prod_group1 s m a ks hm q1 q2, hlen]
  unfold Fits at hf
  rcases hf with ⟨rfl, -⟩ | ⟨rfl, -⟩ | ⟨rfl, -⟩ | ⟨rfl, -⟩ | ⟨rfl, -⟩ | ⟨rfl, -⟩ | ⟨rfl, -⟩
  · exact absurd rfl hk.1
  · exact absurd rfl hk.2
  · exact one 4 (by omega) hl
  · obtain ⟨a, b, ks, hab, hks, hlen, rfl⟩ := (mem_multi_fullHouse r c l).1 hl
    obtain ⟨q1, q2, -, q3, -⟩ := kick2 hr hks
    have hne : a ≠ b := by
      have := nodup_of_subperm hab (br_nodup r hr)
      simpa using this
    have := prod_group2 s 3 2 a b ks (by omega) (by omega) hne q1 q2 q3
    rw [hlen] at this
    exact this
  · exact one 3 (by omega) hl
  · obtain ⟨a, b, ks, hab, hks, hlen, rfl⟩ := (mem_multi_twoPair r c l).1 hl
    obtain ⟨q1, q2, -, q3, -⟩ := kick2 hr hks
    have hne : a ≠ b := by
      have := (br_nodup r hr).sublist hab
      simpa using this
    have := prod_group2 s 2 2 a b ks (by omega) (by omega) hne q1 q2 q3
    rw [hlen] at this
    exact this
  · exact one 2 (by omega) hl

theorem patterns_length (hr : r ≤ 13) (hc : c ≤ 5) (hst : StraightOK r c low) {k : HandKind} (hf : Fits r c (baseKind k)) :
    (patterns r c low (baseKind k)).length = nPatterns r c low k := by
  have h1 := multiLengths_table r (by omega) c (by omega)
  have h2 := fun hcr : c ≤ r => (nodupLengths_table r (by omega) c (by omega) low).resolve_left (fun h => h ⟨hcr, hst⟩)
  cases k <;> simp [baseKind, Fits] at hf
  · exact (h2 hf.2).1.resolve_left (fun h => h hf.1)
  · simp only [nPatterns]; rw [if_pos hf]; exact h1.2.2.1 hf
  · simp only [nPatterns]; rw [if_pos hf]; exact h1.2.2.2.2 hf
  · exact (h2 hf).2
  · exact (h2 hf.2).1.resolve_left (fun h => h hf.1)
  · simp only [nPatterns]; rw [if_pos hf]; exact h1.2.1 hf
  · simp only [nPatterns]; rw [if_pos hf]; exact h1.2.2.2.1 hf
  · simp only [nPatterns]; rw [if_pos hf]; exact h1.1 hf
  · exact (h2 hf).2

theorem nPatterns_zero {k : HandKind} (hf : ¬ Fits r c (baseKind k)) : nPatterns r c low k = 0 := by
  cases k <;> simp [baseKind, Fits] at hf <;> simp [nPatterns, nStraights]
  all_goals first
    | omega
    | (rw [Nat.choose_eq_zero_of_lt (by omega)]; simp)

/-- **The number of hands of each kind.** -/
theorem numHands_eq (hs : s ≤ 4) (hr : r ≤ 13) (hc : c ≤ 5) (h1 : 1 ≤ c) (hst : StraightOK r c low) (k : HandKind) :
    numHands s r c low k = nPatterns r c low k * suitChoices s c k := by
  unfold numHands
  by_cases hf : Fits r c (baseKind k)
  · have hcard : ∀ (Q : Finset (Nat × Nat) → Prop) [DecidablePred Q],
        (∀ H ∈ (deckSet s r).powersetCard c, handKind s r low H.toList = k ↔
          rankKind r low (H.toList.map (·.1)) = baseKind k ∧ Q H) →
        (∀ l ∈ patterns r c low (baseKind k), ((withRanks s r c l).filter Q).card = suitChoices s c k) →
        (((deckSet s r).powersetCard c).filter fun H => handKind s r low H.toList = k).card =
          nPatterns r c low k * suitChoices s c k := by
      intro Q _ hQ hw
      rw [Finset.filter_congr hQ, card_kind hs hr hc hst hf Q _ hw, patterns_length hr hc hst hf]
    have hk := fun H (hH : H ∈ (deckSet s r).powersetCard c) =>
      kind_iff (s := s) (r := r) (low := low) (Finset.mem_powersetCard.1 hH).2 k
    cases k with
    | straightFlush => exact hcard _ hk (fun l hl => (card_nodup hr hc h1 hst (.inl rfl) hf hl _).1)
    | flush => exact hcard _ hk (fun l hl => (card_nodup hr hc h1 hst (.inr rfl) hf hl _).1)
    | straight => exact hcard _ hk (fun l hl => (card_nodup hr hc h1 hst (.inl rfl) hf hl _).2)
    | highCard => exact hcard _ hk (fun l hl => (card_nodup hr hc h1 hst (.inr rfl) hf hl _).2)
    | _ =>
      refine hcard (fun _ => True) hk (fun l hl => ?_)
      rw [Finset.filter_true]
      refine card_multi hr hc hst ?_ (by exact hf) (by exact hl)
      constructor <;> exact nofun
  · rw [nPatterns_zero hf, Nat.zero_mul, Finset.card_eq_zero, Finset.filter_eq_empty_iff]
    intro H hH h
    have := (kind_iff (Finset.mem_powersetCard.1 hH).2 k).1 h
    exact no_kind hs hr hc hf hH this.1

end

end Clubs
