import Verif.Lemmas.Lookup3
import Verif.Lemmas.Rarity2
import Mathlib.Data.Set.Card

/-!
# Which numbers are values of hands
-/

namespace Clubs

open Spec

/-- every position of the ranking belongs to a class -/
theorem before_cover (cnt : HandClass → Int) (h0 : ∀ c, 0 ≤ cnt c) (cs : List HandClass) (hn : cs.Nodup) (w : Int) (hw : 0 ≤ w)
    (h : w < (cs.map cnt).sum) : ∃ c ∈ cs, before cnt cs c ≤ w ∧ w < before cnt cs c + cnt c := by
  induction cs generalizing w with
  | nil => simp at h; omega
  | cons d cs ih =>
    simp only [List.map_cons, List.sum_cons] at h
    rw [List.nodup_cons] at hn
    by_cases hd : w < cnt d
    · exact ⟨d, by simp, by simp [before, hw], by simp [before, hd]⟩
    · obtain ⟨c, hc, h1, h2⟩ := ih hn.2 (w - cnt d) (by omega) (by omega)
      have hne : d ≠ c := by rintro rfl; exact hn.1 hc
      refine ⟨c, by simp [hc], ?_, ?_⟩ <;> simp only [before, if_neg hne] <;> omega

/-- the numbers of rank patterns the code computes are those of the patterns that occur -/
theorem cnt_table : ∀ s < 5, ∀ r < 14, ∀ c < 6, ∀ low : Bool, ¬ (Shape s r c low ∧ c ≤ r) ∨
    ∀ k ∈ [HandKind.straightFlush, .fourKind, .fullHouse, .flush, .straight, .threeKind, .twoPair, .pair, .highCard],
      cnt s r c low (cls k) = if suitChoices s c k = 0 then 0 else (nPatterns r c low k : Int) := by
  decide +kernel

section
variable {s r c : Nat} {low : Bool} {order : Option (List String)} {t : Table} {classes : List HandClass}

theorem cnt_eq (h : Shape s r c low) (hcr : c ≤ r) (k : HandKind) :
    cnt s r c low (cls k) = if suitChoices s c k = 0 then 0 else (nPatterns r c low k : Int) := by
  refine (cnt_table s (by have := h.1; omega) r (by have := h.2.1; omega) c (by have := h.2.2.1; omega) low).resolve_left
    (fun hn => hn ⟨h, hcr⟩) k ?_
  cases k <;> simp

theorem patterns_base (k : HandKind) : patterns r c low (baseKind k) = patterns r c low k := by cases k <;> rfl

/-- there is a hand of every kind with every rank pattern of the kind -/
theorem hand_of_pattern (hS : Shape s r c low) {k : HandKind} (hf : Fits r c (baseKind k)) (hs0 : suitChoices s c k ≠ 0)
    {l : List Nat} (hl : l ∈ patterns r c low k) :
    ∃ ps, IsHand s r c ps ∧ handKind s r low ps = k ∧ (ps.map (·.1)).Perm l := by
  obtain ⟨hs, hr, hc, -, hst⟩ := id hS
  rw [← patterns_base] at hl
  have key : ∀ (Q : Finset (Nat × Nat) → Prop) [DecidablePred Q],
      (∀ H ∈ (deckSet s r).powersetCard c, handKind s r low H.toList = k ↔
        rankKind r low (H.toList.map (·.1)) = baseKind k ∧ Q H) →
      ((withRanks s r c l).filter Q).card = suitChoices s c k →
      ∃ ps, IsHand s r c ps ∧ handKind s r low ps = k ∧ (ps.map (·.1)).Perm l := by
    intro Q _ hQ hw
    obtain ⟨H, hH⟩ := Finset.card_pos.1 (by rw [hw]; omega)
    obtain ⟨h1, h2⟩ := Finset.mem_filter.1 hH
    obtain ⟨m1, m2, m3⟩ := mem_withRanks.1 h1
    have hm : H ∈ (deckSet s r).powersetCard c := Finset.mem_powersetCard.2 ⟨m1, m2⟩
    refine ⟨H.toList, isHand_toList hm, (hQ H hm).2 ⟨?_, h2⟩, m3⟩
    rw [← (pattern_all hr.2 hc.2 hst hf hl).1]
    exact rankKind_perm m3 r low
  have hk := fun H (hH : H ∈ (deckSet s r).powersetCard c) =>
    kind_iff (s := s) (r := r) (low := low) (Finset.mem_powersetCard.1 hH).2 k
  cases k with
  | straightFlush => exact key _ hk (card_nodup hr.2 hc.2 hc.1 hst (.inl rfl) hf hl _).1
  | flush => exact key _ hk (card_nodup hr.2 hc.2 hc.1 hst (.inr rfl) hf hl _).1
  | straight => exact key _ hk (card_nodup hr.2 hc.2 hc.1 hst (.inl rfl) hf hl _).2
  | highCard => exact key _ hk (card_nodup hr.2 hc.2 hc.1 hst (.inr rfl) hf hl _).2
  | _ =>
    refine key (fun _ => True) hk ?_
    rw [Finset.filter_true]
    refine card_multi hr.2 hc.2 hst ?_ (by exact hf) (by exact hl)
    constructor <;> exact nofun

/-- every position in the block of a class is the value of a hand -/
theorem block_value (X : Ctx s r c low order t classes) (hcr : c ≤ r) (hne : ¬ (3 ≤ c ∧ r = c)) (k : HandKind) (i : Nat)
    (hi : (i : Int) < cnt s r c low (cls k)) :
    ∃ ps, IsHand s r c ps ∧ handKind s r low ps = k ∧
      t.lookup (ps.map fun p => mkCard p.1 p.2) = .ok (baseOf s r c low classes (cls k) + i) := by
  obtain ⟨hs, hr, hc, -, hst⟩ := id X.shape
  have e := cnt_eq X.shape hcr k
  have hs0 : suitChoices s c k ≠ 0 := by
    intro h0; rw [if_pos h0] at e; omega
  rw [if_neg hs0] at e
  have hf : Fits r c (baseKind k) := by
    by_contra hf
    rw [nPatterns_zero hf] at e; simp at e; omega
  have hlen : i < (patterns r c low k).length := by
    rw [← patterns_base, patterns_length hr.2 hc.2 hst hf]; omega
  obtain ⟨ps, h1, h2, h3⟩ := hand_of_pattern X.shape hf hs0 (List.getElem_mem hlen)
  refine ⟨ps, h1, h2, ?_⟩
  obtain ⟨v, k', j1, ⟨j, l', j2, j3, j4, -⟩, j5, -⟩ := X.lookup h1 (.inl fun h => hne ⟨h.2.2, h.2.1⟩)
  have hk' : k' = k := by
    rcases j5 with j5 | j5
    · rw [j5, h2]
    · exact absurd ⟨j5.1, j5.2.1⟩ hne
  subst hk'
  rw [j1, j4]
  have hnd := patterns_keys_nodup (low := low) hr.2 hc.2 hst hf
  rw [patterns_base] at hnd
  obtain ⟨hj, rfl⟩ := List.getElem?_eq_some_iff.1 j2
  have hp : ((patterns r c low k')[j]).Perm (patterns r c low k')[i] := j3.trans h3
  have : j = i := by
    have hkeys : ((patterns r c low k').map prodKey)[j]'(by simpa using hj) = ((patterns r c low k').map prodKey)[i]'(by simpa using hlen) := by
      rw [List.getElem_map, List.getElem_map]
      exact prodKey_perm hp
    exact (List.Nodup.getElem_inj_iff hnd).1 hkeys
  rw [this]

/-- **The numbers that are values of hands**: from 0 to the largest value, without the number behind the best class. -/
theorem values_exact (X : Ctx s r c low order t classes) (hcr : c ≤ r) (hne : ¬ (3 ≤ c ∧ r = c)) :
    ∃ (k0 : HandKind) (g : Int), 0 < g ∧ g ≤ t.maxRank ∧
      (∀ v, (∃ ps, IsHand s r c ps ∧ t.lookup (ps.map fun p => mkCard p.1 p.2) = .ok v) ↔ (0 ≤ v ∧ v ≤ t.maxRank) ∧ v ≠ g) ∧
      ∀ ps v, IsHand s r c ps → t.lookup (ps.map fun p => mkCard p.1 p.2) = .ok v → (v < g ↔ handKind s r low ps = k0) := by
  obtain ⟨hs, hr, hc, -, hst⟩ := id X.shape
  have hmax : t.maxRank = (classes.map fun k => cnt s r c low k).sum := by rw [X.built.max, X.spec.cum]; rfl
  have hpos : 0 < t.maxRank := by
    have h1 := X.shape.facts.2.2.2.2.2.2.1 ⟨hcr, hne⟩
    have h2 := X.bef_le .highCard
    have h3 := X.bef_nonneg .highCard
    unfold cnt at h2
    omega
  have cover : ∀ w : Int, 0 ≤ w → w < t.maxRank → ∃ k, bef s r c low classes (cls k) ≤ w ∧
      w < bef s r c low classes (cls k) + cnt s r c low (cls k) := by
    intro w h1 h2
    obtain ⟨x, -, h3⟩ := before_cover (fun k => cnt s r c low k) X.nonneg classes X.nodup w h1 (by rw [← hmax]; exact h2)
    obtain ⟨k, rfl⟩ := cls_surj x
    exact ⟨k, h3⟩
  have disj : ∀ k k', k ≠ k' → bef s r c low classes (cls k) + cnt s r c low (cls k) ≤ bef s r c low classes (cls k') ∨
      bef s r c low classes (cls k') + cnt s r c low (cls k') ≤ bef s r c low classes (cls k) := by
    intro k k' h
    rcases before_lt (fun k => cnt s r c low k) X.nonneg classes (cls k) (cls k') (fun e => h (cls_inj e)) (X.all _) (X.all _) with h | h
    · exact .inl h.1
    · exact .inr h.1
  obtain ⟨k0, z1, z2⟩ := cover 0 (le_refl 0) hpos
  have z0 : bef s r c low classes (cls k0) = 0 := by have := X.bef_nonneg (cls k0); omega
  rw [z0] at z2
  have hg : cnt s r c low (cls k0) ≤ t.maxRank := by have := X.bef_le (cls k0); omega
  have val : ∀ ps v, IsHand s r c ps → t.lookup (ps.map fun p => mkCard p.1 p.2) = .ok v →
      (0 ≤ v ∧ v ≤ t.maxRank) ∧ v ≠ cnt s r c low (cls k0) ∧ (v < cnt s r c low (cls k0) ↔ handKind s r low ps = k0) := by
    intro ps v hp hv
    obtain ⟨v', k, j1, j2, j5, -⟩ := X.lookup hp (.inl fun h => hne ⟨h.2.2, h.2.1⟩)
    rw [j1] at hv; cases hv
    have hk : k = handKind s r low ps := j5.resolve_right (fun h => hne ⟨h.1, h.2.1⟩)
    have hrange := filed_range X j2
    obtain ⟨i, l, i1, -, i3, i4⟩ := j2
    have i5 : i < (patterns r c low k).length := (List.getElem?_eq_some_iff.1 i1).1
    refine ⟨hrange.1, ?_⟩
    rw [← hk]
    by_cases hkk : k = k0
    · subst hkk
      have : baseOf s r c low classes (cls k) = 0 := by unfold baseOf; rw [if_pos z0]
      exact ⟨by omega, by simp; omega⟩
    · have hb := disj k k0 hkk
      rw [z0] at hb
      have hbn := X.bef_nonneg (cls k)
      have hb' : baseOf s r c low classes (cls k) = bef s r c low classes (cls k) + 1 := by unfold baseOf; rw [if_neg (by omega)]
      exact ⟨by omega, by simp [hkk]; omega⟩
  refine ⟨k0, cnt s r c low (cls k0), by omega, hg, ?_, fun ps v h1 h2 => (val ps v h1 h2).2.2⟩
  intro v
  constructor
  · rintro ⟨ps, h1, h2⟩
    have := val ps v h1 h2
    exact ⟨this.1, this.2.1⟩
  · rintro ⟨⟨h1, h2⟩, h3⟩
    rcases lt_or_gt_of_ne h3 with h4 | h4
    · obtain ⟨ps, p1, -, p3⟩ := block_value X hcr hne k0 v.toNat (by omega)
      refine ⟨ps, p1, ?_⟩
      rw [p3]
      have : baseOf s r c low classes (cls k0) = 0 := by unfold baseOf; rw [if_pos z0]
      rw [this]; congr 1; omega
    · obtain ⟨k, c1, c2⟩ := cover (v - 1) (by omega) (by omega)
      have hkk : k ≠ k0 := by rintro rfl; omega
      have hb := disj k k0 hkk
      rw [z0] at hb
      have hbn := X.bef_nonneg (cls k)
      have hb' : baseOf s r c low classes (cls k) = bef s r c low classes (cls k) + 1 := by unfold baseOf; rw [if_neg (by omega)]
      obtain ⟨ps, p1, -, p3⟩ := block_value X hcr hne k (v - 1 - bef s r c low classes (cls k)).toNat (by omega)
      refine ⟨ps, p1, ?_⟩
      rw [p3, hb']; congr 1; omega

end

/-- images under functions that identify the same elements are equally large -/
theorem ncard_image_congr {α β γ : Type} (L : Set α) (f : α → β) (g : α → γ) (h : ∀ a ∈ L, ∀ b ∈ L, f a = f b ↔ g a = g b) :
    (f '' L).ncard = (g '' L).ncard := by
  classical
  rcases L.eq_empty_or_nonempty with rfl | ⟨a0, h0⟩
  · simp
  have : ∀ y : β, ∃ a ∈ L, y ∈ f '' L → f a = y := by
    intro y
    by_cases hy : y ∈ f '' L
    · obtain ⟨a, ha, e⟩ := hy; exact ⟨a, ha, fun _ => e⟩
    · exact ⟨a0, h0, fun h => absurd h hy⟩
  choose F hF1 hF2 using this
  have e : g '' L = (fun y => g (F y)) '' (f '' L) := by
    ext z
    constructor
    · rintro ⟨a, ha, rfl⟩
      refine ⟨f a, ⟨a, ha, rfl⟩, ?_⟩
      exact (h _ (hF1 _) _ ha).1 (hF2 _ ⟨a, ha, rfl⟩)
    · rintro ⟨y, hy, rfl⟩
      exact ⟨F y, hF1 y, rfl⟩
  have hinj : Set.InjOn (fun y => g (F y)) (f '' L) := by
    intro y hy y' hy' he
    have := (h _ (hF1 y) _ (hF1 y')).2 he
    rw [← hF2 y hy, ← hF2 y' hy', this]
  rw [e, hinj.ncard_image]

end Clubs
