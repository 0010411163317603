import Verif.Lemmas.Lookup

/-! Helper lemmas: the rank of a hand. -/

namespace Clubs

open Spec

section
variable {s r c : Nat} {low : Bool} {order : Option (List String)} {t : Table} {classes : List HandClass}

/-- kinds that do not depend on suits, with the hand size they need -/
def Fits (r c : Nat) (k : HandKind) : Prop :=
  (k = .straight ∧ 3 ≤ c ∧ c ≤ r) ∨ (k = .highCard ∧ c ≤ r) ∨ (k = .fourKind ∧ 4 ≤ c) ∨
  (k = .fullHouse ∧ 5 ≤ c) ∨ (k = .threeKind ∧ 3 ≤ c) ∨ (k = .twoPair ∧ 4 ≤ c) ∨ (k = .pair ∧ 2 ≤ c)

theorem pattern_all (hr : r ≤ 13) (hc : c ≤ 5) (hst : StraightOK r c low) {k : HandKind}
    (hk : Fits r c k) {l : List Nat} (hl : l ∈ patterns r c low k) :
    rankKind r low l = k ∧ RanksOf r c l ∧
    tieKey r low l = (if k = .straight then [l.headD 0] else l) := by
  rcases hk with ⟨rfl, h3, h⟩ | ⟨rfl, h⟩ | hk
  · have := pattern_spec (low := low) hr hc h hst .straight l (.inl rfl) (fun _ => h3) hl
    exact ⟨this.1, ⟨this.2.1, this.2.2.1⟩, by simpa using this.2.2.2.1⟩
  · have := pattern_spec (low := low) hr hc h hst .highCard l (.inr rfl) (by simp) hl
    exact ⟨this.1, ⟨this.2.1, this.2.2.1⟩, by simpa using this.2.2.2.2⟩
  · have := pattern_spec_multi (low := low) hr k l hk hl
    refine ⟨this.1, ⟨this.2.1, this.2.2.1⟩, ?_⟩
    rw [this.2.2.2, if_neg]
    rintro rfl
    simp at hk

theorem patterns_desc (hr : r ≤ 13) (hc : c ≤ 5) (hst : StraightOK r c low) {k : HandKind}
    (hk : Fits r c k) :
    (patterns r c low k).Pairwise (fun a b => tieKey r low b < tieKey r low a) := by
  have key : (patterns r c low k).Pairwise (fun a b =>
      (if k = .straight then [b.headD 0] else b) < (if k = .straight then [a.headD 0] else a)) := by
    rcases hk with ⟨rfl, h3, h⟩ | ⟨rfl, h⟩ | hk
    · refine (straightPatterns_ok hr hc h3 h hst).2.imp ?_
      intro a b hab
      simp only [if_true]
      exact List.Lex.rel hab
    · simp only [reduceCtorEq, if_false]
      exact (combinations_desc c _ (backwardsRanks_desc r hr)).filter _
    · have : ∀ ms, (∀ m ∈ ms, 1 ≤ m) → (multiPatterns r c ms).Pairwise (fun a b => b < a) :=
        fun ms hm => multiPatterns_desc r c hr ms hm
      rcases hk with ⟨rfl, -⟩ | ⟨rfl, -⟩ | ⟨rfl, -⟩ | ⟨rfl, -⟩ | ⟨rfl, -⟩ <;>
        simp only [reduceCtorEq, if_false] <;> exact this _ (by simp)
  refine key.imp_of_mem ?_
  intro a b ha hb hab
  rw [(pattern_all hr hc hst hk ha).2.2, (pattern_all hr hc hst hk hb).2.2]
  exact hab

theorem patterns_keys_nodup (hr : r ≤ 13) (hc : c ≤ 5) (hst : StraightOK r c low) {k : HandKind}
    (hk : Fits r c k) : ((patterns r c low k).map prodKey).Nodup := by
  unfold List.Nodup
  rw [List.pairwise_map]
  refine (patterns_desc hr hc hst hk).imp_of_mem ?_
  intro a b ha hb hab e
  have hp := prodKey_inj ((pattern_all hr hc hst hk ha).2.1.lt hr) ((pattern_all hr hc hst hk hb).2.1.lt hr) e
  rw [tieKey_perm hp] at hab
  exact lt_irrefl _ hab

/-- the first value of a class -/
def baseOf (s r c : Nat) (low : Bool) (classes : List HandClass) (k : HandClass) : Int :=
  if bef s r c low classes k = 0 then 0 else bef s r c low classes k + 1

/-- What is known about the value found for ranks `rs` filed under kind `k`. -/
def FiledAs (s r c : Nat) (low : Bool) (classes : List HandClass) (rs : List Nat) (k : HandKind) (v : Int) :
    Prop :=
  ∃ (i : Nat) (l : List Nat), (patterns r c low k)[i]? = some l ∧ l.Perm rs ∧ v = baseOf s r c low classes (cls k) + i ∧
    ((patterns r c low k).length : Int) = cnt s r c low (cls k)

theorem Ctx.unsuited_lookup (X : Ctx s r c low order t classes) {rs : List Nat} (h : RanksOf r c rs)
    (hs4 : ∀ x, rs.count x ≤ s) :
    ∃ v, t.unsuitedLookup.get (prodKey rs) = .ok v ∧ FiledAs s r c low classes rs (rankKind r low rs) v ∧
      Fits r c (rankKind r low rs) := by
  obtain ⟨hs, hr, hc, hcr1, hst⟩ := id X.shape
  obtain ⟨f0, f1, f2, f3, f4, f5, f6, f7, f8, f9, f10, f11⟩ := X.shape.facts
  obtain ⟨k, hk, ⟨l, hl, hlp⟩, hcase⟩ := exists_pattern (low := low) hr.2 hc.2 h.1 h.2 (fun x => by have := hs4 x; omega)
  -- the kind fits and its number is positive
  have hfit : Fits r c k ∧ 1 ≤ cnt s r c low (cls k) := by
    have hle : ∀ a m, rs.count a = m → m ≤ s := fun a m e => e ▸ hs4 a
    rcases hcase with ⟨rfl, h1, a, ha⟩ | ⟨rfl, h1, a, ha⟩ | ⟨rfl, h1, a, ha⟩ | ⟨rfl, h1, a, ha⟩ |
      ⟨rfl, h1, a, ha⟩ | ⟨rfl, h1, -, h2⟩ | ⟨rfl, h1, h2⟩
    · exact ⟨by simp [Fits, h1], f7 ⟨h1, hle _ _ ha⟩⟩
    · exact ⟨by simp [Fits, h1], f8 ⟨h1, hle _ _ ha⟩⟩
    · exact ⟨by simp [Fits, h1], f9 ⟨h1, hle _ _ ha⟩⟩
    · exact ⟨by simp [Fits, h1], f10 ⟨h1, hle _ _ ha⟩⟩
    · exact ⟨by simp [Fits, h1], f11 ⟨h1, hle _ _ ha⟩⟩
    · have := length_le_of_nodup h2 h.2
      rw [h.1] at this
      exact ⟨by simp [Fits, h1, this], f1 ⟨h1, this⟩⟩
    · have := length_le_of_nodup h2 h.2
      rw [h.1] at this
      refine ⟨by simp [Fits, this], f6 ⟨this, ?_⟩⟩
      intro hf
      have := (highPatterns_full r (by omega) c (by omega) low).resolve_left (fun hn => hn hf)
      rw [show patterns r c low .highCard = highPatterns r c low from rfl, this] at hl
      simp at hl
  have hcum := X.cum_pos hfit.2
  have hms : ∀ ms, ms.sum ≤ c → multiKeys r c ms = (multiPatterns r c ms).map prodKey :=
    fun ms hm => multiKeys_eq hr.2 ms hm
  have hstage : (cls k, (patterns r c low k).map prodKey) ∈ unsuitedStages t.handDict r c low := by
    rcases hfit.1 with ⟨rfl, h3, hcr⟩ | ⟨rfl, hcr⟩ | ⟨rfl, h1⟩ | ⟨rfl, h1⟩ | ⟨rfl, h1⟩ | ⟨rfl, h1⟩ | ⟨rfl, h1⟩
    · simp only [unsuitedStages, X.sf_keys h3 hcr]; simp [cls, patterns]
    · simp only [unsuitedStages, X.fl_keys hcr (.inr hcum)]; simp [cls, patterns]
    · simp only [unsuitedStages, hms [4] (by simpa using h1)]; simp [cls, patterns]
    · simp only [unsuitedStages, hms [3, 2] (by simpa using h1)]; simp [cls, patterns]
    · simp only [unsuitedStages, hms [3] (by simpa using h1)]; simp [cls, patterns]
    · simp only [unsuitedStages, hms [2, 2] (by simpa using h1)]; simp [cls, patterns]
    · simp only [unsuitedStages, hms [2] (by simpa using h1)]; simp [cls, patterns]
  obtain ⟨i, hi⟩ := List.mem_iff_getElem?.1 hl
  have hkey : ((patterns r c low k).map prodKey)[i]? = some (prodKey rs) := by
    rw [List.getElem?_map, hi, Option.map_some, prodKey_perm hlp]
  obtain ⟨b, hb1, hb2, hb3⟩ := X.built.unsuited.lookup (cls k) _ (prodKey rs) i hstage hcum
    (patterns_keys_nodup hr.2 hc.2 hst hfit.1) hkey (by
      intro p hp hne hcp hmem
      obtain ⟨k', hk'⟩ := cls_surj p.1
      have := X.stage_kind h (k := k') (ks := p.2) (by rw [hk']; exact hp) (by rw [hk']; exact hcp) hmem
      apply hne
      rw [← hk', ← this, hk]) (by simp [unsuitedStages])
  rw [X.get _ hcum] at hb1
  simp only [Except.ok.injEq] at hb1
  refine ⟨b + i, ?_, ?_, ?_⟩
  · unfold Dict.get; rw [hb2]
  · rw [hk]
    refine ⟨i, l, hi, hlp, ?_, ?_⟩
    · rw [← hb1]; rfl
    · rw [X.uns] at hb3; simpa [patterns, cls] using hb3
  · rw [hk]; exact hfit.1

/-- the kind under which a hand of one suit is filed -/
theorem Ctx.suited_lookup (X : Ctx s r c low order t classes) {rs : List Nat} (h : RanksOf r c rs)
    (hn : rs.Nodup) (hfl : (t.handDict .flush).cumulative ≠ 0) (hex : ¬ (s = 1 ∧ r = c)) :
    ∃ v, t.suitedLookup.get (prodKey rs) = .ok v ∧
      FiledAs s r c low classes rs (if IsStraight r low rs then .straightFlush else .flush) v ∧ 3 ≤ c ∧ c ≤ r ∧ 2 ≤ s := by
  obtain ⟨hs, hr, hc, hcr1, hst⟩ := id X.shape
  obtain ⟨f0, f1, f2, f3, f4, f5, f6, -⟩ := X.shape.facts
  obtain ⟨su, hsu, hsl⟩ := X.built.suited
  rw [if_neg hfl] at hsl
  have hcr : c ≤ r := by
    have := length_le_of_nodup hn h.2
    rwa [h.1] at this
  have h3 : 3 ≤ c := by
    by_contra h3
    exact hfl (X.small (by omega)).2
  have hfk := X.fl_keys hcr (.inl hfl)
  have hsk := X.sf_keys h3 hcr
  have hlen := X.chainS (k := .flush) (by simp [suitedStages]; rfl) hfl
  have h2 : 2 ≤ s := by
    by_contra h2
    have hs1 : s = 1 := by omega
    have e2 := (f3 hs1).2
    rw [hfk] at hlen
    simp only [cnt, List.length_map] at hlen
    -- high cards exist when there are more ranks than cards
    have hcnt := f6 ⟨hcr, fun hh => hex ⟨hs1, hh.2⟩⟩
    have hh := X.chainU (k := .highCard) (by simp [unsuitedStages]; rfl) (X.cum_pos (k := .highCard) hcnt)
    rw [hfk] at hh
    simp only [cnt, List.length_map] at hh
    omega
  have hsf := X.cum_pos (k := .straightFlush) (f2 ⟨h3, hcr, h2⟩)
  have hst' := X.cum_pos (k := .straight) (f1 ⟨h3, hcr⟩)
  have hstages : suitedStages t.handDict r c low =
      [(.straightFlush, (patterns r c low .straight).map prodKey), (.flush, (patterns r c low .highCard).map prodKey)] := by
    simp only [suitedStages, hsk, hfk, patterns]
  rw [hstages] at hsu
  have hrk := rankKind_nodup (r := r) (low := low) hn
  obtain ⟨k, hk, ⟨l, hl, hlp⟩, -⟩ := exists_pattern (low := low) hr.2 hc.2 h.1 h.2
    (fun x => by have := List.nodup_iff_count_le_one.1 hn x; omega)
  have fst : Fits r c .straight := by simp [Fits, h3, hcr]
  have fhc : Fits r c .highCard := by simp [Fits, hcr]
  have other : ∀ k' : HandKind, Fits r c k' → prodKey rs ∈ (patterns r c low k').map prodKey → rankKind r low rs = k' := by
    intro k' hf hm
    obtain ⟨l', h1, h2⟩ := List.mem_map.1 hm
    have hp := pattern_all hr.2 hc.2 hst hf h1
    rw [← hp.1]
    exact rankKind_perm (prodKey_inj (h.lt hr.2) (hp.2.1.lt hr.2) h2.symm) r low
  obtain ⟨i, hi⟩ := List.mem_iff_getElem?.1 hl
  have hkey : ((patterns r c low k).map prodKey)[i]? = some (prodKey rs) := by
    rw [List.getElem?_map, hi, Option.map_some, prodKey_perm hlp]
  rw [hk] at hrk
  by_cases hstr : IsStraight r low rs
  · rw [if_pos hstr] at hrk
    subst hrk
    obtain ⟨b, hb1, hb2, hb3⟩ := hsu.lookup .straightFlush _ (prodKey rs) i (by simp) hsf
      (patterns_keys_nodup hr.2 hc.2 hst fst) hkey (by
        intro p hp hne _ hmem
        simp only [List.mem_cons, List.not_mem_nil, or_false] at hp
        rcases hp with rfl | rfl
        · exact hne rfl
        · have := other _ fhc hmem
          rw [hk] at this; simp at this) (by simp)
    rw [X.get _ hsf] at hb1
    simp only [Except.ok.injEq] at hb1
    refine ⟨b + i, ?_, ?_, h3, hcr, h2⟩
    · unfold Dict.get; rw [hsl, hb2]
    · rw [if_pos hstr]
      refine ⟨i, l, hi, hlp, by rw [← hb1]; rfl, ?_⟩
      rw [X.uns] at hb3; simpa [patterns, cls] using hb3
  · rw [if_neg hstr] at hrk
    subst hrk
    obtain ⟨b, hb1, hb2, hb3⟩ := hsu.lookup .flush _ (prodKey rs) i (by simp) hfl
      (patterns_keys_nodup hr.2 hc.2 hst fhc) hkey (by
        intro p hp hne _ hmem
        simp only [List.mem_cons, List.not_mem_nil, or_false] at hp
        rcases hp with rfl | rfl
        · have := other _ fst hmem
          rw [hk] at this; simp at this
        · exact hne rfl) (by simp)
    rw [X.get _ hfl] at hb1
    simp only [Except.ok.injEq] at hb1
    refine ⟨b + i, ?_, ?_, h3, hcr, h2⟩
    · unfold Dict.get; rw [hsl, hb2]
    · rw [if_neg hstr]
      refine ⟨i, l, hi, hlp, by rw [← hb1]; rfl, ?_⟩
      rw [X.uns] at hb3; simpa [patterns, cls] using hb3

end

end Clubs
