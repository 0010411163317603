import Verif.Lemmas.Table

/-! Helper lemmas: looking up a hand in a table that was built. -/

namespace Clubs

open Spec

/-- the class of the code that corresponds to a kind of hand -/
def cls : HandKind → HandClass
  | .straightFlush => .straightFlush
  | .fourKind => .fourKind
  | .fullHouse => .fullHouse
  | .flush => .flush
  | .straight => .straight
  | .threeKind => .threeKind
  | .twoPair => .twoPair
  | .pair => .pair
  | .highCard => .highCard

theorem cls_inj {a b : HandKind} (h : cls a = cls b) : a = b := by
  cases a <;> cases b <;> first | rfl | (simp [cls] at h)

theorem cls_name (k : HandKind) : (cls k).name = k.name := by cases k <;> rfl

theorem cls_surj (c : HandClass) : ∃ k, cls k = c := by
  cases c
  exacts [⟨.straightFlush, rfl⟩, ⟨.fourKind, rfl⟩, ⟨.fullHouse, rfl⟩, ⟨.flush, rfl⟩, ⟨.straight, rfl⟩,
    ⟨.threeKind, rfl⟩, ⟨.twoPair, rfl⟩, ⟨.pair, rfl⟩, ⟨.highCard, rfl⟩]

/-- shapes for which the code's formulas make sense -/
def Shape (s r c : Nat) (low : Bool) : Prop :=
  (1 ≤ s ∧ s ≤ 4) ∧ (1 ≤ r ∧ r ≤ 13) ∧ (1 ≤ c ∧ c ≤ 5) ∧ c ≤ r + 1 ∧ StraightOK r c low

instance (s r c : Nat) (low : Bool) : Decidable (Shape s r c low) := inferInstanceAs (Decidable (_ ∧ _))

/-- facts about the numbers of hands -/
def shapeFacts (s r c : Nat) (low : Bool) : Prop :=
  (∀ k ∈ CLASS_LIST, 0 ≤ (classCount s r c low k).2) ∧
  ((3 ≤ c ∧ c ≤ r) → 1 ≤ (classCount s r c low .straight).2) ∧
  ((3 ≤ c ∧ c ≤ r ∧ 2 ≤ s) → 1 ≤ (classCount s r c low .straightFlush).2) ∧
  (s = 1 → (classCount s r c low .straightFlush).2 = 0 ∧ (classCount s r c low .flush).2 = 0) ∧
  (c ≤ 2 → (classCount s r c low .straightFlush).2 = 0 ∧ (classCount s r c low .flush).2 = 0 ∧
    (classCount s r c low .straight).2 = 0) ∧
  ((3 ≤ c ∧ c < r ∧ 2 ≤ s) → 1 ≤ (classCount s r c low .flush).2) ∧
  ((c ≤ r ∧ ¬ (3 ≤ c ∧ r = c)) → 1 ≤ (classCount s r c low .highCard).2) ∧
  ((4 ≤ c ∧ 4 ≤ s) → 1 ≤ (classCount s r c low .fourKind).2) ∧
  ((5 ≤ c ∧ 3 ≤ s) → 1 ≤ (classCount s r c low .fullHouse).2) ∧
  ((3 ≤ c ∧ 3 ≤ s) → 1 ≤ (classCount s r c low .threeKind).2) ∧
  ((4 ≤ c ∧ 2 ≤ s) → 1 ≤ (classCount s r c low .twoPair).2) ∧
  ((2 ≤ c ∧ 2 ≤ s) → 1 ≤ (classCount s r c low .pair).2)

instance (s r c : Nat) (low : Bool) : Decidable (shapeFacts s r c low) :=
  inferInstanceAs (Decidable (_ ∧ _))

theorem shape_table : ∀ s < 5, ∀ r < 14, ∀ c < 6, ∀ low : Bool, ¬ Shape s r c low ∨ shapeFacts s r c low := by
  decide +kernel

theorem Shape.facts {s r c : Nat} {low : Bool} (h : Shape s r c low) : shapeFacts s r c low :=
  (shape_table s (by have := h.1; omega) r (by have := h.2.1; omega) c (by have := h.2.2.1; omega) low).resolve_left
    (fun hn => hn h)

theorem highPatterns_full : ∀ r < 14, ∀ c < 6, ∀ low : Bool, ¬ (3 ≤ c ∧ r = c) ∨ highPatterns r c low = [] := by
  decide +kernel

theorem mem_classList (c : HandClass) : c ∈ CLASS_LIST := by cases c <;> decide

/-- a table that was built for a proper shape with every class listed once -/
structure Ctx (s r c : Nat) (low : Bool) (order : Option (List String)) (t : Table)
    (classes : List HandClass) : Prop where
  shape : Shape s r c low
  built : Built s r c low order t classes
  nodup : classes.Nodup
  all : ∀ k, k ∈ classes

section
variable {s r c : Nat} {low : Bool} {order : Option (List String)} {t : Table} {classes : List HandClass}

/-- number of rank patterns before a class -/
def bef (s r c : Nat) (low : Bool) (classes : List HandClass) (k : HandClass) : Int :=
  before (fun c' => (classCount s r c low c').2) classes k

def cnt (s r c : Nat) (low : Bool) (k : HandClass) : Int := (classCount s r c low k).2

theorem Ctx.nonneg (X : Ctx s r c low order t classes) (k : HandClass) : 0 ≤ cnt s r c low k :=
  X.shape.facts.1 k (mem_classList k)

theorem Ctx.spec (X : Ctx s r c low order t classes) :
    RankSpec (classCount s r c low) classes (rankLoop (classCount s r c low) classes) :=
  rankLoop_spec _ (fun k => X.nonneg k) classes X.nodup

theorem Ctx.cum (X : Ctx s r c low order t classes) (k : HandClass) :
    (t.handDict k).cumulative = bef s r c low classes k + cnt s r c low k := by
  rw [X.built.dict]; exact (X.spec.info k (X.all k)).2.2

theorem Ctx.uns (X : Ctx s r c low order t classes) (k : HandClass) :
    (t.handDict k).unsuited = cnt s r c low k := by
  rw [X.built.dict]; exact (X.spec.info k (X.all k)).2.1

theorem Ctx.bef_nonneg (X : Ctx s r c low order t classes) (k : HandClass) : 0 ≤ bef s r c low classes k :=
  before_nonneg _ X.nonneg classes k

theorem Ctx.bef_le (X : Ctx s r c low order t classes) (k : HandClass) :
    bef s r c low classes k + cnt s r c low k ≤ t.maxRank := by
  rw [X.built.max, X.spec.cum]
  exact before_le_sum _ X.nonneg classes k (X.all k)

theorem Ctx.get (X : Ctx s r c low order t classes) (k : HandClass) (h : (t.handDict k).cumulative ≠ 0) :
    getRank t.handDict t.rankedHands k = .ok
      (if bef s r c low classes k = 0 then 0 else bef s r c low classes k + 1) := by
  have h1 := X.cum k
  have h2 := X.bef_nonneg k
  have h3 := X.nonneg k
  rw [X.built.dict, X.built.ranked]
  exact X.spec.get k (X.all k) (by unfold bef cnt at *; omega)

theorem Ctx.cum_pos (X : Ctx s r c low order t classes) {k : HandClass} (h : 1 ≤ cnt s r c low k) :
    (t.handDict k).cumulative ≠ 0 := by
  have h1 := X.cum k
  have h2 := X.bef_nonneg k
  omega

/-! ### what the stages store -/

theorem Chain.of_mem {D : HandClass → ClassInfo} {R : List HandClass}
    {st : List (HandClass × List Nat)} {d d' : Dict} (h : Chain D R st d d') {k : HandClass} {ks : List Nat}
    (hm : (k, ks) ∈ st) (hc : (D k).cumulative ≠ 0) : (ks.length : Int) = (D k).unsuited := by
  induction st generalizing d with
  | nil => simp at hm
  | cons p st ih =>
    obtain ⟨c1, ks1⟩ := p
    obtain ⟨d1, h1, h2⟩ := h
    simp only [List.mem_cons, Prod.mk.injEq] at hm
    rcases hm with ⟨rfl, rfl⟩ | hm
    · rcases h1 with ⟨h3, -⟩ | ⟨-, h4, -⟩
      · exact absurd h3 hc
      · exact h4
    · exact ih h2 hm

/-- with at most two cards there are no straights and flushes -/
def smallChecks (r c : Nat) (low : Bool) : Prop :=
  (genStraightFlush c r low ≠ [] ∨ (r + 1 = c ∧ genStraightFlush c r low = [])) ∧ genFlush c r [] ≠ []

instance (r c : Nat) (low : Bool) : Decidable (smallChecks r c low) :=
  inferInstanceAs (Decidable (_ ∧ _))

theorem small_table : ∀ r < 14, ∀ c < 3, ∀ low : Bool, ¬ (1 ≤ r ∧ 1 ≤ c ∧ c ≤ r + 1) ∨ smallChecks r c low := by
  decide +kernel

theorem Ctx.chainS (X : Ctx s r c low order t classes) {k : HandClass} {ks : List Nat}
    (hm : (k, ks) ∈ suitedStages t.handDict r c low) (hc : (t.handDict k).cumulative ≠ 0) :
    (ks.length : Int) = cnt s r c low k := by
  obtain ⟨su, h, -⟩ := X.built.suited
  rw [← X.uns]
  exact h.of_mem hm hc

theorem Ctx.chainU (X : Ctx s r c low order t classes) {k : HandClass} {ks : List Nat}
    (hm : (k, ks) ∈ unsuitedStages t.handDict r c low) (hc : (t.handDict k).cumulative ≠ 0) :
    (ks.length : Int) = cnt s r c low k := by
  rw [← X.uns]
  exact X.built.unsuited.of_mem hm hc

theorem Ctx.small (X : Ctx s r c low order t classes) (h2 : c ≤ 2) :
    sfUsed t.handDict r c low = [] ∧ (t.handDict .flush).cumulative = 0 := by
  obtain ⟨hs, hr, hc, hcr, -⟩ := X.shape
  have hch := (small_table r (by omega) c (by omega) low).resolve_left (fun h => h ⟨hr.1, hc.1, hcr⟩)
  obtain ⟨f1, f2, f3⟩ := X.shape.facts.2.2.2.2.1 h2
  have hsf : sfUsed t.handDict r c low = [] := by
    unfold sfUsed
    split
    · next h =>
      rcases hch.1 with h1 | ⟨-, h1⟩
      · exfalso
        have hne : 1 ≤ (genStraightFlush c r low).length := List.length_pos_iff.2 h1
        have hu : sfUsed t.handDict r c low = genStraightFlush c r low := if_pos h
        rcases h with h | h
        · have := X.chainS (k := .straightFlush) (by simp [suitedStages]; rfl) h
          rw [hu] at this
          simp only [List.length_map, cnt] at this
          omega
        · have := X.chainU (k := .straight) (by simp [unsuitedStages]; rfl) h
          rw [hu] at this
          simp only [List.length_map, cnt] at this
          omega
      · exact h1
    · rfl
  refine ⟨hsf, ?_⟩
  by_contra h
  have := X.chainS (k := .flush) (by simp [suitedStages]; rfl) h
  have hu : flUsed t.handDict r c low = genFlush c r (sfUsed t.handDict r c low) := if_pos (.inl h)
  rw [hu, hsf] at this
  have hne : 1 ≤ (genFlush c r []).length := List.length_pos_iff.2 hch.2
  simp only [List.length_map, cnt] at this
  omega

theorem Ctx.sf_big (X : Ctx s r c low order t classes) (h3 : 3 ≤ c) (hcr : c ≤ r) :
    sfUsed t.handDict r c low = (straightPatterns r c low).map bitsOf := by
  obtain ⟨hs, hr, hc, -, hst⟩ := X.shape
  unfold sfUsed
  rw [if_pos (.inr (X.cum_pos (X.shape.facts.2.1 ⟨h3, hcr⟩))), straight_bits hr.2 hc.2 h3 hcr hst]

theorem Ctx.sf_keys (X : Ctx s r c low order t classes) (h3 : 3 ≤ c) (hcr : c ≤ r) :
    (sfUsed t.handDict r c low).map primeFromBits = (straightPatterns r c low).map prodKey := by
  rw [X.sf_big h3 hcr]
  obtain ⟨hs, hr, hc, -, hst⟩ := X.shape
  apply map_primeFromBits
  intro l hl
  obtain ⟨-, h1, h2, -⟩ := (straightPatterns_ok hr.2 hc.2 h3 hcr hst).1 l hl
  exact ⟨h2, fun x hx => ((mem_backwardsRanks r x hr.2).1 (h1 x hx)).2⟩

theorem Ctx.fl_keys (X : Ctx s r c low order t classes) (hcr : c ≤ r)
    (h : (t.handDict .flush).cumulative ≠ 0 ∨ (t.handDict .highCard).cumulative ≠ 0) :
    (flUsed t.handDict r c low).map primeFromBits = (highPatterns r c low).map prodKey := by
  obtain ⟨hs, hr, hc, -, hst⟩ := X.shape
  rw [← map_primeFromBits (highPatterns r c low) (fun l hl => highPatterns_mem hr.2 hl)]
  congr 1
  unfold flUsed
  rw [if_pos h]
  by_cases h3 : 3 ≤ c
  · rw [X.sf_big h3 hcr, ← straight_bits hr.2 hc.2 h3 hcr hst, flush_bits hr.2 hc.2 h3 hcr hst]
  · rw [(X.small (by omega)).1, flush_bits_small hr.2 (by omega) hcr]

/-- `rs` are the ranks of `c` cards -/
def RanksOf (r c : Nat) (rs : List Nat) : Prop := rs.length = c ∧ ∀ x ∈ rs, x ∈ backwardsRanks r

theorem RanksOf.lt {rs : List Nat} (h : RanksOf r c rs) (hr : r ≤ 13) : ∀ x ∈ rs, x < 13 :=
  fun x hx => ((mem_backwardsRanks r x hr).1 (h.2 x hx)).2

theorem Ctx.bogus (X : Ctx s r c low order t classes) (hcr : r + 1 = c) {rs : List Nat} (h : RanksOf r c rs) :
    prodKey rs ∉ (sfUsed t.handDict r c low).map primeFromBits ∧
    prodKey rs ∉ (flUsed t.handDict r c low).map primeFromBits := by
  obtain ⟨hs, hr, hc, -, hst⟩ := X.shape
  subst hcr
  obtain ⟨b1, b2, b3⟩ := bogus_table r (by omega) low
  have hne : prodKey rs ≠ prodKey (backwardsRanks r) := by
    intro e
    have := (prodKey_inj (h.lt hr.2) (fun x hx => ((mem_backwardsRanks r x hr.2).1 hx).2) e).length_eq
    rw [h.1] at this
    simp [backwardsRanks] at this
  constructor
  · rw [List.mem_map]
    rintro ⟨b, hb, e⟩
    unfold sfUsed at hb
    split at hb
    · exact hne (e ▸ b1 b hb)
    · simp at hb
  · rw [List.mem_map]
    rintro ⟨b, hb, e⟩
    unfold flUsed at hb
    split at hb
    · unfold sfUsed at hb
      split at hb
      · exact hne (e ▸ b2 b hb)
      · exact hne (e ▸ b3 b hb)
    · simp at hb

theorem multiKeys_eq (hr : r ≤ 13) (ms : List Nat) (h : ms.sum ≤ c) :
    multiKeys r c ms = (multiPatterns r c ms).map prodKey := by
  unfold multiKeys; rw [multipleProducts_eq r c hr ms h]

theorem multiKeys_neg (ms : List Nat) (h : c < ms.sum) : multiKeys r c ms = [] := by
  unfold multiKeys
  cases hm : multipleProducts r c ms with
  | error e => rfl
  | ok l => exact multipleProducts_neg r c ms h l hm

/-- A key stored for a class other than the flushes belongs to that class. -/
theorem Ctx.stage_kind (X : Ctx s r c low order t classes) {rs : List Nat} (h : RanksOf r c rs)
    {k : HandKind} {ks : List Nat} (hm : (cls k, ks) ∈ unsuitedStages t.handDict r c low)
    (hcum : (t.handDict (cls k)).cumulative ≠ 0) (hk : prodKey rs ∈ ks) : rankKind r low rs = k := by
  obtain ⟨hs, hr, hc, hcr1, hst⟩ := X.shape
  have hpat : ∀ L : List (List Nat), prodKey rs ∈ L.map prodKey →
      (∀ l ∈ L, rankKind r low l = k ∧ ∀ x ∈ l, x ∈ backwardsRanks r) → rankKind r low rs = k := by
    intro L hL hl
    obtain ⟨l, hl1, hl2⟩ := List.mem_map.1 hL
    obtain ⟨h1, h2⟩ := hl l hl1
    rw [← h1]
    exact (rankKind_perm (prodKey_inj (fun x hx => ((mem_backwardsRanks r x hr.2).1 (h2 x hx)).2)
      (h.lt hr.2) hl2) r low).symm
  have multi : ∀ ms, ks = multiKeys r c ms → patterns r c low k = multiPatterns r c ms →
      ((ms = [4] ∧ k = .fourKind) ∨ (ms = [3, 2] ∧ k = .fullHouse) ∨ (ms = [3] ∧ k = .threeKind) ∨
        (ms = [2, 2] ∧ k = .twoPair) ∨ (ms = [2] ∧ k = .pair)) → rankKind r low rs = k := by
    intro ms e1 e2 hms
    by_cases hle : ms.sum ≤ c
    · rw [e1, multiKeys_eq hr.2 ms hle, ← e2] at hk
      apply hpat _ hk
      intro l hl
      have := pattern_spec_multi (low := low) hr.2 k l (c := c) (by
        rcases hms with ⟨rfl, rfl⟩ | ⟨rfl, rfl⟩ | ⟨rfl, rfl⟩ | ⟨rfl, rfl⟩ | ⟨rfl, rfl⟩ <;> simp at hle ⊢ <;> omega) hl
      exact ⟨this.1, this.2.2.1⟩
    · rw [e1, multiKeys_neg ms (by omega)] at hk
      simp at hk
  by_cases hcr : c ≤ r
  · cases k with
    | straight =>
      simp [unsuitedStages, cls] at hm
      by_cases h3 : 3 ≤ c
      · rw [hm, X.sf_keys h3 hcr] at hk
        apply hpat _ hk
        intro l hl
        have := pattern_spec (low := low) hr.2 hc.2 hcr hst .straight l (.inl rfl) (fun _ => h3) hl
        exact ⟨this.1, this.2.2.1⟩
      · rw [hm, (X.small (by omega)).1] at hk
        simp at hk
    | highCard =>
      simp [unsuitedStages, cls] at hm
      rw [hm, X.fl_keys hcr (.inr hcum)] at hk
      apply hpat _ hk
      intro l hl
      have := pattern_spec (low := low) hr.2 hc.2 hcr hst .highCard l (.inr rfl) (by simp) hl
      exact ⟨this.1, this.2.2.1⟩
    | straightFlush => simp [unsuitedStages, cls] at hm
    | flush => simp [unsuitedStages, cls] at hm
    | fourKind => simp [unsuitedStages, cls] at hm; exact multi _ hm rfl (by simp)
    | fullHouse => simp [unsuitedStages, cls] at hm; exact multi _ hm rfl (by simp)
    | threeKind => simp [unsuitedStages, cls] at hm; exact multi _ hm rfl (by simp)
    | twoPair => simp [unsuitedStages, cls] at hm; exact multi _ hm rfl (by simp)
    | pair => simp [unsuitedStages, cls] at hm; exact multi _ hm rfl (by simp)
  · have hb := X.bogus (by omega) h
    cases k with
    | straight =>
      simp only [unsuitedStages, cls, List.mem_cons, Prod.mk.injEq, reduceCtorEq, false_and, true_and, List.not_mem_nil, or_false] at hm
      rw [hm] at hk
      exact absurd hk hb.1
    | highCard =>
      simp only [unsuitedStages, cls, List.mem_cons, Prod.mk.injEq, reduceCtorEq, false_and, true_and, List.not_mem_nil, or_false, false_or] at hm
      rw [hm] at hk
      exact absurd hk hb.2
    | straightFlush => simp [unsuitedStages, cls] at hm
    | flush => simp [unsuitedStages, cls] at hm
    | fourKind => simp [unsuitedStages, cls] at hm; exact multi _ hm rfl (by simp)
    | fullHouse => simp [unsuitedStages, cls] at hm; exact multi _ hm rfl (by simp)
    | threeKind => simp [unsuitedStages, cls] at hm; exact multi _ hm rfl (by simp)
    | twoPair => simp [unsuitedStages, cls] at hm; exact multi _ hm rfl (by simp)
    | pair => simp [unsuitedStages, cls] at hm; exact multi _ hm rfl (by simp)

end

end Clubs
