import Verif.Props.Evaluator
import Verif.Lemmas.Rarity2

/-! # C16: hand classes and how many hands they have -/

namespace Clubs

open Spec

/-! ## the numbers of hands -/

/-- The numbers everybody knows: the hands of five cards of the full deck. -/
theorem C16_standard :
    numHands 4 13 5 true .straightFlush = 40 ∧ numHands 4 13 5 true .fourKind = 624 ∧
    numHands 4 13 5 true .fullHouse = 3744 ∧ numHands 4 13 5 true .flush = 5108 ∧
    numHands 4 13 5 true .straight = 10200 ∧ numHands 4 13 5 true .threeKind = 54912 ∧
    numHands 4 13 5 true .twoPair = 123552 ∧ numHands 4 13 5 true .pair = 1098240 ∧
    numHands 4 13 5 true .highCard = 1302540 := by
  have h := fun k => numHands_eq (s := 4) (r := 13) (c := 5) (low := true) (by omega) (by omega) (by omega) (by omega)
    (by decide) k
  simp only [h]
  decide +kernel

/-- the number of hands of a kind, computed -/
def trueCount (s r c : Nat) (low : Bool) (k : HandKind) : Nat := nPatterns r c low k * suitChoices s c k

def KINDS : List HandKind :=
  [.straightFlush, .fourKind, .fullHouse, .flush, .straight, .threeKind, .twoPair, .pair, .highCard]

theorem mem_kinds (k : HandKind) : k ∈ KINDS := by cases k <;> decide

/-- the shapes for which the code's formulas give the true numbers of hands -/
def GoodCounts (s r c : Nat) : Prop := s = 1 ∨ (3 ≤ c ∧ c ≤ r ∧ ¬ (s = 3 ∧ 4 ≤ c))

instance (s r c : Nat) : Decidable (GoodCounts s r c) := inferInstanceAs (Decidable (_ ∨ _))

/-- the shapes for which the classes are not listed by rarity: two cards from two ranks, and three suits with five cards, or
with four cards from six or seven ranks -/
def BadOrder (s r c : Nat) : Prop :=
  (2 ≤ s ∧ r = 2 ∧ c = 2) ∨ (s = 3 ∧ c = 5) ∨ (s = 3 ∧ c = 4 ∧ (r = 6 ∨ r = 7))

instance (s r c : Nat) : Decidable (BadOrder s r c) := inferInstanceAs (Decidable (_ ∨ _))

theorem counts_table : ∀ s < 5, ∀ r < 14, ∀ c < 6, ∀ low : Bool, ¬ (Shape s r c low ∧ c ≤ r * s) ∨
    ((∀ k ∈ KINDS, (classCount s r c low (cls k)).1 = (trueCount s r c low k : Int)) ↔ GoodCounts s r c) := by
  decide +kernel

/-- before in the sorted list -/
def listedBefore (s r c : Nat) (low : Bool) (a b : HandKind) : Prop :=
  (classCount s r c low (cls a)).1 < (classCount s r c low (cls b)).1 ∨
    ((classCount s r c low (cls a)).1 = (classCount s r c low (cls b)).1 ∧ (cls a).nameOrd < (cls b).nameOrd)

instance (s r c : Nat) (low : Bool) (a b : HandKind) : Decidable (listedBefore s r c low a b) :=
  inferInstanceAs (Decidable (_ ∨ _))

def allListed (s r c : Nat) (low : Bool) : Prop :=
  ∀ k ∈ KINDS, ¬ 0 < trueCount s r c low k ∨ 0 < (classCount s r c low (cls k)).1

instance (s r c : Nat) (low : Bool) : Decidable (allListed s r c low) :=
  inferInstanceAs (Decidable (∀ k ∈ KINDS, ¬ 0 < trueCount s r c low k ∨ 0 < (classCount s r c low (cls k)).1))

def allOrdered (s r c : Nat) (low : Bool) : Prop :=
  ∀ a ∈ KINDS, ∀ b ∈ KINDS, ¬ (0 < trueCount s r c low a ∧ trueCount s r c low a < trueCount s r c low b) ∨
    listedBefore s r c low a b

instance (s r c : Nat) (low : Bool) : Decidable (allOrdered s r c low) :=
  inferInstanceAs (Decidable (∀ a ∈ KINDS, ∀ b ∈ KINDS,
    ¬ (0 < trueCount s r c low a ∧ trueCount s r c low a < trueCount s r c low b) ∨ listedBefore s r c low a b))

theorem order_table : ∀ s < 5, ∀ r < 14, ∀ c < 6, ∀ low : Bool, ¬ (Shape s r c low ∧ c ≤ r * s) ∨
    (allListed s r c low ∧ (allOrdered s r c low ↔ ¬ BadOrder s r c)) := by
  decide +kernel

section
variable {s r c : Nat} {low : Bool}

theorem trueCount_eq (hS : Shape s r c low) (k : HandKind) : numHands s r c low k = trueCount s r c low k :=
  numHands_eq hS.1.2 hS.2.1.2 hS.2.2.1.2 hS.2.2.1.1 hS.2.2.2.2 k

theorem shape_tables (hS : Shape s r c low) (hcard : c ≤ r * s) :
    ((∀ k, (classCount s r c low (cls k)).1 = (numHands s r c low k : Int)) ↔ GoodCounts s r c) ∧
    (∀ k, 0 < numHands s r c low k → 0 < (classCount s r c low (cls k)).1) ∧
    ((∀ a b, 0 < numHands s r c low a → numHands s r c low a < numHands s r c low b → listedBefore s r c low a b) ↔
      ¬ BadOrder s r c) := by
  have h1 := (counts_table s (by have := hS.1; omega) r (by have := hS.2.1; omega) c (by have := hS.2.2.1; omega) low).resolve_left
    (fun h => h ⟨hS, hcard⟩)
  have h2 := (order_table s (by have := hS.1; omega) r (by have := hS.2.1; omega) c (by have := hS.2.2.1; omega) low).resolve_left
    (fun h => h ⟨hS, hcard⟩)
  simp only [trueCount_eq hS]
  refine ⟨⟨fun h => h1.1 (fun k _ => h k), fun h k => h1.2 h k (mem_kinds k)⟩, fun k hk => (h2.1 k (mem_kinds k)).resolve_left (fun h => h hk), ⟨fun h => h2.2.1 (fun a _ b _ => ?_),
    fun h a b h3 h4 => (h2.2.2 h a (mem_kinds a) b (mem_kinds b)).resolve_left (fun h => h ⟨h3, h4⟩)⟩⟩
  by_cases h3 : 0 < trueCount s r c low a ∧ trueCount s r c low a < trueCount s r c low b
  · exact .inr (h a b h3.1 h3.2)
  · exact .inl h3

/-- the classes are listed as the formulas say -/
theorem listed_iff (hs : 1 ≤ s ∧ s ≤ 4) (hr : 1 ≤ r ∧ r ≤ 13) (hc : 1 ≤ c ∧ c ≤ 5) (hcard : c ≤ r * s) {m : Int}
    {e : Evaluator} (he : Evaluator.new s r c m low none = .ok e) {a b : HandKind} (ha : cls a ∈ e.table.rankedHands)
    (hb : cls b ∈ e.table.rankedHands) : classPos e a < classPos e b ↔ listedBefore s r c low a b := by
  obtain ⟨hp, -⟩ := C16_sorted_partial s r c hs hr hc hcard m low e he
  obtain ⟨classes, X⟩ := ctx_none hs hr hc (Evaluator.new_table he).1 hcard
  have hsu : ∀ k, (e.table.handDict k).suited = (classCount s r c low k).1 := by
    intro k; rw [X.built.dict]; exact (X.spec.info k (X.all k)).1
  unfold classPos
  rw [← cls_name, ← cls_name, idxOf_map_name, idxOf_map_name]
  have key : ∀ {a b : HandKind}, cls a ∈ e.table.rankedHands → cls b ∈ e.table.rankedHands →
      e.table.rankedHands.idxOf (cls a) < e.table.rankedHands.idxOf (cls b) → listedBefore s r c low a b := by
    intro a b ha hb hlt
    have h1 := List.idxOf_lt_length_iff.2 ha
    have h2 := List.idxOf_lt_length_iff.2 hb
    have := List.pairwise_iff_getElem.1 hp _ _ h1 h2 hlt
    rw [List.getElem_idxOf h1, List.getElem_idxOf h2, hsu, hsu, ← nameOrd_spec] at this
    exact this
  refine ⟨key ha hb, fun h => ?_⟩
  rcases Nat.lt_trichotomy (e.table.rankedHands.idxOf (cls a)) (e.table.rankedHands.idxOf (cls b)) with h1 | h1 | h1
  · exact h1
  · have hab : cls a = cls b := by
      have h2 := List.idxOf_lt_length_iff.2 ha
      have h3 := List.idxOf_lt_length_iff.2 hb
      have e1 := List.getElem_idxOf h2
      have e2 := List.getElem_idxOf h3
      rw [← e1, ← e2]
      congr 1
    unfold listedBefore at h
    rw [hab] at h
    omega
  · have h2 := key hb ha h1
    unfold listedBefore at h h2
    omega

/-- **C16**: `hand_dict[...]["suited"]` holds the true numbers of hands **exactly** for these shapes. -/
theorem C16_counts (hs : 1 ≤ s ∧ s ≤ 4) (hr : 1 ≤ r ∧ r ≤ 13) (hc : 1 ≤ c ∧ c ≤ 5) (hcard : c ≤ r * s) {m : Int}
    {e : Evaluator} (he : Evaluator.new s r c m low none = .ok e) :
    (∀ (x : HandClass) (k : HandKind), x.name = k.name → (e.table.handDict x).suited = (numHands s r c low k : Int)) ↔
      (s = 1 ∨ (3 ≤ c ∧ c ≤ r ∧ ¬ (s = 3 ∧ 4 ≤ c))) := by
  obtain ⟨classes, X⟩ := ctx_none hs hr hc (Evaluator.new_table he).1 hcard
  have hsu : ∀ k, (e.table.handDict k).suited = (classCount s r c low k).1 := by
    intro k; rw [X.built.dict]; exact (X.spec.info k (X.all k)).1
  have h1 := (shape_tables X.shape hcard).1
  rw [show (s = 1 ∨ (3 ≤ c ∧ c ≤ r ∧ ¬ (s = 3 ∧ 4 ≤ c))) ↔ GoodCounts s r c from Iff.rfl, ← h1]
  constructor
  · intro h k
    rw [← hsu]
    exact h (cls k) k (cls_name k)
  · intro h x k hn
    have : x = cls k := by
      rw [← cls_name] at hn
      revert hn
      cases x <;> cases k <;> decide
    rw [this, hsu]
    exact h k

/-- **C16**: every class that has hands is listed. -/
theorem C16_listed (hs : 1 ≤ s ∧ s ≤ 4) (hr : 1 ≤ r ∧ r ≤ 13) (hc : 1 ≤ c ∧ c ≤ 5) (hcard : c ≤ r * s) {m : Int}
    {e : Evaluator} (he : Evaluator.new s r c m low none = .ok e) (k : HandKind) (hk : 0 < numHands s r c low k) :
    k.name ∈ e.table.rankedHands.map (·.name) := by
  obtain ⟨classes, X⟩ := ctx_none hs hr hc (Evaluator.new_table he).1 hcard
  have h1 := (shape_tables X.shape hcard).2.1 k hk
  obtain ⟨-, h2⟩ := C16_sorted_partial s r c hs hr hc hcard m low e he
  have hsu : (e.table.handDict (cls k)).suited = (classCount s r c low (cls k)).1 := by
    rw [X.built.dict]; exact (X.spec.info _ (X.all _)).1
  rw [← cls_name]
  exact List.mem_map.2 ⟨cls k, (h2 _).2 (by rw [hsu]; exact h1), rfl⟩

/-- **C16**: the classes are listed by rarity — a class with fewer hands comes before a class with more — **exactly** for the
shapes that are not among these: two cards from two ranks (and more than one suit); three suits with five cards, or with four
cards from six or seven ranks. -/
theorem C16_rarity_partial (hs : 1 ≤ s ∧ s ≤ 4) (hr : 1 ≤ r ∧ r ≤ 13) (hc : 1 ≤ c ∧ c ≤ 5) (hcard : c ≤ r * s) {m : Int}
    {e : Evaluator} (he : Evaluator.new s r c m low none = .ok e) :
    (∀ a b, 0 < numHands s r c low a → numHands s r c low a < numHands s r c low b → classPos e a < classPos e b) ↔
      ¬ ((2 ≤ s ∧ r = 2 ∧ c = 2) ∨ (s = 3 ∧ c = 5) ∨ (s = 3 ∧ c = 4 ∧ (r = 6 ∨ r = 7))) := by
  obtain ⟨classes, X⟩ := ctx_none hs hr hc (Evaluator.new_table he).1 hcard
  have h1 := (shape_tables X.shape hcard).2.2
  rw [show ((2 ≤ s ∧ r = 2 ∧ c = 2) ∨ (s = 3 ∧ c = 5) ∨ (s = 3 ∧ c = 4 ∧ (r = 6 ∨ r = 7))) ↔ BadOrder s r c from Iff.rfl, ← h1]
  have hmem : ∀ k, 0 < numHands s r c low k → cls k ∈ e.table.rankedHands := by
    intro k hk
    obtain ⟨x, hx, hn⟩ := List.mem_map.1 (C16_listed hs hr hc hcard he k hk)
    have : x = cls k := by
      rw [← cls_name] at hn
      revert hn
      cases x <;> cases k <;> decide
    rwa [← this]
  constructor
  · intro h a b ha hab
    exact (listed_iff hs hr hc hcard he (hmem a ha) (hmem b (by omega))).1 (h a b ha hab)
  · intro h a b ha hab
    exact (listed_iff hs hr hc hcard he (hmem a ha) (hmem b (by omega))).2 (h a b ha hab)

/-- **C16**: of two hands of different classes the one of the rarer class wins (shapes as in `C16_rarity_partial`; the shapes of
`C11_false` are left out). -/
theorem C16_beats_partial (hs : 1 ≤ s ∧ s ≤ 4) (hr : 1 ≤ r ∧ r ≤ 13) (hc : 1 ≤ c ∧ c ≤ 5) (hne : ¬ (3 ≤ c ∧ r = c))
    (hgood : ¬ ((2 ≤ s ∧ r = 2 ∧ c = 2) ∨ (s = 3 ∧ c = 5) ∨ (s = 3 ∧ c = 4 ∧ (r = 6 ∨ r = 7)))) {m : Int}
    {e : Evaluator} (he : Evaluator.new s r c m low none = .ok e) {ps qs : List (Nat × Nat)} (hp : IsHand s r c ps)
    (hq : IsHand s r c qs) {h k : List Card} (hh : Denotes ps h) (hk : Denotes qs k)
    (hrare : numHands s r c low (handKind s r low ps) < numHands s r c low (handKind s r low qs)) :
    ∃ v w, e.table.lookup h = .ok v ∧ e.table.lookup k = .ok w ∧ v < w := by
  obtain ⟨v, w, h1, h2, h3, -⟩ := C11_order_partial s r c hs hr hc hne m low none (.inl rfl) e he ps qs hp hq h k hh hk
  refine ⟨v, w, h1, h2, h3.2 (.inl ?_)⟩
  refine (C16_rarity_partial hs hr hc (isHand_card_le hp hr.2) he).2 hgood _ _ ?_ hrare
  unfold numHands
  rw [Finset.card_pos]
  have hd := hp.2.1
  refine ⟨ps.toFinset, Finset.mem_filter.2 ⟨Finset.mem_powersetCard.2 ⟨?_, ?_⟩, ?_⟩⟩
  · intro p hpp
    have := hp.2.2 p (List.mem_toFinset.1 hpp)
    exact Finset.mem_product.2 ⟨Finset.mem_Ico.2 this.1, Finset.mem_range.2 this.2⟩
  · rw [List.toFinset_card_of_nodup hd, hp.1]
  · have hperm : ps.toFinset.toList.Perm ps := by
      rw [List.perm_ext_iff_of_nodup (Finset.nodup_toList _) hd]
      intro x
      simp
    rw [handKind_eq, handKind_eq, rankKind_perm (hperm.map _)]
    congr 1
    have : IsFlush s ps.toFinset.toList ↔ IsFlush s ps := by
      unfold IsFlush
      rw [hperm.length_eq]
      simp only [hperm.mem_iff]
    simp only [this]

end

/-- a shape that meets the hypotheses: 36 cards, as in six-plus hold'em, where a flush beats a full house -/
example : ∃ e, Evaluator.new 4 9 5 0 true none = .ok e ∧
    numHands 4 9 5 true .flush = 480 ∧ numHands 4 9 5 true .fullHouse = 1728 ∧
    classPos e .flush < classPos e .fullHouse := by
  obtain ⟨e, he⟩ := (C09_exact_partial 4 9 5 (by omega) (by omega) (by omega) 0 true).2 (by simp)
  have h1 : numHands 4 9 5 true .flush = 480 := by
    rw [numHands_eq (by omega) (by omega) (by omega) (by omega) (by decide)]; decide +kernel
  have h2 : numHands 4 9 5 true .fullHouse = 1728 := by
    rw [numHands_eq (by omega) (by omega) (by omega) (by omega) (by decide)]; decide +kernel
  refine ⟨e, he, h1, h2, ?_⟩
  exact (C16_rarity_partial (s := 4) (r := 9) (c := 5) (by omega) (by omega) (by omega) (by omega) he).2 (by omega) _ _
    (by omega) (by omega)

end Clubs
