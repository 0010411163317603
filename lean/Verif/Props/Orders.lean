import Verif.Lemmas.Orders3
import Verif.Props.Rarity

/-!
# Property C17, continued: which custom orders are accepted

`Spec.numHands` is the number of sets of cards of the deck that are a hand of the kind.
-/

namespace Clubs

open Spec

/-- **C17**: when a hand has fewer cards than there are ranks, a permutation of the nine codes is accepted
**exactly** if every class without hands is listed before every class with hands. (Missing for the full
C17: more cards than ranks. See `C17_accepted_all_partial` for as many cards as ranks.) -/
theorem C17_accepted_exact_partial (s r c : Nat) (hs : 1 ≤ s ∧ s ≤ 4) (hr : r ≤ 13) (hc : 1 ≤ c ∧ c ≤ 5) (hcr : c < r)
    (m : Int) (low : Bool) (o : List String)
    (h : o.Perm ["sf", "fk", "fh", "fl", "st", "tk", "tp", "pa", "hc"]) :
    (∃ e, Evaluator.new s r c m low (some o) = .ok e) ↔
      ∀ a b : HandKind, numHands s r c low a = 0 → numHands s r c low b ≠ 0 → o.idxOf a.code < o.idxOf b.code := by
  have hst : StraightOK r c low := by unfold StraightOK; omega
  have hS : Shape s r c low := ⟨hs, ⟨by omega, hr⟩, hc, by omega, hst⟩
  obtain ⟨-, -, -, n4⟩ := (cntFacts_table s (by omega) r (by omega) c (by omega) low).resolve_left
    (fun h => h ⟨hs.1, hc.1, hcr⟩)
  have hz : ∀ k, numHands s r c low k = 0 ↔ cnt s r c low (cls k) = 0 := by
    intro k
    rw [numHands_eq hs.2 hr hc.2 hc.1 hst, n4 k (mem_kindList k)]
  obtain ⟨classes, ho⟩ := orderedClasses_perm (count := classCount s r c low) h
  have hcomp : ∀ x ∈ ORDER_STRINGS, x ∈ o := fun x hx => h.mem_iff.2 hx
  obtain ⟨h1, h2⟩ := classes_perm ho (h.nodup_iff.2 (by decide)) hcomp
  have h0 : ∀ k, 0 ≤ (classCount s r c low k).2 := fun k => hS.facts.1 k (mem_classList k)
  have hidx : ∀ k : HandKind, o.idxOf k.code = classes.idxOf (cls k) := by
    intro k
    rw [← classes_some ho, ← codeOf_cls, idxOf_codeOf]
  have hinj : ∀ a b : HandClass, classes.idxOf a = classes.idxOf b → a = b :=
    fun a b => (List.idxOf_inj (h2 a)).1
  have key : (∀ k, cnt s r c low k = 0 → bef s r c low classes k = 0) ↔
      ∀ a b : HandKind, numHands s r c low a = 0 → numHands s r c low b ≠ 0 → o.idxOf a.code < o.idxOf b.code := by
    constructor
    · intro H a b ha hb
      rw [hidx, hidx]
      have h3 := (before_eq_zero _ h0 classes (cls a)).1 (H _ ((hz a).1 ha)) (cls b) (h2 _)
      by_contra hlt
      rcases Nat.lt_or_eq_of_le (Nat.le_of_not_lt hlt) with h4 | h4
      · exact hb ((hz b).2 (h3 h4))
      · have := hinj _ _ h4
        exact hb ((hz b).2 (by rw [this]; exact (hz a).1 ha))
    · intro H k hk
      obtain ⟨a, rfl⟩ := cls_surj k
      refine (before_eq_zero _ h0 classes (cls a)).2 ?_
      intro d hd hlt
      obtain ⟨b, rfl⟩ := cls_surj d
      by_contra hb
      have := H a b ((hz a).2 hk) (fun e => hb ((hz b).1 e))
      rw [hidx, hidx] at this
      omega
  rw [← key]
  constructor
  · rintro ⟨e, he⟩
    have ht := (Evaluator.new_table he).1
    obtain ⟨cl, B⟩ := Table.new_ok ht
    have hcl : cl = classes := by
      have := B.ordered; rw [ho] at this; simpa using this.symm
    subst hcl
    exact bef_of_built ⟨hS, B, h1, h2⟩ hcr
  · intro H
    refine new_of_runs hS ?_ ho h1 h2 ?_ m
    · intro o' e; simp at e; subst e; exact hcomp
    · intro k
      by_cases hk : cnt s r c low k = 0
      · left; rw [H k hk, hk]; rfl
      · right
        have : 0 ≤ cnt s r c low k := h0 k
        omega

/-- Three-card hands of four suits have no four of a kind, full house or two pair: an order with these
first is accepted. -/
example : ∃ e, Evaluator.new 4 13 3 0 true (some ["fk", "fh", "tp", "sf", "tk", "st", "fl", "pa", "hc"]) = .ok e := by
  refine (C17_accepted_exact_partial 4 13 3 (by omega) (by omega) (by omega) (by omega) 0 true _ (by decide)).2 ?_
  intro a b
  rw [numHands_eq (by omega) (by omega) (by omega) (by omega) (by decide),
    numHands_eq (by omega) (by omega) (by omega) (by omega) (by decide)]
  cases a <;> cases b <;> decide +kernel

/-- … and the usual order of five-card poker is rejected for them. -/
example : ¬ ∃ e, Evaluator.new 4 13 3 0 true (some ["sf", "fk", "fh", "fl", "st", "tk", "tp", "pa", "hc"]) = .ok e := by
  intro hE
  have h := (C17_accepted_exact_partial 4 13 3 (by omega) (by omega) (by omega) (by omega) 0 true _ (by decide)).1 hE
  have := h .fourKind .straightFlush
  rw [numHands_eq (by omega) (by omega) (by omega) (by omega) (by decide),
    numHands_eq (by omega) (by omega) (by omega) (by omega) (by decide)] at this
  exact absurd this (by decide +kernel)

/-- Classes without hands that the code does not mind wherever they are listed: with a card of every rank a
flush is a straight flush, and with one card the lists of full houses and two pairs come out empty. -/
def Spec.Anywhere (r c : Nat) (k : HandKind) : Prop :=
  c = r ∧ (3 ≤ c ∧ (k = .flush ∨ k = .highCard) ∨ c = 1 ∧ (k = .fullHouse ∨ k = .twoPair))

instance (r c : Nat) (k : HandKind) : Decidable (Spec.Anywhere r c k) := inferInstanceAs (Decidable (_ ∧ _))

/-- **C17**: when a hand has as many cards as there are ranks, or fewer, a permutation of the nine codes is
accepted **exactly** if every class without hands, other than those of `Anywhere`, is listed before every
class with hands, and no low straight of three or more cards uses all ranks: in that case nothing is accepted.
(More cards than ranks: `C17_accepted_every_shape_partial`.) -/
theorem C17_accepted_all_partial (s r c : Nat) (hs : 1 ≤ s ∧ s ≤ 4) (hr : r ≤ 13) (hc : 1 ≤ c ∧ c ≤ 5) (hcr : c ≤ r)
    (m : Int) (low : Bool) (o : List String)
    (h : o.Perm ["sf", "fk", "fh", "fl", "st", "tk", "tp", "pa", "hc"]) :
    (∃ e, Evaluator.new s r c m low (some o) = .ok e) ↔
      ¬ (low = true ∧ c = r ∧ 3 ≤ c) ∧
      ∀ a b : HandKind, ¬ Anywhere r c a → numHands s r c low a = 0 → numHands s r c low b ≠ 0 →
        o.idxOf a.code < o.idxOf b.code := by
  rcases Nat.lt_or_eq_of_le hcr with hlt | rfl
  · rw [C17_accepted_exact_partial s r c hs hr hc hlt m low o h]
    have hno : ∀ a, ¬ Anywhere r c a := fun a ha => by have := ha.1; omega
    constructor
    · exact fun H => ⟨by omega, fun a b _ => H a b⟩
    · exact fun H a b => H.2 a b (hno a)
  obtain ⟨classes, ho⟩ := orderedClasses_perm (count := classCount s c c low) h
  have hcomp : ∀ x ∈ ORDER_STRINGS, x ∈ o := fun x hx => h.mem_iff.2 hx
  obtain ⟨h1, h2⟩ := classes_perm ho (h.nodup_iff.2 (by decide)) hcomp
  have built : ∀ e, Evaluator.new s c c m low (some o) = .ok e → ∃ t, Built s c c low (some o) t classes := by
    intro e he
    have ht := (Evaluator.new_table he).1
    obtain ⟨cl, B⟩ := Table.new_ok ht
    have hcl : cl = classes := by
      have := B.ordered; rw [ho] at this; simpa using this.symm
    subst hcl
    exact ⟨_, B⟩
  by_cases hst : low = true ∧ c = c ∧ 3 ≤ c
  · constructor
    · rintro ⟨e, he⟩
      obtain ⟨t, B⟩ := built e he
      obtain ⟨rfl, -, h3⟩ := hst
      exact (no_table_wrap hs ⟨h3, hc.2⟩ h1 h2 B).elim
    · exact fun H => absurd hst H.1
  have hst' : StraightOK c c low := hst
  have hS : Shape s c c low := ⟨hs, ⟨by omega, hr⟩, hc, by omega, hst'⟩
  obtain ⟨-, -, -, -, -, n4⟩ := (square_table s (by omega) c (by omega) low).resolve_left
    (fun h => h ⟨hs.1, hc.1, hst'⟩)
  have hz : ∀ k, numHands s c c low k = 0 ↔ cnt s c c low (cls k) = 0 := by
    intro k
    rw [numHands_eq hs.2 hr hc.2 hc.1 hst', n4 k (mem_kindList k)]
  have hfree : ∀ k, ¬ Anywhere c c k ↔ free c (cls k) = false := by
    intro k
    unfold Anywhere free
    by_cases h3 : 3 ≤ c
    · have h1' : c ≠ 1 := by omega
      cases k <;> simp [cls, h3, h1']
    · by_cases h1' : c = 1
      · subst h1'
        cases k <;> simp [cls]
      · cases k <;> simp [h3, h1']
  have h0 : ∀ k, 0 ≤ (classCount s c c low k).2 := fun k => hS.facts.1 k (mem_classList k)
  have hidx : ∀ k : HandKind, o.idxOf k.code = classes.idxOf (cls k) := by
    intro k
    rw [← classes_some ho, ← codeOf_cls, idxOf_codeOf]
  have hinj : ∀ a b : HandClass, classes.idxOf a = classes.idxOf b → a = b :=
    fun a b => (List.idxOf_inj (h2 a)).1
  have key : (∀ k, free c k = false → cnt s c c low k = 0 → bef s c c low classes k = 0) ↔
      ∀ a b : HandKind, ¬ Anywhere c c a → numHands s c c low a = 0 → numHands s c c low b ≠ 0 →
        o.idxOf a.code < o.idxOf b.code := by
    constructor
    · intro H a b hf ha hb
      rw [hidx, hidx]
      have h3 := (before_eq_zero _ h0 classes (cls a)).1 (H _ ((hfree a).1 hf) ((hz a).1 ha)) (cls b) (h2 _)
      by_contra hlt
      rcases Nat.lt_or_eq_of_le (Nat.le_of_not_lt hlt) with h4 | h4
      · exact hb ((hz b).2 (h3 h4))
      · have := hinj _ _ h4
        exact hb ((hz b).2 (by rw [this]; exact (hz a).1 ha))
    · intro H k hf hk
      obtain ⟨a, rfl⟩ := cls_surj k
      refine (before_eq_zero _ h0 classes (cls a)).2 ?_
      intro d hd hlt
      obtain ⟨b, rfl⟩ := cls_surj d
      by_contra hb
      have := H a b ((hfree a).2 hf) ((hz a).2 hk) (fun e => hb ((hz b).1 e))
      rw [hidx, hidx] at this
      omega
  rw [← key, ← fits_square hS]
  constructor
  · rintro ⟨e, he⟩
    obtain ⟨t, B⟩ := built e he
    exact ⟨hst, fits_of_built B h1 h2⟩
  · rintro ⟨-, H⟩
    have htab := (none_sorted_table s (by omega) c (by omega) c (by omega) low).resolve_left (fun hh => hh hS)
    obtain ⟨k, -, hk⟩ := htab.2
    have hk' : 1 ≤ cnt s c c low k := by
      have h3 := (htab.1 k (mem_classList k)).1
      have h4 := h0 k
      have : cnt s c c low k ≠ 0 := fun e => hk (h3.2 e)
      unfold cnt at *
      omega
    refine new_of_fits hc h0 (fun k => (htab.1 k (mem_classList k)).2) ⟨k, hk, hk'⟩ ?_ ho h1 h2 H m
    intro o' e; simp at e; subst e; exact hcomp

/-- Three cards of three ranks and four suits: an order listing the empty flush last is accepted … -/
example : ∃ e, Evaluator.new 4 3 3 0 false (some ["fk", "fh", "tp", "sf", "st", "tk", "pa", "fl", "hc"]) = .ok e := by
  refine (C17_accepted_all_partial 4 3 3 (by omega) (by omega) (by omega) (by omega) 0 false _ (by decide)).2 ⟨by simp, ?_⟩
  intro a b
  rw [numHands_eq (by omega) (by omega) (by omega) (by omega) (by decide),
    numHands_eq (by omega) (by omega) (by omega) (by omega) (by decide)]
  cases a <;> cases b <;> decide +kernel

/-- … but not one listing the empty two pair last … -/
example : ¬ ∃ e, Evaluator.new 4 3 3 0 false (some ["fk", "fh", "fl", "sf", "st", "tk", "pa", "hc", "tp"]) = .ok e := by
  intro hE
  have h := (C17_accepted_all_partial 4 3 3 (by omega) (by omega) (by omega) (by omega) 0 false _ (by decide)).1 hE
  have := h.2 .twoPair .straightFlush
  rw [numHands_eq (by omega) (by omega) (by omega) (by omega) (by decide),
    numHands_eq (by omega) (by omega) (by omega) (by omega) (by decide)] at this
  exact absurd this (by decide +kernel)

/-- … and none at all with low straights. -/
example (o : List String) (h : o.Perm ["sf", "fk", "fh", "fl", "st", "tk", "tp", "pa", "hc"]) :
    ¬ ∃ e, Evaluator.new 4 3 3 0 true (some o) = .ok e :=
  fun hE => ((C17_accepted_all_partial 4 3 3 (by omega) (by omega) (by omega) (by omega) 0 true o h).1 hE).1
    ⟨rfl, rfl, by omega⟩

/-- Classes in which the code counts a hand although there is none: with one card more than there are ranks it
counts one hand without a pair. It takes it for a straight if straights may begin with a low ace, otherwise for a
high card. -/
def Spec.Phantom (s r c : Nat) (low : Bool) (k : HandKind) : Prop :=
  c = r + 1 ∧ (if low = true ∧ 3 ≤ c then k = .straight ∨ k = .straightFlush ∧ 2 ≤ s
    else k = .highCard ∨ k = .flush ∧ 2 ≤ s ∧ 3 ≤ c) ∨
  c = r + 2 ∧ s = 1 ∧ low = true ∧ k = .highCard

/-- Classes without hands that the code does not mind wherever they are listed, because the lists of their keys
come out empty: those of `Anywhere`, and with more cards than ranks the following. -/
def Spec.Harmless (r c : Nat) (low : Bool) (k : HandKind) : Prop :=
  Anywhere r c k ∨
  c = r + 1 ∧ (low = false ∧ (k = .straight ∨ k = .straightFlush) ∨
    low = true ∧ 3 ≤ c ∧ (k = .flush ∨ k = .highCard) ∨ c = 2 ∧ (k = .fullHouse ∨ k = .twoPair)) ∨
  c = r + 2 ∧ (k = .pair ∨ c = 3 ∧ (k = .fullHouse ∨ k = .twoPair))

instance (s r c : Nat) (low : Bool) (k : HandKind) : Decidable (Spec.Phantom s r c low k) := by
  unfold Spec.Phantom; infer_instance

instance (r c : Nat) (low : Bool) (k : HandKind) : Decidable (Spec.Harmless r c low k) := inferInstanceAs (Decidable (_ ∨ _))

/-- the two notions agree with the code's counts and keys when there are more cards than ranks -/
def overKinds (s r : Nat) : Prop := ∀ c < 6, ∀ low : Bool,
  ¬ (1 ≤ s ∧ 1 ≤ r ∧ (c = r + 1 ∨ c = r + 2 ∧ s = 1 ∧ low = true)) ∨
  ∀ k ∈ kindList, (cnt s r c low (cls k) = 0 ↔ nPatterns r c low k * suitChoices s c k = 0 ∧ ¬ Phantom s r c low k) ∧
    (cnt s r c low (cls k) = 0 → (keys r c low (overStraights r c low) (cls k) = some 0 ↔ Harmless r c low k))

instance (s r : Nat) : Decidable (overKinds s r) := inferInstanceAs (Decidable (∀ c < 6, ∀ _low : Bool, _ ∨ _))

theorem over_kinds : ∀ s < 5, ∀ r < 5, overKinds s r := by decide +kernel

/-- **C17**, for every deck and every number of cards: a permutation of the nine codes is accepted **exactly** if
the shape is one for which the constructor succeeds without an order, and every class without hands, other than
`Harmless` ones, is listed before every class with hands; `Phantom` classes count as classes with hands. In
particular, apart from one oddity, nothing is accepted with two or more cards more than there are ranks. -/
theorem C17_accepted_every_shape_partial (s r c : Nat) (hs : 1 ≤ s ∧ s ≤ 4) (hr : 1 ≤ r ∧ r ≤ 13) (hc : 1 ≤ c ∧ c ≤ 5)
    (m : Int) (low : Bool) (o : List String)
    (h : o.Perm ["sf", "fk", "fh", "fl", "st", "tk", "tp", "pa", "hc"]) :
    (∃ e, Evaluator.new s r c m low (some o) = .ok e) ↔
      ((c ≤ r + 1 ∧ ¬ (low = true ∧ c = r ∧ 3 ≤ c)) ∨ (s = 1 ∧ low = true ∧ r + 2 = c)) ∧
      ∀ a b : HandKind, ¬ Harmless r c low a → numHands s r c low a = 0 → ¬ Phantom s r c low a →
        (numHands s r c low b ≠ 0 ∨ Phantom s r c low b) → o.idxOf a.code < o.idxOf b.code := by
  by_cases hcr : c ≤ r
  · rw [C17_accepted_all_partial s r c hs hr.2 hc hcr m low o h]
    have hph : ∀ k, ¬ Phantom s r c low k := by
      intro k hk
      rcases hk with hk | hk
      · have := hk.1; omega
      · have := hk.1; omega
    have hha : ∀ k, Harmless r c low k ↔ Anywhere r c k := by
      intro k
      unfold Harmless
      constructor
      · rintro (h | h | h)
        · exact h
        · have := h.1; omega
        · have := h.1; omega
      · exact .inl
    constructor
    · rintro ⟨g1, g2⟩
      refine ⟨.inl ⟨by omega, g1⟩, ?_⟩
      intro a b h3 h4 _ h5
      exact g2 a b (fun h => h3 ((hha a).2 h)) h4 (h5.resolve_right (hph b))
    · rintro ⟨g1, g2⟩
      refine ⟨?_, ?_⟩
      · rcases g1 with g1 | g1
        · exact g1.2
        · omega
      · intro a b h3 h4 h5
        exact g2 a b (fun h => h3 ((hha a).1 h)) h4 (hph a) (.inl h5)
  obtain ⟨classes, ho⟩ := orderedClasses_perm (count := classCount s r c low) h
  have hcomp : ∀ x ∈ ORDER_STRINGS, x ∈ o := fun x hx => h.mem_iff.2 hx
  obtain ⟨h1, h2⟩ := classes_perm ho (h.nodup_iff.2 (by decide)) hcomp
  have hst : StraightOK r c low := by rintro ⟨-, h, -⟩; omega
  by_cases hsh : c = r + 1 ∨ c = r + 2 ∧ s = 1 ∧ low = true
  · have hP := (over_table s (by omega) r (by omega) c (by omega) low).resolve_left (fun h => h ⟨hs.1, hr.1, hsh⟩)
    have hK := (over_kinds s (by omega) r (by omega) c (by omega) low).resolve_left (fun h => h ⟨hs.1, hr.1, hsh⟩)
    have hz : ∀ k, cnt s r c low (cls k) = 0 ↔ numHands s r c low k = 0 ∧ ¬ Phantom s r c low k := by
      intro k
      rw [numHands_eq hs.2 hr.2 hc.2 hc.1 hst]
      exact (hK k (mem_kindList k)).1
    have hidx : ∀ k : HandKind, o.idxOf k.code = classes.idxOf (cls k) := by
      intro k
      rw [← classes_some ho, ← codeOf_cls, idxOf_codeOf]
    rw [accepted_plain hc hP hcomp ho h1 h2 m]
    constructor
    · intro H
      refine ⟨?_, ?_⟩
      · rcases hsh with g | g
        · left; exact ⟨by omega, by omega⟩
        · right; exact ⟨g.2.1, g.2.2, g.1.symm⟩
      · intro a b h3 h4 h5 h6
        have g := (hz a).2 ⟨h4, h5⟩
        rw [hidx, hidx]
        refine H (cls a) (cls b) (fun e => h3 (((hK a (mem_kindList a)).2 g).1 e)) g ?_
        intro e
        obtain ⟨e1, e2⟩ := (hz b).1 e
        exact h6.elim (fun h => h e1) e2
    · rintro ⟨-, H⟩ a b h3 h4 h5
      obtain ⟨a, rfl⟩ := cls_surj a
      obtain ⟨b, rfl⟩ := cls_surj b
      rw [← hidx, ← hidx]
      obtain ⟨e1, e2⟩ := (hz a).1 h4
      refine H a b (fun e => h3 (((hK a (mem_kindList a)).2 h4).2 e)) e1 e2 ?_
      by_contra hb
      rw [not_or, not_not] at hb
      exact h5 ((hz b).2 hb)
  · constructor
    · rintro ⟨e, he⟩
      obtain ⟨cl, B⟩ := Table.new_ok (Evaluator.new_table he).1
      have hcl : cl = classes := by
        have := B.ordered; rw [ho] at this; simpa using this.symm
      subst hcl
      obtain ⟨k, -, g1, g2⟩ := (over_none s (by omega) r (by omega) c (by omega) low).resolve_left
        (fun h => h ⟨hs.1, hr.1, by omega, by tauto⟩)
      exact (no_table_unfit h1 h2 B k g1 g2).elim
    · rintro ⟨g, -⟩
      rcases g with ⟨g, -⟩ | ⟨g1, g2, g3⟩
      · omega
      · exact absurd (.inr ⟨g3.symm, g1, g2⟩) hsh

/-- **C17**: if some permutation of the codes is accepted, then no order at all is accepted too. -/
theorem C17_default_partial (s r c : Nat) (hs : 1 ≤ s ∧ s ≤ 4) (hr : 1 ≤ r ∧ r ≤ 13) (hc : 1 ≤ c ∧ c ≤ 5)
    (m : Int) (low : Bool) (o : List String)
    (h : o.Perm ["sf", "fk", "fh", "fl", "st", "tk", "tp", "pa", "hc"])
    (hE : ∃ e, Evaluator.new s r c m low (some o) = .ok e) : ∃ e, Evaluator.new s r c m low none = .ok e :=
  (C09_exact_partial s r c hs hr hc m low).2 ((C17_accepted_every_shape_partial s r c hs hr hc m low o h).1 hE).1

/-- Four cards of three ranks and two suits: the orders that list three and four of a kind and the full house first
are accepted … -/
example : ∃ e, Evaluator.new 2 3 4 0 false (some ["fk", "fh", "tk", "hc", "pa", "tp", "st", "fl", "sf"]) = .ok e := by
  refine (C17_accepted_every_shape_partial 2 3 4 (by omega) (by omega) (by omega) 0 false _ (by decide)).2
    ⟨.inl (by simp), ?_⟩
  intro a b
  rw [numHands_eq (by omega) (by omega) (by omega) (by omega) (by decide),
    numHands_eq (by omega) (by omega) (by omega) (by omega) (by decide)]
  cases a <;> cases b <;> decide +kernel

/-- … those that list a pair before three of a kind are not, … -/
example : ¬ ∃ e, Evaluator.new 2 3 4 0 false (some ["fk", "fh", "pa", "tk", "hc", "tp", "st", "fl", "sf"]) = .ok e := by
  intro hE
  have h := (C17_accepted_every_shape_partial 2 3 4 (by omega) (by omega) (by omega) 0 false _ (by decide)).1 hE
  have := h.2 .threeKind .pair
  rw [numHands_eq (by omega) (by omega) (by omega) (by omega) (by decide),
    numHands_eq (by omega) (by omega) (by omega) (by omega) (by decide)] at this
  exact absurd this (by decide +kernel)

/-- … and with five cards of three ranks no order is. -/
example (o : List String) (h : o.Perm ["sf", "fk", "fh", "fl", "st", "tk", "tp", "pa", "hc"]) :
    ¬ ∃ e, Evaluator.new 4 3 5 0 false (some o) = .ok e :=
  fun hE => absurd ((C17_accepted_every_shape_partial 4 3 5 (by omega) (by omega) (by omega) 0 false o h).1 hE).1 (by simp)

end Clubs
