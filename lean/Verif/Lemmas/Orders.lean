import Verif.Lemmas.Eval2
import Verif.Lemmas.Rarity2

/-! Helper lemmas: which permutations of the classes a table can be built for. -/

namespace Clubs

open Spec

/-- what the generators give when fewer cards than ranks make up a hand -/
def genNonempty (r c : Nat) (low : Bool) : Prop :=
  (genStraightFlush c r low).length ≠ 0 ∧
  (genFlush c r []).length ≠ 0 ∧
  (3 ≤ c → (genFlush c r (genStraightFlush c r low)).length ≠ 0) ∧
  (∀ ms ∈ [[4], [3, 2], [3], [2, 2], [2]], multipleProducts r c ms ≠ .ok [])

instance (r c : Nat) (ms : List Nat) : Decidable (multipleProducts r c ms ≠ .ok []) :=
  match multipleProducts r c ms with
  | .ok [] => isFalse (by simp)
  | .ok (_ :: _) => isTrue (by simp)
  | .error _ => isTrue (by simp)

instance (r c : Nat) (low : Bool) : Decidable (genNonempty r c low) := inferInstanceAs (Decidable (_ ∧ _))

theorem genNonempty_table : ∀ r < 14, ∀ c < 6, ∀ low : Bool, ¬ (1 ≤ c ∧ c < r) ∨ genNonempty r c low := by
  decide +kernel

/-- the nine kinds -/
def kindList : List HandKind :=
  [.straightFlush, .fourKind, .fullHouse, .flush, .straight, .threeKind, .twoPair, .pair, .highCard]

theorem mem_kindList (k : HandKind) : k ∈ kindList := by cases k <;> decide

/-- counts that are never, and always, zero when fewer cards than ranks make up a hand -/
def cntFacts (s r c : Nat) (low : Bool) : Prop :=
  cnt s r c low .highCard ≠ 0 ∧ (3 ≤ c → cnt s r c low .straight ≠ 0) ∧
  (c ≤ 2 → cnt s r c low .straight = 0 ∧ cnt s r c low .straightFlush = 0) ∧
  ∀ k ∈ kindList, cnt s r c low (cls k) = 0 ↔ nPatterns r c low k * suitChoices s c k = 0

instance (s r c : Nat) (low : Bool) : Decidable (cntFacts s r c low) := inferInstanceAs (Decidable (_ ∧ _))

/-- the part of `cntFacts_table` for one number of suits and ranks -/
def cntRow (s r : Nat) : Prop := ∀ c < 6, ∀ low : Bool, ¬ (1 ≤ s ∧ 1 ≤ c ∧ c < r) ∨ cntFacts s r c low

instance (s r : Nat) : Decidable (cntRow s r) := inferInstanceAs (Decidable (∀ c < 6, ∀ _low : Bool, _ ∨ _))

theorem cntFacts_table : ∀ s < 5, ∀ r < 14, cntRow s r := by decide +kernel

theorem addMultiples_inv {D : HandClass → ClassInfo} {R : List HandClass} {c : HandClass}
    {r n : Int} {ms : List Nat} {d d' : Dict} (h : addMultiples D R r n c ms d = .ok d') :
    (D c).cumulative = 0 ∨ ∃ ks, multipleProducts r n ms = .ok ks ∧ (ks.length : Int) = (D c).unsuited := by
  unfold addMultiples at h
  split at h
  · next h0 => exact .inl h0
  · right
    cases hg : getRank D R c with
    | error e => rw [hg] at h; simp [bind, Except.bind] at h
    | ok b =>
      cases hm : multipleProducts r n ms with
      | error e => rw [hg, hm] at h; simp [bind, Except.bind] at h
      | ok ks =>
        rw [hg, hm] at h
        simp only [bind, Except.bind] at h
        split at h
        · simp at h
        · next h1 => exact ⟨ks, rfl, by omega⟩

theorem multiples_inv {D : HandClass → ClassInfo} {R : List HandClass} {r c : Int}
    {un un' : Dict} (h : multiples D R r c un = .ok un') :
    ∀ p ∈ [(HandClass.fourKind, [4]), (.fullHouse, [3, 2]), (.threeKind, [3]), (.twoPair, [2, 2]), (.pair, [2])],
      (D p.1).cumulative = 0 ∨ ∃ ks, multipleProducts r c p.2 = .ok ks ∧ (ks.length : Int) = (D p.1).unsuited := by
  unfold multiples at h
  cases h1 : addMultiples D R r c .fourKind [4] un with
  | error e => rw [h1] at h; simp [bind, Except.bind] at h
  | ok a1 =>
  rw [h1] at h
  simp only [bind, Except.bind] at h
  cases h2 : addMultiples D R r c .fullHouse [3, 2] a1 with
  | error e => rw [h2] at h; simp at h
  | ok a2 =>
  rw [h2] at h
  simp only [] at h
  cases h3 : addMultiples D R r c .threeKind [3] a2 with
  | error e => rw [h3] at h; simp at h
  | ok a3 =>
  rw [h3] at h
  simp only [] at h
  cases h4 : addMultiples D R r c .twoPair [2, 2] a3 with
  | error e => rw [h4] at h; simp at h
  | ok a4 =>
  rw [h4] at h
  simp only [] at h
  simp only [List.forall_mem_cons, List.not_mem_nil, false_implies, implies_true, and_true]
  exact ⟨addMultiples_inv h1, addMultiples_inv h2, addMultiples_inv h3, addMultiples_inv h4, addMultiples_inv h⟩

theorem before_eq_zero (cnt : HandClass → Int) (h0 : ∀ c, 0 ≤ cnt c) (cs : List HandClass) (k : HandClass) :
    before cnt cs k = 0 ↔ ∀ d, d ∈ cs → cs.idxOf d < cs.idxOf k → cnt d = 0 := by
  induction cs with
  | nil => simp [before]
  | cons e cs ih =>
    simp only [before]
    by_cases he : e = k
    · subst he; simp
    · rw [if_neg he]
      have hb := before_nonneg cnt h0 cs k
      have h1 := h0 e
      have hk : (e :: cs).idxOf k = cs.idxOf k + 1 := List.idxOf_cons_ne _ he
      constructor
      · intro h d hd hlt
        by_cases hde : e = d
        · subst hde; omega
        · rw [List.idxOf_cons_ne _ hde, hk] at hlt
          exact (ih.1 (by omega)) d (by simpa [Ne.symm hde, eq_comm, hde] using hd) (by omega)
      · intro h
        have h2 : cnt e = 0 := h e (by simp) (by rw [hk, List.idxOf_cons_self]; omega)
        have h3 := ih.2 (fun d hd hlt => by
          by_cases hde : e = d
          · subst hde; exact h2
          · exact h d (by simp [hd]) (by rw [List.idxOf_cons_ne _ hde, hk]; omega))
        omega

/-- A table with fewer cards than ranks can only be built if no empty class comes after a non-empty one. -/
theorem bef_of_built {s r c : Nat} {low : Bool} {order : Option (List String)} {t : Table} {classes : List HandClass}
    (X : Ctx s r c low order t classes) (hcr : c < r) (k : HandClass) (hk : cnt s r c low k = 0) :
    bef s r c low classes k = 0 := by
  obtain ⟨⟨hs1, hs4⟩, ⟨hr1, hr⟩, ⟨hc1, hc⟩, -, hst⟩ := id X.shape
  obtain ⟨g1, g2, g3, g4⟩ := (genNonempty_table r (by omega) c (by omega) low).resolve_left (fun h => h ⟨hc1, hcr⟩)
  obtain ⟨n1, n2, n3, -⟩ := (cntFacts_table s (by omega) r (by omega) c (by omega) low).resolve_left
    (fun h => h ⟨hs1, hc1, hcr⟩)
  have hD := X.built.dict
  have hcum : ∀ k, (t.handDict k).cumulative = bef s r c low classes k + cnt s r c low k := by
    intro k; rw [hD]; exact (X.spec.info k (X.all k)).2.2
  have huns : ∀ k, (t.handDict k).unsuited = cnt s r c low k := by
    intro k; rw [hD]; exact (X.spec.info k (X.all k)).2.1
  suffices h : (t.handDict k).cumulative = 0 by rw [hcum, hk] at h; omega
  obtain ⟨un, un', hm⟩ := X.built.multi
  have hmi := multiples_inv hm
  obtain ⟨su, ⟨d1, a1, d2, a2, -⟩, -⟩ := X.built.suited
  obtain ⟨d3, a3, d4, a4, -⟩ := X.built.unsuited
  have len : ∀ {k : HandClass} {bits : List Nat} {d d' : Dict},
      AddOK t.handDict t.rankedHands k (bits.map primeFromBits) d d' →
      (t.handDict k).cumulative = 0 ∨ (bits.length : Int) = cnt s r c low k := by
    intro k bits d d' h
    rcases h with ⟨h, -⟩ | ⟨-, h, -⟩
    · exact .inl h
    · right; rw [huns] at h; simpa using h
  have b1 := len a1
  have b2 := len a2
  have b3 := len a3
  -- the list of straights, if anything uses it
  have hsf : (t.handDict .straightFlush).cumulative ≠ 0 ∨ (t.handDict .straight).cumulative ≠ 0 →
      sfUsed t.handDict r c low = genStraightFlush c r low := by
    intro h; unfold sfUsed; rw [if_pos h]
  have mul : ∀ p ∈ [(HandClass.fourKind, [4]), (.fullHouse, [3, 2]), (.threeKind, [3]), (.twoPair, [2, 2]), (.pair, [2])],
      p.1 = k → p.2 ∈ [[4], [3, 2], [3], [2, 2], [2]] → (t.handDict k).cumulative = 0 := by
    rintro p hp rfl hp2
    rcases hmi p hp with h | ⟨ks, h1, h2⟩
    · exact h
    · exfalso
      rw [huns, hk] at h2
      have : ks = [] := List.length_eq_zero_iff.1 (by omega)
      subst this
      exact g4 _ hp2 h1
  have c2 : c ≤ 2 → (t.handDict .straightFlush).cumulative = 0 ∧ (t.handDict .straight).cumulative = 0 := by
    intro h2
    obtain ⟨m1, m2⟩ := n3 h2
    constructor
    · rcases b1 with h | h
      · exact h
      · by_contra hh
        rw [hsf (.inl hh), m2] at h; omega
    · rcases b3 with h | h
      · exact h
      · by_contra hh
        rw [hsf (.inr hh), m1] at h; omega
  cases k with
  | straightFlush =>
    rcases b1 with h | h
    · exact h
    · by_contra hh
      rw [hsf (.inl hh), hk] at h; omega
  | straight =>
    rcases b3 with h | h
    · exact h
    · by_contra hh
      rw [hsf (.inr hh), hk] at h; omega
  | flush =>
    rcases b2 with h | h
    · exact h
    · by_contra hh
      rw [hk] at h
      unfold flUsed at h
      rw [if_pos (.inl hh)] at h
      by_cases h2 : c ≤ 2
      · obtain ⟨z1, z2⟩ := c2 h2
        have : sfUsed t.handDict r c low = [] := by
          unfold sfUsed; rw [if_neg]; simp [z1, z2]
        rw [this] at h; omega
      · have h3 : 3 ≤ c := by omega
        unfold sfUsed at h
        split at h
        · exact g3 h3 (by omega)
        · omega
  | highCard => exact absurd hk n1
  | fourKind => exact mul (.fourKind, [4]) (by simp) rfl (by simp)
  | fullHouse => exact mul (.fullHouse, [3, 2]) (by simp) rfl (by simp)
  | threeKind => exact mul (.threeKind, [3]) (by simp) rfl (by simp)
  | twoPair => exact mul (.twoPair, [2, 2]) (by simp) rfl (by simp)
  | pair => exact mul (.pair, [2]) (by simp) rfl (by simp)

theorem idxOf_codeOf (l : List HandClass) (a : HandClass) : (l.map codeOf).idxOf (codeOf a) = l.idxOf a := by
  induction l with
  | nil => rfl
  | cons b l ih =>
    by_cases h : b = a
    · subst h; simp
    · have h' : codeOf b ≠ codeOf a := by
        intro e; apply h; cases a <;> cases b <;> first | rfl | (exact absurd e (by decide))
      rw [List.map_cons, List.idxOf_cons_ne _ h', List.idxOf_cons_ne _ h, ih]

end Clubs
