import Verif.Lemmas.Lookup3

/-! Helper lemmas: when a table can be built. -/

namespace Clubs

open Spec

/-- number of products recorded -/
def multiLen (r c : Nat) (ms : List Nat) : Nat :=
  match multipleProducts r c ms with
  | .ok l => l.length
  | .error _ => 0

def straightNum (r c : Nat) (low : Bool) : Int := r - (c - 1) + b2i low

/-- lengths of the generated lists -/
def lenFacts (r c : Nat) (low : Bool) : Prop :=
  (3 ≤ c → ((genStraightFlush c r low).length : Int) = straightNum r c low ∧
    ((genFlush c r (genStraightFlush c r low)).length : Int) = ncr r c - straightNum r c low) ∧
  (c ≤ 2 → ((genFlush c r []).length : Int) = ncr r c)

instance (r c : Nat) (low : Bool) : Decidable (lenFacts r c low) := inferInstanceAs (Decidable (_ ∧ _))

theorem len_table : ∀ r < 14, ∀ c < 6, ∀ low : Bool,
    ¬ (1 ≤ r ∧ 1 ≤ c ∧ c ≤ r + 1 ∧ StraightOK r c low) ∨ lenFacts r c low := by
  decide +kernel

def multiFacts (r c : Nat) : Prop :=
  (4 ≤ c → (multiLen r c [4] : Int) = ncr r 1 * ncr (r - 1) (c - 4)) ∧
  (5 ≤ c → (multiLen r c [3, 2] : Int) = ncr r 1 * ncr (r - 1) 1 * ncr (r - 2) (c - 5)) ∧
  (3 ≤ c → (multiLen r c [3] : Int) = ncr r 1 * ncr (r - 1) (c - 3)) ∧
  (4 ≤ c → (multiLen r c [2, 2] : Int) = ncr r 2 * ncr (r - 2) (c - 4)) ∧
  (2 ≤ c → (multiLen r c [2] : Int) = ncr r 1 * ncr (r - 1) (c - 2))

instance (r c : Nat) : Decidable (multiFacts r c) := inferInstanceAs (Decidable (_ ∧ _))

theorem multi_table : ∀ r < 14, ∀ c < 6, ¬ (1 ≤ r ∧ 1 ≤ c ∧ c ≤ r + 1) ∨ multiFacts r c := by
  decide +kernel


theorem addFlushes_run {D : HandClass → ClassInfo} {R : List HandClass} {c : HandClass} {bits : List Nat}
    (d : Dict) (h : (D c).cumulative = 0 ∨ ((bits.length : Int) = (D c).unsuited ∧ ∃ b, getRank D R c = .ok b)) :
    ∃ d', addFlushes D R c bits d = .ok d' := by
  unfold addFlushes
  rcases h with h | ⟨h, b, hb⟩
  · exact ⟨d, by rw [if_pos h]⟩
  · split
    · exact ⟨d, rfl⟩
    · rw [if_neg (by omega), hb]; exact ⟨_, rfl⟩

theorem addMultiples_run {D : HandClass → ClassInfo} {R : List HandClass} {c : HandClass} {r n : Nat}
    {ms : List Nat} (d : Dict) (hr : r ≤ 13) (h : (D c).cumulative = 0 ∨
      (ms.sum ≤ n ∧ (multiLen r n ms : Int) = (D c).unsuited ∧ ∃ b, getRank D R c = .ok b)) :
    ∃ d', addMultiples D R r n c ms d = .ok d' := by
  unfold addMultiples
  rcases h with h | ⟨hm, hl, b, hb⟩
  · exact ⟨d, by rw [if_pos h]⟩
  · split
    · exact ⟨d, rfl⟩
    · have e := multipleProducts_eq r n hr ms hm
      unfold multiLen at hl
      rw [e] at hl
      simp only at hl
      rw [hb, e]
      simp only [bind, Except.bind]
      rw [if_neg (by omega)]
      exact ⟨_, rfl⟩

section
variable {s r c : Nat} {low : Bool} {classes : List HandClass}

theorem Shape.lens (h : Shape s r c low) : lenFacts r c low ∧ multiFacts r c :=
  ⟨(len_table r (by have := h.2.1; omega) c (by have := h.2.2.1; omega) low).resolve_left
      (fun hn => hn ⟨h.2.1.1, h.2.2.1.1, h.2.2.2.1, h.2.2.2.2⟩),
   (multi_table r (by have := h.2.1; omega) c (by have := h.2.2.1; omega)).resolve_left
      (fun hn => hn ⟨h.2.1.1, h.2.2.1.1, h.2.2.2.1⟩)⟩

/-- If no empty class comes after a non-empty one, all the assertions hold. -/
theorem table_runs (hS : Shape s r c low) (hn : classes.Nodup) (ha : ∀ k, k ∈ classes)
    (hz : ∀ k, bef s r c low classes k + cnt s r c low k = 0 ∨ 1 ≤ cnt s r c low k) :
    ∃ su un un', flushes (rankLoop (classCount s r c low) classes).handDict
        (rankLoop (classCount s r c low) classes).rankedHands r c low = .ok (su, un) ∧
      multiples (rankLoop (classCount s r c low) classes).handDict
        (rankLoop (classCount s r c low) classes).rankedHands r c un = .ok un' := by
  have h0 : ∀ k, 0 ≤ (classCount s r c low k).2 := fun k => hS.facts.1 k (mem_classList k)
  have sp := rankLoop_spec (classCount s r c low) h0 classes hn
  generalize rankLoop (classCount s r c low) classes = st at *
  have hcum : ∀ k, (st.handDict k).cumulative = bef s r c low classes k + cnt s r c low k :=
    fun k => (sp.info k (ha k)).2.2
  have huns : ∀ k, (st.handDict k).unsuited = cnt s r c low k := fun k => (sp.info k (ha k)).2.1
  have hbef : ∀ k, 0 ≤ bef s r c low classes k := fun k => before_nonneg _ h0 classes k
  have hcase : ∀ k, (st.handDict k).cumulative = 0 ∨
      (1 ≤ cnt s r c low k ∧ ∃ b, getRank st.handDict st.rankedHands k = .ok b) := by
    intro k
    rcases hz k with h | h
    · left; rw [hcum]; exact h
    · right
      refine ⟨h, _, sp.get k (ha k) ?_⟩
      have := hbef k
      unfold bef cnt at *
      omega
  obtain ⟨⟨l1, l2⟩, m4, m32, m3, m22, m2⟩ := hS.lens
  obtain ⟨⟨hs1, hs4⟩, ⟨hr1, hr⟩, ⟨hc1, hc⟩, hcr, hst⟩ := id hS
  -- the straights
  have c3 : ∀ k : HandClass, k = .straightFlush ∨ k = .straight ∨ k = .flush → 1 ≤ cnt s r c low k → 3 ≤ c := by
    intro k hk h1
    by_contra h3
    obtain ⟨f1, f2, f3⟩ := hS.facts.2.2.2.2.1 (by omega)
    rcases hk with rfl | rfl | rfl <;> unfold cnt at h1 <;> omega
  have s2 : ∀ k : HandClass, k = .straightFlush ∨ k = .flush → 1 ≤ cnt s r c low k → 2 ≤ s := by
    intro k hk h1
    by_contra h3
    obtain ⟨f1, f2⟩ := hS.facts.2.2.2.1 (by omega)
    rcases hk with rfl | rfl <;> unfold cnt at h1 <;> omega
  have nst : 3 ≤ c → cnt s r c low .straight = straightNum r c low := by
    intro h3
    have h3' : ¬ ((c : Int) < 3) := by omega
    simp only [cnt, classCount, nStraight, straightNum, h3', if_false]
  have nsf : 3 ≤ c → 2 ≤ s → cnt s r c low .straightFlush = straightNum r c low := by
    intro h3 h2
    have h3' : ¬ ((c : Int) < 3 ∨ (s : Int) < 2) := by omega
    simp only [cnt, classCount, nStraightFlush, straightNum, h3', if_false]
  have nfl : 3 ≤ c → 2 ≤ s → cnt s r c low .flush = ncr r c - straightNum r c low := by
    intro h3 h2
    have h3' : ¬ ((c : Int) < 3 ∨ (s : Int) < 2) := by omega
    simp only [cnt, classCount, nFlush, straightNum, h3', if_false]
  have nhc : cnt s r c low .highCard = ncr r c - (if 3 ≤ c then straightNum r c low else 0) := by
    by_cases h3 : 3 ≤ c
    · have h3' : (c : Int) > 2 := by omega
      simp only [cnt, classCount, nHighCard, straightNum, h3', if_true, if_pos h3]
    · have h3' : ¬ (c : Int) > 2 := by omega
      simp only [cnt, classCount, nHighCard, h3', if_false, if_neg h3]
  -- the two lists used
  have hsfu : (3 ≤ c → sfUsed st.handDict r c low = genStraightFlush c r low) ∧
      (c ≤ 2 → sfUsed st.handDict r c low = []) := by
    constructor
    · intro h3
      unfold sfUsed
      split
      · rfl
      · next h =>
        have h1 : (st.handDict .straight).cumulative = 0 := by
          by_contra hh; exact h (.inr hh)
        rw [hcum] at h1
        have h2 := hbef .straight
        have h4 := h0 .straight
        have h5 : cnt s r c low .straight = 0 := by unfold cnt at *; omega
        rw [nst h3] at h5
        have := (l1 h3).1
        rw [h5] at this
        have : (genStraightFlush c r low).length = 0 := by omega
        exact (List.length_eq_zero_iff.1 this).symm
    · intro h2
      unfold sfUsed
      rw [if_neg]
      obtain ⟨f1, f2, f3⟩ := hS.facts.2.2.2.2.1 h2
      rintro (h | h)
      · rcases hcase .straightFlush with h' | ⟨h', -⟩
        · exact h h'
        · unfold cnt at h'; omega
      · rcases hcase .straight with h' | ⟨h', -⟩
        · exact h h'
        · unfold cnt at h'; omega
  have hflu : ((st.handDict .flush).cumulative ≠ 0 ∨ (st.handDict .highCard).cumulative ≠ 0) →
      ((flUsed st.handDict r c low).length : Int) = ncr r c - (if 3 ≤ c then straightNum r c low else 0) := by
    intro h
    unfold flUsed
    rw [if_pos h]
    by_cases h3 : 3 ≤ c
    · rw [hsfu.1 h3, if_pos h3]; exact (l1 h3).2
    · rw [hsfu.2 (by omega), if_neg h3, l2 (by omega)]; omega
  have r1 : ∀ d, ∃ d', addFlushes st.handDict st.rankedHands .straightFlush (sfUsed st.handDict r c low) d = .ok d' := by
    intro d
    apply addFlushes_run
    rcases hcase .straightFlush with h | ⟨h, hb⟩
    · exact .inl h
    · have h3 := c3 _ (by simp) h
      have h2 := s2 _ (by simp) h
      refine .inr ⟨?_, hb⟩
      rw [hsfu.1 h3, huns, nsf h3 h2]; exact (l1 h3).1
  have r2 : ∀ d, ∃ d', addFlushes st.handDict st.rankedHands .straight (sfUsed st.handDict r c low) d = .ok d' := by
    intro d
    apply addFlushes_run
    rcases hcase .straight with h | ⟨h, hb⟩
    · exact .inl h
    · have h3 := c3 _ (by simp) h
      refine .inr ⟨?_, hb⟩
      rw [hsfu.1 h3, huns, nst h3]; exact (l1 h3).1
  have r3 : ∀ d, ∃ d', addFlushes st.handDict st.rankedHands .flush (flUsed st.handDict r c low) d = .ok d' := by
    intro d
    apply addFlushes_run
    by_cases hz' : (st.handDict .flush).cumulative = 0
    · exact .inl hz'
    · rcases hcase .flush with h | ⟨h, hb⟩
      · exact .inl h
      · have h3 := c3 _ (by simp) h
        have h2 := s2 _ (by simp) h
        refine .inr ⟨?_, hb⟩
        rw [hflu (.inl hz'), huns, nfl h3 h2, if_pos h3]
  have r4 : ∀ d, ∃ d', addFlushes st.handDict st.rankedHands .highCard (flUsed st.handDict r c low) d = .ok d' := by
    intro d
    apply addFlushes_run
    by_cases hz' : (st.handDict .highCard).cumulative = 0
    · exact .inl hz'
    · rcases hcase .highCard with h | ⟨h, hb⟩
      · exact .inl h
      · refine .inr ⟨?_, hb⟩
        rw [hflu (.inr hz'), huns, nhc]
  have mm : ∀ (k : HandClass) (ms : List Nat), (1 ≤ cnt s r c low k → ms.sum ≤ c ∧ (multiLen r c ms : Int) = cnt s r c low k) →
      ∀ d, ∃ d', addMultiples st.handDict st.rankedHands r c k ms d = .ok d' := by
    intro k ms h d
    apply addMultiples_run d hr
    rcases hcase k with h1 | ⟨h1, hb⟩
    · exact .inl h1
    · obtain ⟨h2, h3⟩ := h h1
      exact .inr ⟨h2, by rw [huns, h3], hb⟩
  have q1 := mm .fourKind [4] (by
    intro h
    by_cases hh : (c : Int) < 4 ∨ (s : Int) < 4
    · simp only [cnt, classCount, nFourKind, hh, if_true] at h; omega
    · have h4 : 4 ≤ c := by omega
      refine ⟨by simpa using h4, ?_⟩
      rw [m4 h4]; simp only [cnt, classCount, nFourKind, hh, if_false])
  have q2 := mm .fullHouse [3, 2] (by
    intro h
    by_cases hh : (c : Int) < 5 ∨ (s : Int) < 3
    · simp only [cnt, classCount, nFullHouse, hh, if_true] at h; omega
    · have h4 : 5 ≤ c := by omega
      refine ⟨by simpa using h4, ?_⟩
      rw [m32 h4]; simp only [cnt, classCount, nFullHouse, hh, if_false])
  have q3 := mm .threeKind [3] (by
    intro h
    by_cases hh : (c : Int) < 3 ∨ (s : Int) < 3
    · simp only [cnt, classCount, nThreeKind, hh, if_true] at h; omega
    · have h4 : 3 ≤ c := by omega
      refine ⟨by simpa using h4, ?_⟩
      rw [m3 h4]; simp only [cnt, classCount, nThreeKind, hh, if_false])
  have q4 := mm .twoPair [2, 2] (by
    intro h
    by_cases hh : (c : Int) < 4 ∨ (s : Int) < 2
    · simp only [cnt, classCount, nTwoPair, hh, if_true] at h; omega
    · have h4 : 4 ≤ c := by omega
      refine ⟨by simpa using h4, ?_⟩
      rw [m22 h4]; simp only [cnt, classCount, nTwoPair, hh, if_false])
  have q5 := mm .pair [2] (by
    intro h
    by_cases hh : (c : Int) < 2 ∨ (s : Int) < 2
    · simp only [cnt, classCount, nPair, hh, if_true] at h; omega
    · have h4 : 2 ≤ c := by omega
      refine ⟨by simpa using h4, ?_⟩
      rw [m2 h4]; simp only [cnt, classCount, nPair, hh, if_false])
  obtain ⟨a1, e1⟩ := r1 []
  obtain ⟨a2, e2⟩ := r3 a1
  obtain ⟨a3, e3⟩ := r2 []
  obtain ⟨a4, e4⟩ := r4 a3
  obtain ⟨b1, g1⟩ := q1 a4
  obtain ⟨b2, g2⟩ := q2 b1
  obtain ⟨b3, g3⟩ := q3 b2
  obtain ⟨b4, g4⟩ := q4 b3
  obtain ⟨b5, g5⟩ := q5 b4
  refine ⟨a2, a4, b5, ?_, ?_⟩
  · unfold flushes
    change (do
      let suited ← addFlushes st.handDict st.rankedHands .straightFlush (sfUsed st.handDict r c low) []
      let suited ← addFlushes st.handDict st.rankedHands .flush (flUsed st.handDict r c low) suited
      let unsuited ← addFlushes st.handDict st.rankedHands .straight (sfUsed st.handDict r c low) []
      let unsuited ← addFlushes st.handDict st.rankedHands .highCard (flUsed st.handDict r c low) unsuited
      return (suited, unsuited)) = Except.ok (a2, a4)
    simp only [e1, e2, e3, e4, bind, Except.bind, pure, Except.pure]
  · unfold multiples
    simp only [g1, g2, g3, g4, g5, bind, Except.bind]

end

/-! ## the list of classes -/

theorem insertHand_perm (x : Int × HandClass) (l : List (Int × HandClass)) : (insertHand x l).Perm (x :: l) := by
  induction l with
  | nil => exact .refl _
  | cons y l ih =>
    rw [insertHand]
    split
    · exact .refl _
    · exact ((ih.cons y).trans (.swap x y l))

theorem sortHands_perm (l : List (Int × HandClass)) : (sortHands l).Perm l := by
  induction l with
  | nil => exact .refl _
  | cons x l ih =>
    unfold sortHands at *
    rw [List.foldr_cons]
    exact (insertHand_perm _ _).trans (ih.cons x)

/-- the order of `sorted` on `(count, name)` -/
def handLe (a b : Int × HandClass) : Prop := a.1 < b.1 ∨ (a.1 = b.1 ∧ a.2.nameOrd ≤ b.2.nameOrd)

instance (a b : Int × HandClass) : Decidable (handLe a b) := inferInstanceAs (Decidable (_ ∨ _))

theorem insertHand_sorted (x : Int × HandClass) (l : List (Int × HandClass)) (h : l.Pairwise handLe) :
    (insertHand x l).Pairwise handLe := by
  induction l with
  | nil => simp [insertHand]
  | cons y l ih =>
    rw [insertHand]
    rw [List.pairwise_cons] at h
    split
    · next hc =>
      rw [List.pairwise_cons, List.pairwise_cons]
      refine ⟨?_, h⟩
      intro z hz
      rcases List.mem_cons.1 hz with rfl | hz
      · exact hc
      · have := h.1 z hz
        unfold handLe at *
        omega
    · next hc =>
      rw [List.pairwise_cons]
      refine ⟨?_, ih h.2⟩
      intro z hz
      rcases List.mem_cons.1 ((insertHand_perm x l).mem_iff.1 hz) with rfl | hz
      · unfold handLe
        omega
      · exact h.1 z hz

theorem sortHands_sorted (l : List (Int × HandClass)) : (sortHands l).Pairwise handLe := by
  induction l with
  | nil => simp [sortHands]
  | cons x l ih =>
    unfold sortHands at *
    rw [List.foldr_cons]
    exact insertHand_sorted _ _ ih

theorem classes_none {count : HandClass → Int × Int} {classes : List HandClass}
    (h : orderedClasses count none = .ok classes) :
    classes.Nodup ∧ (∀ k, k ∈ classes) ∧
    classes.Pairwise (fun a b => handLe ((count a).1, a) ((count b).1, b)) := by
  simp only [orderedClasses, Except.ok.injEq] at h
  have hp := sortHands_perm (CLASS_LIST.map fun c => ((count c).1, c))
  have hp2 : classes.Perm CLASS_LIST := by
    rw [← h]
    have := hp.map (·.2)
    rw [List.map_map] at this
    simpa [Function.comp_def] using this
  refine ⟨hp2.nodup_iff.2 (by decide), fun k => hp2.mem_iff.2 (mem_classList k), ?_⟩
  rw [← h, List.pairwise_map]
  refine (sortHands_sorted _).imp_of_mem ?_
  intro a b ha hb hab
  have e : ∀ x ∈ sortHands (CLASS_LIST.map fun c => ((count c).1, c)), x.1 = (count x.2).1 := by
    intro x hx
    obtain ⟨y, -, rfl⟩ := List.mem_map.1 (hp.mem_iff.1 hx)
    rfl
  rw [← e a ha, ← e b hb]
  exact hab

theorem mapM_orderIndex {o : List String} {idcs : List Nat} (h : o.mapM orderIndex = .ok idcs) :
    List.Forall₂ (fun s i => orderIndex s = .ok i) o idcs := by
  induction o generalizing idcs with
  | nil => simp [List.mapM_nil, pure, Except.pure] at h; subst h; exact .nil
  | cons x o ih =>
    rw [List.mapM_cons] at h
    cases hx : orderIndex x with
    | error e => rw [hx] at h; simp [bind, Except.bind] at h
    | ok i =>
      rw [hx] at h
      cases ho : o.mapM orderIndex with
      | error e => rw [ho] at h; simp [bind, Except.bind] at h
      | ok is =>
        rw [ho] at h
        simp only [bind, Except.bind, pure, Except.pure, Except.ok.injEq] at h
        subst h
        exact .cons hx (ih ho)

/-- the code string of a class -/
def codeOf : HandClass → String
  | .straightFlush => "sf" | .fourKind => "fk" | .fullHouse => "fh" | .flush => "fl" | .straight => "st"
  | .threeKind => "tk" | .twoPair => "tp" | .pair => "pa" | .highCard => "hc"

theorem orderIndex_some {x : String} {i : Nat} (h : orderIndex x = .ok i) :
    codeOf (CLASS_LIST.getD i .highCard) = x ∧ x ∈ ORDER_STRINGS := by
  unfold orderIndex at h
  cases hf : ORDER_STRINGS.findIdx? (· == x) with
  | none => rw [hf] at h; simp at h
  | some j =>
    rw [hf] at h
    simp only [Except.ok.injEq] at h
    subst h
    rw [List.findIdx?_eq_some_iff_getElem] at hf
    obtain ⟨hlt, hx, -⟩ := hf
    have e : ORDER_STRINGS[j] = x := by simpa using hx
    have hj : j < 9 := hlt
    have : ∀ j (hj : j < 9), codeOf (CLASS_LIST.getD j .highCard) = ORDER_STRINGS[j]'hj := by decide
    exact ⟨(this j hj).trans e, e ▸ List.getElem_mem _⟩

theorem codeOf_inj {a b : HandClass} (h : codeOf a = codeOf b) : a = b := by
  revert h; cases a <;> cases b <;> decide

theorem classes_some {count : HandClass → Int × Int} {o : List String} {classes : List HandClass}
    (h : orderedClasses count (some o) = .ok classes) : classes.map codeOf = o := by
  simp only [orderedClasses] at h
  cases hm : o.mapM orderIndex with
  | error e => rw [hm] at h; simp at h
  | ok idcs =>
    rw [hm] at h
    simp only [Except.ok.injEq] at h
    subst h
    have := mapM_orderIndex hm
    clear hm
    induction this with
    | nil => rfl
    | cons h1 _ ih => simp only [List.map_cons, (orderIndex_some h1).1, List.cons.injEq, true_and]; exact ih

theorem orderedClasses_perm {count : HandClass → Int × Int} {o : List String} (h : o.Perm ORDER_STRINGS) :
    ∃ classes, orderedClasses count (some o) = .ok classes := by
  have : ∀ o' : List String, (∀ x ∈ o', x ∈ ORDER_STRINGS) → ∃ idcs, o'.mapM orderIndex = .ok idcs := by
    intro o' ho
    induction o' with
    | nil => exact ⟨[], rfl⟩
    | cons x o' ih =>
      obtain ⟨is, his⟩ := ih (fun y hy => ho y (by simp [hy]))
      have hx : ∃ i, orderIndex x = .ok i := by
        have hm := ho x (by simp)
        revert hm
        have : ∀ x ∈ ORDER_STRINGS, ∃ i < 9, orderIndex x = .ok i := by decide
        intro hm
        obtain ⟨i, -, hi⟩ := this x hm
        exact ⟨i, hi⟩
      obtain ⟨i, hi⟩ := hx
      exact ⟨i :: is, by rw [List.mapM_cons, hi, his]; rfl⟩
  obtain ⟨idcs, hi⟩ := this o (fun x hx => h.mem_iff.1 hx)
  exact ⟨_, by simp only [orderedClasses, hi]; rfl⟩

theorem classes_perm {count : HandClass → Int × Int} {o : List String} {classes : List HandClass}
    (h : orderedClasses count (some o) = .ok classes) (hn : o.Nodup) (hc : ∀ x ∈ ORDER_STRINGS, x ∈ o) :
    classes.Nodup ∧ ∀ k, k ∈ classes := by
  have e := classes_some h
  constructor
  · rw [← e] at hn
    exact List.Nodup.of_map _ hn
  · intro k
    have : codeOf k ∈ o := hc _ (by cases k <;> decide)
    rw [← e] at this
    obtain ⟨k', hk', hkk⟩ := List.mem_map.1 this
    rwa [codeOf_inj hkk] at hk'

/-! ## without an order -/

/-- the non-empty classes come last -/
theorem none_sorted_table : ∀ s < 5, ∀ r < 14, ∀ c < 6, ∀ low : Bool, ¬ Shape s r c low ∨
    (∀ k ∈ CLASS_LIST, ((classCount s r c low k).1 = 0 ↔ (classCount s r c low k).2 = 0) ∧ 0 ≤ (classCount s r c low k).1) ∧
    (∃ k ∈ CLASS_LIST, (classCount s r c low k).1 ≠ 0) := by
  decide +kernel

theorem before_zero_of {cnt : HandClass → Int} {cs : List HandClass} {k : HandClass}
    (h : ∀ d ∈ cs, cs.idxOf d < cs.idxOf k → cnt d = 0) (hn : cs.Nodup) : before cnt cs k = 0 := by
  induction cs with
  | nil => rfl
  | cons e cs ih =>
    rw [before]
    split
    · rfl
    · next hne =>
      rw [List.nodup_cons] at hn
      have e1 : cnt e = 0 := by
        apply h e (by simp)
        rw [List.idxOf_cons, List.idxOf_cons]
        have : (e == k) = false := beq_eq_false_iff_ne.2 hne
        simp [this]
      rw [e1, ih _ hn.2]
      · rfl
      · intro d hd hlt
        apply h d (by simp [hd])
        rw [List.idxOf_cons, List.idxOf_cons]
        have h1 : (e == k) = false := beq_eq_false_iff_ne.2 hne
        have h2 : (e == d) = false := beq_eq_false_iff_ne.2 (fun e' => hn.1 (e' ▸ hd))
        simp [h1, h2, hlt]

theorem Pairwise.idxOf {R : HandClass → HandClass → Prop} {cs : List HandClass} (h : cs.Pairwise R)
    {a b : HandClass} (hb : b ∈ cs) (hlt : cs.idxOf a < cs.idxOf b) : R a b := by
  rw [List.pairwise_iff_getElem] at h
  have hbl := List.idxOf_lt_length_iff.2 hb
  have := h (cs.idxOf a) (cs.idxOf b) (by omega) hbl hlt
  simpa using this

theorem none_zero {s r c : Nat} {low : Bool} {classes : List HandClass} (hS : Shape s r c low)
    (h : orderedClasses (classCount s r c low) none = .ok classes) (k : HandClass)
    (hk : cnt s r c low k = 0) : bef s r c low classes k = 0 := by
  obtain ⟨hn, ha, hsort⟩ := classes_none h
  have ht := ((none_sorted_table s (by have := hS.1; omega) r (by have := hS.2.1; omega) c
    (by have := hS.2.2.1; omega) low).resolve_left (fun hh => hh hS)).1
  apply before_zero_of _ hn
  intro d hd hlt
  have := Pairwise.idxOf hsort (ha k) hlt
  have h1 := ht k (mem_classList k)
  have h2 := ht d (mem_classList d)
  have h3 := h1.1.2 hk
  unfold handLe at this
  simp only [h3] at this
  exact h2.1.1 (by omega)

end Clubs
