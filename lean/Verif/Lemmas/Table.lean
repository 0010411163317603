import Verif.Lemmas.TableKeys

/-! Helper lemmas: the dictionaries of a table that was built. -/

namespace Clubs

open Spec

/-! ## dictionaries -/

theorem storeAll_lookup_not_mem (ks : List Nat) (b : Int) (d : Dict) (K : Nat) (h : K ∉ ks) :
    (storeAll ks b d).lookup K = d.lookup K := by
  induction ks generalizing b d with
  | nil => rfl
  | cons k ks ih =>
    simp only [List.mem_cons, not_or] at h
    rw [storeAll, ih _ _ h.2, Dict.set, List.lookup_cons]
    have : (K == k) = false := beq_eq_false_iff_ne.2 h.1
    rw [this]

theorem storeAll_lookup (ks : List Nat) (b : Int) (d : Dict) (K i : Nat) (hn : ks.Nodup)
    (h : ks[i]? = some K) : (storeAll ks b d).lookup K = some (b + i) := by
  induction ks generalizing b d i with
  | nil => simp at h
  | cons k ks ih =>
    rw [List.nodup_cons] at hn
    cases i with
    | zero =>
      simp at h; subst h
      rw [storeAll, storeAll_lookup_not_mem _ _ _ _ hn.1, Dict.set, List.lookup_cons]
      simp
    | succ i =>
      simp at h
      rw [storeAll, ih (b + 1) _ i hn.2 h]
      congr 1
      push_cast; omega

/-- the effect of one call of `add_to_dict` that did not raise -/
def AddOK (D : HandClass → ClassInfo) (R : List HandClass) (c : HandClass) (ks : List Nat)
    (d d' : Dict) : Prop :=
  ((D c).cumulative = 0 ∧ d' = d) ∨
  ((D c).cumulative ≠ 0 ∧ (ks.length : Int) = (D c).unsuited ∧
    ∃ b, getRank D R c = .ok b ∧ d' = storeAll ks b d)

/-- a sequence of calls -/
def Chain (D : HandClass → ClassInfo) (R : List HandClass) :
    List (HandClass × List Nat) → Dict → Dict → Prop
  | [], d, d' => d' = d
  | (c, ks) :: rest, d, d' => ∃ d1, AddOK D R c ks d d1 ∧ Chain D R rest d1 d'

theorem Chain.lookup_not_mem {D : HandClass → ClassInfo} {R : List HandClass}
    {st : List (HandClass × List Nat)} {d d' : Dict} (h : Chain D R st d d') (K : Nat)
    (hK : ∀ p ∈ st, (D p.1).cumulative ≠ 0 → K ∉ p.2) : d'.lookup K = d.lookup K := by
  induction st generalizing d with
  | nil => rw [h]
  | cons p st ih =>
    obtain ⟨c, ks⟩ := p
    obtain ⟨d1, h1, h2⟩ := h
    rw [ih h2 (fun q hq => hK q (by simp [hq]))]
    rcases h1 with ⟨-, rfl⟩ | ⟨h3, -, b, -, rfl⟩
    · rfl
    · exact storeAll_lookup_not_mem _ _ _ _ (hK (c, ks) (by simp) h3)

theorem Chain.lookup {D : HandClass → ClassInfo} {R : List HandClass}
    {st : List (HandClass × List Nat)} {d d' : Dict} (h : Chain D R st d d') (c : HandClass)
    (ks : List Nat) (K i : Nat) (hm : (c, ks) ∈ st) (hcum : (D c).cumulative ≠ 0) (hn : ks.Nodup)
    (hi : ks[i]? = some K)
    (hK : ∀ p ∈ st, p.1 ≠ c → (D p.1).cumulative ≠ 0 → K ∉ p.2) (hst : (st.map (·.1)).Nodup) :
    ∃ b, getRank D R c = .ok b ∧ d'.lookup K = some (b + i) ∧ (ks.length : Int) = (D c).unsuited := by
  induction st generalizing d with
  | nil => simp at hm
  | cons p st ih =>
    obtain ⟨c1, ks1⟩ := p
    obtain ⟨d1, h1, h2⟩ := h
    simp only [List.map_cons, List.nodup_cons] at hst
    simp only [List.mem_cons] at hm
    rcases hm with hm | hm
    · simp only [Prod.mk.injEq] at hm
      obtain ⟨rfl, rfl⟩ := hm
      rcases h1 with ⟨h3, -⟩ | ⟨-, h4, b, h5, rfl⟩
      · exact absurd h3 hcum
      · refine ⟨b, h5, ?_, h4⟩
        rw [h2.lookup_not_mem K, storeAll_lookup _ _ _ _ _ hn hi]
        intro q hq hq2
        have hne : q.1 ≠ c := by
          intro e; apply hst.1; rw [← e]; exact List.mem_map_of_mem hq
        exact hK q (by simp [hq]) hne hq2
    · exact ih h2 hm (fun q hq => hK q (by simp [hq])) hst.2

theorem Chain.append {D : HandClass → ClassInfo} {R : List HandClass}
    {s1 s2 : List (HandClass × List Nat)} {d d1 d' : Dict} (h1 : Chain D R s1 d d1)
    (h2 : Chain D R s2 d1 d') : Chain D R (s1 ++ s2) d d' := by
  induction s1 generalizing d with
  | nil => rw [h1] at h2; exact h2
  | cons p s1 ih =>
    obtain ⟨c, ks⟩ := p
    obtain ⟨d2, h3, h4⟩ := h1
    exact ⟨d2, h3, ih h4⟩

theorem addFlushes_ok {D : HandClass → ClassInfo} {R : List HandClass} {c : HandClass}
    {bits : List Nat} {d d' : Dict} (h : addFlushes D R c bits d = .ok d') :
    AddOK D R c (bits.map primeFromBits) d d' := by
  unfold addFlushes at h
  split at h
  · next h0 => simp at h; exact .inl ⟨h0, h.symm⟩
  · next h0 =>
    split at h
    · simp at h
    · next h1 =>
      cases hg : getRank D R c with
      | error e => rw [hg] at h; simp at h
      | ok b =>
        rw [hg] at h
        simp at h
        exact .inr ⟨h0, by simp; omega, b, hg, h.symm⟩

/-- the products, or nothing if computing them raises -/
def multiKeys (r c : Int) (ms : List Nat) : List Nat :=
  match multipleProducts r c ms with
  | .ok l => l
  | .error _ => []

theorem addMultiples_ok {D : HandClass → ClassInfo} {R : List HandClass} {c : HandClass}
    {r n : Int} {ms : List Nat} {d d' : Dict} (h : addMultiples D R r n c ms d = .ok d') :
    AddOK D R c (multiKeys r n ms) d d' := by
  unfold addMultiples at h
  split at h
  · next h0 => simp at h; exact .inl ⟨h0, h.symm⟩
  · next h0 =>
    cases hg : getRank D R c with
    | error e => rw [hg] at h; simp [bind, Except.bind] at h
    | ok b =>
      cases hm : multipleProducts r n ms with
      | error e => rw [hg, hm] at h; simp [bind, Except.bind] at h
      | ok ks =>
        rw [hg, hm] at h
        simp only [bind, Except.bind] at h
        split at h
        · simp at h
        · next h1 =>
          have h : storeAll ks b d = d' := by simpa [pure, Except.pure] using h
          have e : multiKeys r n ms = ks := by simp [multiKeys, hm]
          rw [e]
          exact .inr ⟨h0, by omega, b, hg, h.symm⟩

/-- the straights that `_flushes` works with -/
def sfUsed (D : HandClass → ClassInfo) (r c : Int) (low : Bool) : List Nat :=
  if (D .straightFlush).cumulative ≠ 0 ∨ (D .straight).cumulative ≠ 0
  then genStraightFlush c r low else []

def flUsed (D : HandClass → ClassInfo) (r c : Int) (low : Bool) : List Nat :=
  if (D .flush).cumulative ≠ 0 ∨ (D .highCard).cumulative ≠ 0
  then genFlush c r (sfUsed D r c low) else []

def suitedStages (D : HandClass → ClassInfo) (r c : Int) (low : Bool) : List (HandClass × List Nat) :=
  [(.straightFlush, (sfUsed D r c low).map primeFromBits), (.flush, (flUsed D r c low).map primeFromBits)]

def unsuitedStages (D : HandClass → ClassInfo) (r c : Int) (low : Bool) : List (HandClass × List Nat) :=
  [(.straight, (sfUsed D r c low).map primeFromBits), (.highCard, (flUsed D r c low).map primeFromBits),
   (.fourKind, multiKeys r c [4]), (.fullHouse, multiKeys r c [3, 2]), (.threeKind, multiKeys r c [3]),
   (.twoPair, multiKeys r c [2, 2]), (.pair, multiKeys r c [2])]

theorem flushes_ok {D : HandClass → ClassInfo} {R : List HandClass} {r c : Int} {low : Bool}
    {su un : Dict} (h : flushes D R r c low = .ok (su, un)) :
    Chain D R (suitedStages D r c low) [] su ∧
    Chain D R [(.straight, (sfUsed D r c low).map primeFromBits),
      (.highCard, (flUsed D r c low).map primeFromBits)] [] un := by
  unfold flushes at h
  change (do
    let suited ← addFlushes D R .straightFlush (sfUsed D r c low) []
    let suited ← addFlushes D R .flush (flUsed D r c low) suited
    let unsuited ← addFlushes D R .straight (sfUsed D r c low) []
    let unsuited ← addFlushes D R .highCard (flUsed D r c low) unsuited
    return (suited, unsuited)) = Except.ok (su, un) at h
  cases h1 : addFlushes D R .straightFlush (sfUsed D r c low) [] with
  | error e => rw [h1] at h; simp [bind, Except.bind] at h
  | ok a1 =>
  rw [h1] at h
  simp only [bind, Except.bind] at h
  cases h2 : addFlushes D R .flush (flUsed D r c low) a1 with
  | error e => rw [h2] at h; simp at h
  | ok a2 =>
  rw [h2] at h
  simp only [] at h
  cases h3 : addFlushes D R .straight (sfUsed D r c low) [] with
  | error e => rw [h3] at h; simp at h
  | ok a3 =>
  rw [h3] at h
  simp only [] at h
  cases h4 : addFlushes D R .highCard (flUsed D r c low) a3 with
  | error e => rw [h4] at h; simp at h
  | ok a4 =>
  rw [h4] at h
  simp only [pure, Except.pure, Except.ok.injEq, Prod.mk.injEq] at h
  obtain ⟨rfl, rfl⟩ := h
  exact ⟨⟨a1, addFlushes_ok h1, a2, addFlushes_ok h2, rfl⟩, ⟨a3, addFlushes_ok h3, a4, addFlushes_ok h4, rfl⟩⟩

theorem multiples_ok {D : HandClass → ClassInfo} {R : List HandClass} {r c : Int}
    {un un' : Dict} (h : multiples D R r c un = .ok un') :
    Chain D R [(.fourKind, multiKeys r c [4]), (.fullHouse, multiKeys r c [3, 2]),
      (.threeKind, multiKeys r c [3]), (.twoPair, multiKeys r c [2, 2]), (.pair, multiKeys r c [2])]
      un un' := by
  unfold multiples at h
  cases h1 : addMultiples D R r c .fourKind [4] un with
  | error e => rw [h1] at h; simp [bind, Except.bind] at h
  | ok a1 =>
  rw [h1] at h
  simp only [bind, Except.bind] at h
  cases h2 : addMultiples D R r c .fullHouse [3, 2] a1 with
  | error e => rw [h2] at h; simp at h
  | ok a2 =>
  rw [h2] at h
  simp only [] at h
  cases h3 : addMultiples D R r c .threeKind [3] a2 with
  | error e => rw [h3] at h; simp at h
  | ok a3 =>
  rw [h3] at h
  simp only [] at h
  cases h4 : addMultiples D R r c .twoPair [2, 2] a3 with
  | error e => rw [h4] at h; simp at h
  | ok a4 =>
  rw [h4] at h
  simp only [] at h
  exact ⟨a1, addMultiples_ok h1, a2, addMultiples_ok h2, a3, addMultiples_ok h3, a4,
    addMultiples_ok h4, un', addMultiples_ok h, rfl⟩

/-- What a successful `Table.new` did. -/
structure Built (s r c : Int) (low : Bool) (order : Option (List String)) (t : Table)
    (classes : List HandClass) : Prop where
  ordered : orderedClasses (classCount s r c low) order = .ok classes
  complete : ∀ o, order = some o → ∀ x ∈ ORDER_STRINGS, x ∈ o
  dict : t.handDict = (rankLoop (classCount s r c low) classes).handDict
  ranked : t.rankedHands = (rankLoop (classCount s r c low) classes).rankedHands
  max : t.maxRank = (rankLoop (classCount s r c low) classes).cumulative
  suited : ∃ su, Chain t.handDict t.rankedHands (suitedStages t.handDict r c low) [] su ∧
    t.suitedLookup = if (t.handDict .flush).cumulative = 0 then t.unsuitedLookup else su
  unsuited : Chain t.handDict t.rankedHands (unsuitedStages t.handDict r c low) [] t.unsuitedLookup
  multi : ∃ un un', multiples t.handDict t.rankedHands r c un = .ok un'

theorem Table.new_ok {s r c : Int} {low : Bool} {order : Option (List String)} {t : Table}
    (h : Table.new s r c low order = .ok t) : ∃ classes, Built s r c low order t classes := by
  unfold Table.new at h
  have hcomp : ∀ o, order = some o → ∀ x ∈ ORDER_STRINGS, x ∈ o := by
    intro o ho x hx
    subst ho
    by_contra hc
    have : (ORDER_STRINGS.any fun s => !o.contains s) = true := by
      rw [List.any_eq_true]
      exact ⟨x, hx, by simp [hc]⟩
    simp only [this, if_true] at h
    simp [bind, Except.bind, throw, throwThe, MonadExceptOf.throw] at h
  have h' : (do
      let classes ← orderedClasses (classCount s r c low) order
      let st := rankLoop (classCount s r c low) classes
      let (suited, unsuited) ← flushes st.handDict st.rankedHands r c low
      let unsuited ← multiples st.handDict st.rankedHands r c unsuited
      let suited := if (st.handDict .flush).cumulative = 0 then unsuited else suited
      return { handDict := st.handDict, rankedHands := st.rankedHands, maxRank := st.cumulative,
               suitedLookup := suited, unsuitedLookup := unsuited : Table }) = Except.ok t := by
    cases order with
    | none => simpa [bind, Except.bind, pure, Except.pure] using h
    | some o =>
      have : (ORDER_STRINGS.any fun s => !o.contains s) = false := by
        rw [List.any_eq_false]
        intro x hx
        simp [hcomp o rfl x hx]
      simp only [this] at h
      simpa [bind, Except.bind, pure, Except.pure] using h
  clear h
  cases h1 : orderedClasses (classCount s r c low) order with
  | error e => rw [h1] at h'; simp [bind, Except.bind] at h'
  | ok classes =>
  rw [h1] at h'
  simp only [bind, Except.bind] at h'
  refine ⟨classes, ?_⟩
  generalize hst : rankLoop (classCount s r c low) classes = st at h'
  cases h2 : flushes st.handDict st.rankedHands r c low with
  | error e => rw [h2] at h'; simp at h'
  | ok p =>
  obtain ⟨su, un⟩ := p
  rw [h2] at h'
  simp only [] at h'
  cases h3 : multiples st.handDict st.rankedHands r c un with
  | error e => rw [h3] at h'; simp at h'
  | ok un' =>
  rw [h3] at h'
  simp only [pure, Except.pure, Except.ok.injEq] at h'
  subst h'
  have hf := flushes_ok h2
  exact {
    ordered := h1
    complete := hcomp
    dict := by rw [hst]
    ranked := by rw [hst]
    max := by rw [hst]
    suited := ⟨su, hf.1, rfl⟩
    unsuited := hf.2.append (multiples_ok h3)
    multi := ⟨un, un', h3⟩ }

end Clubs
