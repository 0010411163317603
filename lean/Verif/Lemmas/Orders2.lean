import Verif.Lemmas.Orders

/-! Helper lemmas: which permutations of the classes a table can be built for when a hand has as many cards as there are ranks. -/

namespace Clubs

open Spec

/-- how many keys the products give, if they can be computed -/
def keyNum (r c : Nat) (ms : List Nat) : Option Nat :=
  match multipleProducts r c ms with
  | .ok l => some l.length
  | .error _ => none

/-- how many keys the code generates for a class; `u` says whether the straights are generated -/
def keys (r c : Nat) (low u : Bool) : HandClass → Option Nat
  | .straightFlush | .straight => some (genStraightFlush c r low).length
  | .flush | .highCard => some (genFlush c r (if u then genStraightFlush c r low else [])).length
  | .fourKind => keyNum r c [4]
  | .fullHouse => keyNum r c [3, 2]
  | .threeKind => keyNum r c [3]
  | .twoPair => keyNum r c [2, 2]
  | .pair => keyNum r c [2]

/-- the running total of the ranking loop, whatever the counts -/
theorem rankLoop_total (count : HandClass → Int × Int) (cs : List HandClass) (hn : cs.Nodup) :
    (rankLoop count cs).cumulative = (cs.map fun c => (count c).2).sum ∧
    (∀ c, ((rankLoop count cs).handDict c).unsuited = (count c).2) ∧
    ∀ c ∈ cs, ((rankLoop count cs).handDict c).cumulative = before (fun c => (count c).2) cs c + (count c).2 := by
  induction cs using List.reverseRecOn with
  | nil => simp [rankLoop]
  | append_singleton cs c ih =>
    have hnd := hn
    rw [List.nodup_append] at hnd
    have hc : c ∉ cs := fun h => hnd.2.2 c h c (by simp) rfl
    obtain ⟨i1, i2, i3⟩ := ih hnd.1
    have estep : rankLoop count (cs ++ [c]) = rankStep (rankLoop count cs) c := by
      simp [rankLoop]
    rw [estep]
    generalize rankLoop count cs = st at i1 i2 i3
    have e1 : (rankStep st c).cumulative = st.cumulative + (count c).2 := by
      unfold rankStep
      simp only [i2]
      split <;> rfl
    have e2 : ∀ d, ((rankStep st c).handDict d).unsuited = (count d).2 := by
      intro d
      unfold rankStep
      simp only []
      split
      · simp only []
        split
        · next h => subst h; exact i2 _
        · exact i2 _
      · simp only []
        split
        · next h => subst h; exact i2 _
        · exact i2 _
    have e3 : ∀ d, ((rankStep st c).handDict d).cumulative = if d = c then st.cumulative + (count c).2 else (st.handDict d).cumulative := by
      intro d
      unfold rankStep
      simp only [i2]
      split <;> simp only [] <;> split <;> rfl
    refine ⟨by rw [e1, i1]; simp, e2, ?_⟩
    intro d hd
    rw [e3]
    by_cases h : d = c
    · subst h
      rw [if_pos rfl, before_append_self _ _ _ hc, i1]
    · rw [if_neg h]
      have hd' : d ∈ cs := by simpa [h] using hd
      rw [before_append_of_mem _ _ _ _ hd', i3 d hd']

section
variable {s r c : Nat} {low : Bool} {classes : List HandClass} {order : Option (List String)}

/-- the number of patterns up to and including a class -/
def upTo (s r c : Nat) (low : Bool) (classes : List HandClass) (k : HandClass) : Int := bef s r c low classes k + cnt s r c low k

/-- whether the straights are generated -/
def useStraights (s r c : Nat) (low : Bool) (classes : List HandClass) : Bool :=
  decide (upTo s r c low classes .straightFlush ≠ 0 ∨ upTo s r c low classes .straight ≠ 0)

theorem keyNum_some {ms : List Nat} {n : Nat} : keyNum r c ms = some n ↔ ∃ l, multipleProducts r c ms = .ok l ∧ l.length = n := by
  unfold keyNum
  cases multipleProducts r c ms with
  | ok l => simp
  | error e => simp

theorem fits_of_built {t : Table} (B : Built s r c low order t classes) (hn : classes.Nodup) (ha : ∀ k, k ∈ classes)
    (k : HandClass) :
    upTo s r c low classes k = 0 ∨ ∃ n, keys r c low (useStraights s r c low classes) k = some n ∧ (n : Int) = cnt s r c low k := by
  have hD := B.dict
  obtain ⟨-, i2, i3⟩ := rankLoop_total (classCount s r c low) classes hn
  have hcum : ∀ k, (t.handDict k).cumulative = upTo s r c low classes k := by
    intro k; rw [hD]; exact i3 k (ha k)
  have huns : ∀ k, (t.handDict k).unsuited = cnt s r c low k := by
    intro k; rw [hD]; exact i2 k
  obtain ⟨un, un', hm⟩ := B.multi
  have hmi := multiples_inv hm
  obtain ⟨su, ⟨d1, a1, d2, a2, -⟩, -⟩ := B.suited
  obtain ⟨d3, a3, d4, a4, -⟩ := B.unsuited
  have len : ∀ {k : HandClass} {bits : List Nat} {d d' : Dict},
      AddOK t.handDict t.rankedHands k (bits.map primeFromBits) d d' →
      (t.handDict k).cumulative = 0 ∨ (bits.length : Int) = cnt s r c low k := by
    intro k bits d d' h
    rcases h with ⟨h, -⟩ | ⟨-, h, -⟩
    · exact .inl h
    · right; rw [huns] at h; simpa using h
  have hsf : sfUsed t.handDict r c low = if useStraights s r c low classes then genStraightFlush c r low else [] := by
    unfold sfUsed useStraights
    rw [hcum, hcum]
    simp only [decide_eq_true_eq]
  have mul : ∀ p ∈ [(HandClass.fourKind, [4]), (.fullHouse, [3, 2]), (.threeKind, [3]), (.twoPair, [2, 2]), (.pair, [2])],
      upTo s r c low classes p.1 = 0 ∨ ∃ n, keyNum r c p.2 = some n ∧ (n : Int) = cnt s r c low p.1 := by
    intro p hp
    rw [← hcum, ← huns]
    rcases hmi p hp with h | ⟨ks, h1, h2⟩
    · exact .inl h
    · exact .inr ⟨_, keyNum_some.2 ⟨ks, h1, rfl⟩, h2⟩
  have str : ∀ k, k = .straightFlush ∨ k = .straight → ((t.handDict k).cumulative = 0 ∨ ((sfUsed t.handDict r c low).length : Int) = cnt s r c low k) →
      upTo s r c low classes k = 0 ∨ ∃ n, some (genStraightFlush c r low).length = some n ∧ (n : Int) = cnt s r c low k := by
    intro k hk h
    rw [hcum] at h
    by_cases h0 : upTo s r c low classes k = 0
    · exact .inl h0
    · right
      rcases h with h | h
      · exact absurd h h0
      · refine ⟨_, rfl, ?_⟩
        have hu : useStraights s r c low classes = true := by
          unfold useStraights
          rw [decide_eq_true_eq]
          rcases hk with rfl | rfl
          · exact .inl h0
          · exact .inr h0
        rw [hsf, if_pos hu] at h
        exact h
  have flu : ∀ k, k = .flush ∨ k = .highCard → ((t.handDict k).cumulative = 0 ∨ ((flUsed t.handDict r c low).length : Int) = cnt s r c low k) →
      upTo s r c low classes k = 0 ∨ ∃ n, some (genFlush c r (if useStraights s r c low classes then genStraightFlush c r low else [])).length = some n ∧
        (n : Int) = cnt s r c low k := by
    intro k hk h
    by_cases h0 : (t.handDict k).cumulative = 0
    · exact .inl (by rw [← hcum]; exact h0)
    · right
      rcases h with h | h
      · exact absurd h h0
      · refine ⟨_, rfl, ?_⟩
        unfold flUsed at h
        rw [if_pos (by rcases hk with rfl | rfl; exacts [.inl h0, .inr h0]), hsf] at h
        exact h
  cases k with
  | straightFlush => exact str _ (.inl rfl) (len a1)
  | straight => exact str _ (.inr rfl) (len a3)
  | flush => exact flu _ (.inl rfl) (len a2)
  | highCard => exact flu _ (.inr rfl) (len a4)
  | fourKind => exact mul (.fourKind, [4]) (by simp)
  | fullHouse => exact mul (.fullHouse, [3, 2]) (by simp)
  | threeKind => exact mul (.threeKind, [3]) (by simp)
  | twoPair => exact mul (.twoPair, [2, 2]) (by simp)
  | pair => exact mul (.pair, [2]) (by simp)

theorem addMultiples_fits {D : HandClass → ClassInfo} {R : List HandClass} {k : HandClass} {ms : List Nat} (d : Dict)
    (h : (D k).cumulative = 0 ∨ ((∃ n, keyNum r c ms = some n ∧ (n : Int) = (D k).unsuited) ∧ ∃ b, getRank D R k = .ok b)) :
    ∃ d', addMultiples D R r c k ms d = .ok d' := by
  unfold addMultiples
  rcases h with h | ⟨⟨n, h1, h2⟩, b, hb⟩
  · exact ⟨d, by rw [if_pos h]⟩
  · split
    · exact ⟨d, rfl⟩
    · obtain ⟨l, h3, rfl⟩ := keyNum_some.1 h1
      rw [hb, h3]
      simp only [bind, Except.bind]
      rw [if_neg (by omega)]
      exact ⟨_, rfl⟩

theorem new_of_fits (hc : 1 ≤ c ∧ c ≤ 5) (h0 : ∀ k, 0 ≤ (classCount s r c low k).2)
    (hsu0 : ∀ k, 0 ≤ (classCount s r c low k).1) (hpos : ∃ k, (classCount s r c low k).1 ≠ 0 ∧ 1 ≤ cnt s r c low k)
    (hcomp : ∀ o, order = some o → ∀ x ∈ ORDER_STRINGS, x ∈ o)
    (ho : orderedClasses (classCount s r c low) order = .ok classes) (hn : classes.Nodup) (ha : ∀ k, k ∈ classes)
    (hf : ∀ k, upTo s r c low classes k = 0 ∨
      ∃ n, keys r c low (useStraights s r c low classes) k = some n ∧ (n : Int) = cnt s r c low k) (m : Int) :
    ∃ e, Evaluator.new s r c m low order = .ok e := by
  have sp := rankLoop_spec (classCount s r c low) h0 classes hn
  suffices H : ∃ su un un', flushes (rankLoop (classCount s r c low) classes).handDict
        (rankLoop (classCount s r c low) classes).rankedHands r c low = .ok (su, un) ∧
      multiples (rankLoop (classCount s r c low) classes).handDict
        (rankLoop (classCount s r c low) classes).rankedHands r c un = .ok un' by
    obtain ⟨su, un, un', h1, h2⟩ := H
    exact new_of_counts hc h0 hsu0 hpos hcomp ho hn ha h1 h2 m
  generalize rankLoop (classCount s r c low) classes = st at *
  have hcum : ∀ k, (st.handDict k).cumulative = upTo s r c low classes k := fun k => (sp.info k (ha k)).2.2
  have huns : ∀ k, (st.handDict k).unsuited = cnt s r c low k := fun k => (sp.info k (ha k)).2.1
  have hrank : ∀ k, upTo s r c low classes k ≠ 0 → ∃ b, getRank st.handDict st.rankedHands k = .ok b := by
    intro k hk
    refine ⟨_, sp.get k (ha k) ?_⟩
    have h1 : 0 ≤ bef s r c low classes k := before_nonneg _ h0 classes k
    have h2 := h0 k
    unfold upTo cnt at hk
    unfold bef at *
    omega
  have hsf : sfUsed st.handDict r c low = if useStraights s r c low classes then genStraightFlush c r low else [] := by
    unfold sfUsed useStraights
    rw [hcum, hcum]
    simp only [decide_eq_true_eq]
  have str : ∀ k, k = .straightFlush ∨ k = .straight → ∀ d, ∃ d', addFlushes st.handDict st.rankedHands k (sfUsed st.handDict r c low) d = .ok d' := by
    intro k hk d
    apply addFlushes_run
    rw [hcum, huns]
    by_cases hz : upTo s r c low classes k = 0
    · exact .inl hz
    · right
      refine ⟨?_, hrank k hz⟩
      have hu : useStraights s r c low classes = true := by
        unfold useStraights
        rw [decide_eq_true_eq]
        rcases hk with rfl | rfl
        · exact .inl hz
        · exact .inr hz
      rw [hsf, if_pos hu]
      obtain ⟨n, h1, h2⟩ := (hf k).resolve_left hz
      rcases hk with rfl | rfl <;> simp only [keys, Option.some.injEq] at h1 <;> omega
  have flu : ∀ k, k = .flush ∨ k = .highCard → ∀ d, ∃ d', addFlushes st.handDict st.rankedHands k (flUsed st.handDict r c low) d = .ok d' := by
    intro k hk d
    apply addFlushes_run
    by_cases hz : (st.handDict k).cumulative = 0
    · exact .inl hz
    · right
      rw [hcum] at hz
      refine ⟨?_, hrank k hz⟩
      rw [← hcum] at hz
      unfold flUsed
      rw [if_pos (by rcases hk with rfl | rfl; exacts [.inl hz, .inr hz]), hsf, huns]
      rw [hcum] at hz
      obtain ⟨n, h1, h2⟩ := (hf k).resolve_left hz
      rcases hk with rfl | rfl <;> simp only [keys, Option.some.injEq] at h1 <;> omega
  have mul : ∀ (k : HandClass) (ms : List Nat), keys r c low (useStraights s r c low classes) k = keyNum r c ms →
      ∀ d, ∃ d', addMultiples st.handDict st.rankedHands r c k ms d = .ok d' := by
    intro k ms hk d
    apply addMultiples_fits
    rw [hcum, huns]
    by_cases hz : upTo s r c low classes k = 0
    · exact .inl hz
    · right
      obtain ⟨n, h1, h2⟩ := (hf k).resolve_left hz
      exact ⟨⟨n, by rw [← hk]; exact h1, h2⟩, hrank k hz⟩
  obtain ⟨a1, e1⟩ := str .straightFlush (.inl rfl) []
  obtain ⟨a2, e2⟩ := flu .flush (.inl rfl) a1
  obtain ⟨a3, e3⟩ := str .straight (.inr rfl) []
  obtain ⟨a4, e4⟩ := flu .highCard (.inr rfl) a3
  obtain ⟨b1, g1⟩ := mul .fourKind [4] rfl a4
  obtain ⟨b2, g2⟩ := mul .fullHouse [3, 2] rfl b1
  obtain ⟨b3, g3⟩ := mul .threeKind [3] rfl b2
  obtain ⟨b4, g4⟩ := mul .twoPair [2, 2] rfl b3
  obtain ⟨b5, g5⟩ := mul .pair [2] rfl b4
  refine ⟨a2, a4, b5, ?_, ?_⟩
  · unfold flushes
    change (do
      let suited ← addFlushes st.handDict st.rankedHands .straightFlush (sfUsed st.handDict r c low) []
      let suited ← addFlushes st.handDict st.rankedHands .flush (flUsed st.handDict r c low) suited
      let unsuited ← addFlushes st.handDict st.rankedHands .straight (sfUsed st.handDict r c low) []
      let unsuited ← addFlushes st.handDict st.rankedHands .highCard (flUsed st.handDict r c low) unsuited
      return (suited, unsuited)) = Except.ok (a2, a4)
    simp only [e1, e2, e3, e4, bind, Except.bind, pure, Except.pure]
  · unfold multiples
    simp only [g1, g2, g3, g4, g5, bind, Except.bind]

end

/-! ## as many cards as ranks -/

/-- classes without hands that may come anywhere: the code does not generate keys for them either -/
def free (c : Nat) (k : HandClass) : Bool :=
  if 3 ≤ c then k = .flush ∨ k = .highCard else if c = 1 then k = .fullHouse ∨ k = .twoPair else False

/-- the numbers of keys when a hand has as many cards as there are ranks -/
def squareFacts (s c : Nat) (low : Bool) : Prop :=
  (3 ≤ c → cnt s c c low .straight ≠ 0) ∧
  (c ≤ 2 → cnt s c c low .straight = 0 ∧ cnt s c c low .straightFlush = 0 ∧ ¬ keys c c low true .straight = some 0) ∧
  (∀ k ∈ CLASS_LIST, free c k = true → cnt s c c low k = 0) ∧
  (∀ k ∈ CLASS_LIST, free c k = true ∨ cnt s c c low k ≠ 0 → keys c c low (decide (3 ≤ c)) k = some (cnt s c c low k).toNat) ∧
  (∀ k ∈ CLASS_LIST, free c k = false → cnt s c c low k = 0 → keys c c low (decide (3 ≤ c)) k ≠ some 0) ∧
  ∀ k ∈ kindList, cnt s c c low (cls k) = 0 ↔ nPatterns c c low k * suitChoices s c k = 0

instance (s c : Nat) (low : Bool) : Decidable (squareFacts s c low) := inferInstanceAs (Decidable (_ ∧ _))

theorem square_table : ∀ s < 5, ∀ c < 6, ∀ low : Bool, ¬ (1 ≤ s ∧ 1 ≤ c ∧ StraightOK c c low) ∨ squareFacts s c low := by
  decide +kernel

theorem keys_straight (r c : Nat) (low u u' : Bool) (k : HandClass) (hk : k = .straight ∨ k = .straightFlush) :
    keys r c low u k = keys r c low u' .straight := by
  rcases hk with rfl | rfl <;> rfl

/-- With as many cards as ranks the keys fit exactly if every class without hands that is not free comes
before every class with hands. -/
theorem fits_square {s c : Nat} {low : Bool} {classes : List HandClass} (hS : Shape s c c low) :
    (∀ k, upTo s c c low classes k = 0 ∨
      ∃ n, keys c c low (useStraights s c c low classes) k = some n ∧ (n : Int) = cnt s c c low k) ↔
    ∀ k, free c k = false → cnt s c c low k = 0 → bef s c c low classes k = 0 := by
  obtain ⟨⟨hs1, hs4⟩, -, ⟨hc1, hc⟩, -, hst⟩ := id hS
  obtain ⟨q1, q2, q3, q4, q5, -⟩ := (square_table s (by omega) c (by omega) low).resolve_left
    (fun h => h ⟨hs1, hc1, hst⟩)
  have h0 : ∀ k, 0 ≤ cnt s c c low k := fun k => hS.facts.1 k (mem_classList k)
  have hb0 : ∀ k, 0 ≤ bef s c c low classes k := fun k => before_nonneg _ h0 classes k
  have hbig : 3 ≤ c → useStraights s c c low classes = decide (3 ≤ c) := by
    intro h3
    have h1 := q1 h3
    have h2 := h0 .straight
    have h4 := hb0 .straight
    unfold useStraights upTo
    rw [decide_eq_decide]
    refine ⟨fun _ => h3, fun _ => .inr (by omega)⟩
  have hsmall : c ≤ 2 → (∀ k, k = .straight ∨ k = .straightFlush → upTo s c c low classes k = 0) →
      useStraights s c c low classes = decide (3 ≤ c) := by
    intro h2 h
    unfold useStraights
    rw [decide_eq_decide]
    constructor
    · rintro (h' | h')
      · exact absurd (h _ (.inr rfl)) h'
      · exact absurd (h _ (.inl rfl)) h'
    · omega
  have fsmall : c ≤ 2 → ∀ k, k = .straight ∨ k = .straightFlush → free c k = false := by
    rintro h2 k (rfl | rfl) <;> simp [free]
  have csmall : c ≤ 2 → ∀ k, k = .straight ∨ k = .straightFlush → cnt s c c low k = 0 := by
    rintro h2 k (rfl | rfl)
    · exact (q2 h2).1
    · exact (q2 h2).2.1
  constructor
  · intro H
    have hu : useStraights s c c low classes = decide (3 ≤ c) := by
      by_cases h3 : 3 ≤ c
      · exact hbig h3
      · refine hsmall (by omega) ?_
        intro k hk
        refine (H k).resolve_right ?_
        rintro ⟨n, h1, h2⟩
        rw [csmall (by omega) k hk] at h2
        rw [keys_straight c c low _ true k hk] at h1
        obtain rfl : n = 0 := by omega
        exact (q2 (by omega)).2.2 h1
    intro k hf hk
    rcases H k with h | ⟨n, h1, h2⟩
    · unfold upTo at h
      omega
    · rw [hu] at h1
      obtain rfl : n = 0 := by omega
      exact absurd h1 (q5 k (mem_classList k) hf hk)
  · intro H
    have hu : useStraights s c c low classes = decide (3 ≤ c) := by
      by_cases h3 : 3 ≤ c
      · exact hbig h3
      · refine hsmall (by omega) ?_
        intro k hk
        have h1 := csmall (by omega) k hk
        unfold upTo
        rw [h1, H k (fsmall (by omega) k hk) h1]
        rfl
    intro k
    by_cases hk : free c k = true ∨ cnt s c c low k ≠ 0
    · right
      refine ⟨_, by rw [hu]; exact q4 k (mem_classList k) hk, ?_⟩
      have := h0 k
      omega
    · left
      rw [not_or, Bool.not_eq_true, not_not] at hk
      unfold upTo
      rw [H k hk.1 hk.2, hk.2]
      rfl

/-! ## straights that wrap around -/

theorem before_ne_one (f : HandClass → Int) (cs : List HandClass) (k : HandClass)
    (h : ∀ d ∈ cs, cs.idxOf d < cs.idxOf k → f d = 0 ∨ 2 ≤ f d) : before f cs k = 0 ∨ 2 ≤ before f cs k := by
  induction cs with
  | nil => simp [before]
  | cons e cs ih =>
    simp only [before]
    by_cases he : e = k
    · simp [he]
    · rw [if_neg he]
      have hk : (e :: cs).idxOf k = cs.idxOf k + 1 := List.idxOf_cons_ne _ he
      have h1 := h e (by simp) (by rw [hk, List.idxOf_cons_self]; omega)
      have h2 := ih (fun d hd hlt => by
        by_cases hde : e = d
        · subst hde; exact h1
        · exact h d (by simp [hd]) (by rw [List.idxOf_cons_ne _ hde, hk]; omega))
      omega

/-- the counts when a low straight uses every rank -/
def wrapFacts (s c : Nat) : Prop :=
  (cnt s c c true .flush = -1 ∨ cnt s c c true .flush = 0) ∧ cnt s c c true .highCard = -1 ∧
  ∀ k ∈ CLASS_LIST, k = .flush ∨ k = .highCard ∨ cnt s c c true k = 0 ∨ 2 ≤ cnt s c c true k

instance (s c : Nat) : Decidable (wrapFacts s c) := inferInstanceAs (Decidable (_ ∧ _))

theorem wrap_table : ∀ s < 5, ∀ c < 6, ¬ (1 ≤ s ∧ 3 ≤ c) ∨ wrapFacts s c := by decide +kernel

/-- No table can be built when a low straight uses every rank. -/
theorem no_table_wrap {s c : Nat} {order : Option (List String)} {t : Table} {classes : List HandClass}
    (hs : 1 ≤ s ∧ s ≤ 4) (hc : 3 ≤ c ∧ c ≤ 5) (hn : classes.Nodup) (ha : ∀ k, k ∈ classes)
    (B : Built s c c true order t classes) : False := by
  obtain ⟨w1, w2, w3⟩ := (wrap_table s (by omega) c (by omega)).resolve_left (fun h => h ⟨hs.1, hc.1⟩)
  obtain ⟨-, i2, i3⟩ := rankLoop_total (classCount s c c true) classes hn
  have hcum : ∀ k, (t.handDict k).cumulative = bef s c c true classes k + cnt s c c true k := by
    intro k; rw [B.dict]; exact i3 k (ha k)
  have huns : ∀ k, (t.handDict k).unsuited = cnt s c c true k := by
    intro k; rw [B.dict]; exact i2 k
  obtain ⟨su, ⟨d1, -, d2, a2, -⟩, -⟩ := B.suited
  obtain ⟨d3, -, d4, a4, -⟩ := B.unsuited
  have b2 : cnt s c c true .flush = -1 → bef s c c true classes .flush = 1 := by
    intro w1
    rcases a2 with ⟨h, -⟩ | ⟨-, h, -⟩
    · rw [hcum, w1] at h; omega
    · rw [huns, w1] at h; omega
  have b4 : bef s c c true classes .highCard = 1 := by
    rcases a4 with ⟨h, -⟩ | ⟨-, h, -⟩
    · rw [hcum, w2] at h; omega
    · rw [huns, w2] at h; omega
  by_cases hlt : cnt s c c true .flush = -1 ∧ classes.idxOf .flush < classes.idxOf .highCard
  · have := before_ne_one (cnt s c c true) classes .flush (fun d _ h => by
      rcases w3 d (mem_classList d) with rfl | rfl | h'
      · omega
      · omega
      · exact h')
    have b2 := b2 hlt.1
    unfold bef at b2
    unfold cnt at this
    omega
  · have := before_ne_one (cnt s c c true) classes .highCard (fun d _ h => by
      rcases w3 d (mem_classList d) with rfl | rfl | h'
      · rcases w1 with w1 | w1
        · exact absurd ⟨w1, h⟩ hlt
        · exact .inl w1
      · omega
      · exact h')
    unfold bef at b4
    unfold cnt at this
    omega

end Clubs
