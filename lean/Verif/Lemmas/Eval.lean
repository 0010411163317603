import Verif.Lemmas.Build

/-! Helper lemmas: from `Evaluator.new` to the table lemmas, and `Evaluator.evaluate`. -/

namespace Clubs

open Spec

theorem Evaluator.new_table {s r c m : Int} {low : Bool} {order : Option (List String)} {e : Evaluator}
    (h : Evaluator.new s r c m low order = .ok e) :
    Table.new s r c low order = .ok e.table ∧ e.cardsForHand = c ∧ e.mandatoryHoleCards = m ∧ 1 ≤ c ∧ c ≤ 5 := by
  unfold Evaluator.new at h
  split at h
  · simp at h
  · cases ht : Table.new s r c low order with
    | error x => rw [ht] at h; simp at h
    | ok t =>
      rw [ht] at h
      simp only at h
      split at h
      · simp at h
      · simp only [Except.ok.injEq] at h
        subst h
        exact ⟨rfl, rfl, rfl, by omega, by omega⟩

theorem isHand_card_le {s r c : Nat} {ps : List (Nat × Nat)} (h : IsHand s r c ps) (hr : r ≤ 13) : c ≤ r * s := by
  have hsub : ps ⊆ ((List.range r).flatMap fun i => (List.range s).map fun u => (12 - i, u)) := by
    intro p hp
    obtain ⟨⟨h1, h2⟩, h3⟩ := h.2.2 p hp
    rw [List.mem_flatMap]
    refine ⟨12 - p.1, List.mem_range.2 (by omega), List.mem_map.2 ⟨p.2, List.mem_range.2 h3, ?_⟩⟩
    ext
    · simp; omega
    · rfl
  have := (h.2.1.subperm hsub).length_le
  rw [h.1, List.length_flatMap] at this
  simpa using this

def isErr {α : Type} : Except Err α → Bool
  | .ok _ => false
  | .error _ => true

/-- Outside the proper shapes no table can be built, if there are enough cards for a hand. -/
def badChecks (s r c : Nat) (low : Bool) : Prop :=
  ¬ (1 ≤ s ∧ 1 ≤ r ∧ 1 ≤ c ∧ ¬ Shape s r c low ∧ ¬ (s = 1 ∧ low = true ∧ r + 2 = c)) ∨
    isErr (Table.new s r c low none) = true

instance (s r c : Nat) (low : Bool) : Decidable (badChecks s r c low) := inferInstanceAs (Decidable (_ ∨ _))

theorem bad_shape_table : ∀ s < 5, ∀ r < 6, ∀ c < 6, ∀ low : Bool, badChecks s r c low := by
  decide +kernel

theorem odd_shape_table : ∀ (r : Nat), r < 4 → ¬ (1 ≤ r) ∨
    isErr (Evaluator.new 1 r ((r + 2 : Nat) : Int) 0 true none) = false := by
  decide +kernel

theorem ctx_none {s r c : Nat} {low : Bool} {t : Table} (hs : 1 ≤ s ∧ s ≤ 4) (hr : 1 ≤ r ∧ r ≤ 13)
    (hc : 1 ≤ c ∧ c ≤ 5) (h : Table.new s r c low none = .ok t) (hcard : c ≤ r * s) :
    ∃ classes, Ctx s r c low none t classes := by
  have hS : Shape s r c low := by
    by_contra hS
    have hr5 : r < 6 := by
      by_contra hr5
      apply hS
      refine ⟨hs, hr, hc, by omega, ?_⟩
      rintro ⟨-, h1, -⟩
      omega
    have := (bad_shape_table s (by omega) r hr5 c (by omega) low).resolve_left (fun hn => hn ⟨hs.1, hr.1, hc.1, hS, by
      rintro ⟨rfl, -, h2⟩
      omega⟩)
    rw [h] at this
    simp [isErr] at this
  obtain ⟨classes, B⟩ := Table.new_ok h
  obtain ⟨h1, h2, -⟩ := classes_none B.ordered
  exact ⟨classes, hS, B, h1, h2⟩

theorem ctx_some {s r c : Nat} {low : Bool} {t : Table} {o : List String} (hS : Shape s r c low)
    (h : Table.new s r c low (some o) = .ok t) (hn : o.Nodup) :
    ∃ classes, Ctx s r c low (some o) t classes := by
  obtain ⟨classes, B⟩ := Table.new_ok h
  obtain ⟨h1, h2⟩ := classes_perm B.ordered hn (B.complete o rfl)
  exact ⟨classes, hS, B, h1, h2⟩

/-- with one suit and no custom order the flush entry is empty -/
theorem flush_none {s r c : Nat} {low : Bool} {t : Table} {classes : List HandClass}
    (X : Ctx s r c low none t classes) (hs : s = 1) : (t.handDict .flush).cumulative = 0 := by
  have h0 : cnt s r c low .flush = 0 := (X.shape.facts.2.2.2.1 hs).2
  rw [X.cum, none_zero X.shape X.built.ordered .flush h0, h0]
  rfl

theorem ctx_good {s r c : Nat} {low : Bool} {order : Option (List String)} {t : Table} (hs : 1 ≤ s ∧ s ≤ 4)
    (hr : 1 ≤ r ∧ r ≤ 13) (hc : 1 ≤ c ∧ c ≤ 5) (ho : GoodOrder s r c low order)
    (h : Table.new s r c low order = .ok t) (hcard : c ≤ r * s) :
    ∃ classes, Ctx s r c low order t classes ∧
      (¬ (s = 1 ∧ r = c ∧ 3 ≤ c) ∨ (t.handDict .flush).cumulative = 0) := by
  rcases ho with rfl | ⟨o, rfl, hn, h1, h2, h3⟩
  · obtain ⟨classes, X⟩ := ctx_none hs hr hc h hcard
    refine ⟨classes, X, ?_⟩
    by_cases h1 : s = 1
    · exact .inr (flush_none X h1)
    · exact .inl (fun hh => h1 hh.1)
  · obtain ⟨classes, X⟩ := ctx_some ⟨hs, hr, hc, h1, h2⟩ h hn
    exact ⟨classes, X, .inl h3⟩

theorem filed_eq {s r c : Nat} {low : Bool} {order : Option (List String)} {t : Table} {classes : List HandClass}
    (X : Ctx s r c low order t classes) {rs rs' : List Nat} {k k' : HandKind} {v v' : Int}
    (h : FiledAs s r c low classes rs k v) (h' : FiledAs s r c low classes rs' k' v')
    (hk : Fits r c k ∨ ((k = .flush ∨ k = .straightFlush) ∧ 3 ≤ c ∧ c ≤ r)) :
    v = v' ↔ k = k' ∧ rs.Perm rs' := by
  constructor
  · intro e
    have hkk := ((filed_order X h h' hk).2.1 e).1
    subst hkk
    refine ⟨rfl, ?_⟩
    obtain ⟨i, l, hi, hlp, hv, -⟩ := h
    obtain ⟨j, l', hj, hlp', hv', -⟩ := h'
    have : i = j := by omega
    subst this
    rw [hi] at hj
    simp only [Option.some.injEq] at hj
    subst hj
    exact hlp.symm.trans hlp'
  · rintro ⟨hkk, hp⟩
    exact (filed_order X h h' hk).2.2 ⟨hkk, tieKey_perm hp r low⟩

theorem name_inj {a b : HandClass} (h : a.name = b.name) : a = b := by
  revert h; cases a <;> cases b <;> decide

theorem idxOf_map_name (l : List HandClass) (a : HandClass) :
    (l.map (·.name)).idxOf a.name = l.idxOf a := by
  induction l with
  | nil => rfl
  | cons x l ih =>
    rw [List.map_cons, List.idxOf_cons, List.idxOf_cons, ih]
    by_cases h : x = a
    · subst h; simp
    · have h1 : (x == a) = false := beq_eq_false_iff_ne.2 h
      have h2 : (x.name == a.name) = false := beq_eq_false_iff_ne.2 (fun e => h (name_inj e))
      rw [h1, h2]

/-! ## evaluate -/

theorem minLoop_ok {t : Table} {hs : List (List Card)} {m v : Int} (h : minLoop t hs m = .ok v) :
    (∀ x ∈ hs, ∃ w, t.lookup x = .ok w ∧ v ≤ w) ∧ v ≤ m ∧ (v = m ∨ ∃ x ∈ hs, t.lookup x = .ok v) := by
  induction hs generalizing m with
  | nil => simp [minLoop] at h; subst h; simp
  | cons x hs ih =>
    rw [minLoop] at h
    cases hx : t.lookup x with
    | error e => rw [hx] at h; simp at h
    | ok w =>
      rw [hx] at h
      obtain ⟨h1, h2, h3⟩ := ih h
      refine ⟨?_, ?_, ?_⟩
      · intro y hy
        rcases List.mem_cons.1 hy with rfl | hy
        · exact ⟨w, hx, by split at h2 <;> omega⟩
        · exact h1 y hy
      · split at h2 <;> omega
      · rcases h3 with h3 | ⟨y, hy, h3⟩
        · split at h3
          · right; exact ⟨x, by simp, by rw [h3]; exact hx⟩
          · left; exact h3
        · right; exact ⟨y, by simp [hy], h3⟩

theorem minLoop_total {t : Table} {hs : List (List Card)} (m : Int)
    (h : ∀ x ∈ hs, ∃ w, t.lookup x = .ok w) : ∃ v, minLoop t hs m = .ok v := by
  induction hs generalizing m with
  | nil => exact ⟨m, rfl⟩
  | cons x hs ih =>
    obtain ⟨w, hw⟩ := h x (by simp)
    rw [minLoop, hw]
    exact ih _ (fun y hy => h y (by simp [hy]))

theorem minLoop_error {t : Table} {hs : List (List Card)} {m : Int} {e : Err} (h : minLoop t hs m = .error e) :
    ∃ x ∈ hs, t.lookup x = .error e := by
  induction hs generalizing m with
  | nil => simp [minLoop] at h
  | cons x hs ih =>
    rw [minLoop] at h
    cases hx : t.lookup x with
    | error e' =>
      rw [hx] at h
      simp at h
      subst h
      exact ⟨x, by simp, hx⟩
    | ok w =>
      rw [hx] at h
      obtain ⟨y, hy, h2⟩ := ih h
      exact ⟨y, by simp [hy], h2⟩

theorem lookup_error {t : Table} {h : List Card} {e : Err} (he : t.lookup h = .error e) :
    e = if h = [] then .typeError else .keyError := by
  unfold Table.lookup at he
  cases h with
  | nil => simp at he; simp [he]
  | cons c cs =>
    rw [if_neg (by simp)]
    have hd : ∀ (d : Dict) k, d.get k = .error e → e = .keyError := by
      intro d k hg
      unfold Dict.get at hg
      split at hg
      · simp at hg
      · simpa using hg.symm
    split at he
    · exact hd _ _ he
    · exact hd _ _ he

theorem lookup_perm (t : Table) {h h' : List Card} (hp : h.Perm h') : t.lookup h = t.lookup h' := by
  have h1 : h.foldl (fun a c => a &&& c.int) 0xF000 = h'.foldl (fun a c => a &&& c.int) 0xF000 := by
    refine hp.foldl_eq' ?_ _
    intro x _ y _ z
    rw [Nat.and_assoc, Nat.and_comm x.int, ← Nat.and_assoc]
  have h2 : primeFromHand h = primeFromHand h' := by
    unfold primeFromHand
    refine hp.foldl_eq' ?_ _
    intro x _ y _ z
    rw [Nat.mul_right_comm]
  unfold Table.lookup
  rw [h1, h2]
  split
  · cases h with
    | nil =>
      have : h' = [] := List.nil_perm.1 hp
      subst this; rfl
    | cons c cs =>
      cases h' with
      | nil => simp at hp
      | cons c' cs' =>
        have e : ∀ (x : Card) (xs : List Card), xs.foldl (fun a c => a ||| c.int) x.int =
            (x :: xs).foldl (fun a c => a ||| c.int) 0 := by
          intro x xs; simp
        simp only [e]
        have h3 : (c :: cs).foldl (fun a c => a ||| c.int) 0 = (c' :: cs').foldl (fun a c => a ||| c.int) 0 := by
          refine hp.foldl_eq' ?_ _
          intro x _ y _ z
          rw [Nat.or_assoc, Nat.or_comm x.int, ← Nat.or_assoc]
        rw [h3]
  · rfl

/-- same selections up to order, same length: same result -/
theorem minLoop_congr {t : Table} {A B : List (List Card)} {n : Nat} (m : Int)
    (hA : ∀ x ∈ A, x.length = n) (hB : ∀ x ∈ B, x.length = n)
    (hAB : ∀ x ∈ A, ∃ y ∈ B, x.Perm y) (hBA : ∀ y ∈ B, ∃ x ∈ A, y.Perm x) :
    minLoop t A m = minLoop t B m := by
  cases ha : minLoop t A m with
  | ok v =>
    obtain ⟨a1, a2, a3⟩ := minLoop_ok ha
    obtain ⟨w, hb⟩ := minLoop_total (t := t) (hs := B) m (by
      intro y hy
      obtain ⟨x, hx, hp⟩ := hBA y hy
      obtain ⟨w, hw, -⟩ := a1 x hx
      exact ⟨w, by rw [lookup_perm t hp, hw]⟩)
    rw [hb]
    obtain ⟨b1, b2, b3⟩ := minLoop_ok hb
    have h1 : v ≤ w := by
      rcases b3 with rfl | ⟨y, hy, h3⟩
      · exact a2
      · obtain ⟨x, hx, hp⟩ := hBA y hy
        obtain ⟨u, hu, hle⟩ := a1 x hx
        rw [← lookup_perm t hp, h3] at hu
        simp at hu; omega
    have h2 : w ≤ v := by
      rcases a3 with rfl | ⟨y, hy, h3⟩
      · exact b2
      · obtain ⟨x, hx, hp⟩ := hAB y hy
        obtain ⟨u, hu, hle⟩ := b1 x hx
        rw [← lookup_perm t hp, h3] at hu
        simp at hu; omega
    congr 1; omega
  | error e =>
    obtain ⟨x, hx, hxe⟩ := minLoop_error ha
    obtain ⟨y, hy, hp⟩ := hAB x hx
    cases hb : minLoop t B m with
    | ok w =>
      obtain ⟨b1, -⟩ := minLoop_ok hb
      obtain ⟨u, hu, -⟩ := b1 y hy
      rw [← lookup_perm t hp, hxe] at hu
      simp at hu
    | error e' =>
      obtain ⟨z, hz, hze⟩ := minLoop_error hb
      have h1 := lookup_error hxe
      have h2 := lookup_error hze
      have : x = [] ↔ z = [] := by
        rw [← List.length_eq_zero_iff, ← List.length_eq_zero_iff, hA x hx, hB z hz]
      rw [h1, h2]
      simp [this]

theorem combinations_perm {xs xs' : List Card} (hp : xs.Perm xs') (k : Nat) :
    ∀ x ∈ combinations k xs, ∃ y ∈ combinations k xs', x.Perm y := by
  intro x hx
  obtain ⟨h1, h2⟩ := (mem_combinations _ _ _).1 hx
  have : x.Subperm xs' := (h1.subperm).trans hp.subperm
  obtain ⟨y, hy, hsub⟩ := this
  exact ⟨y, (mem_combinations _ _ _).2 ⟨hsub, by rw [hy.length_eq, h2]⟩, hy.symm⟩

/-- The selections that `evaluate` may look at. -/
theorem mem_handCombs {e : Evaluator} {hole comm : List Card} {combs : List (List Card)}
    (h : e.handCombs hole comm = .ok combs) (x : List Card) :
    x ∈ combs ↔
      if e.mandatoryHoleCards = 0 then x.Sublist (hole ++ comm) ∧ (x.length : Int) = e.cardsForHand
      else ∃ a b, a.Sublist hole ∧ (a.length : Int) = e.mandatoryHoleCards ∧ b.Sublist comm ∧
        (b.length : Int) = e.cardsForHand - e.mandatoryHoleCards ∧ x = a ++ b := by
  unfold Evaluator.handCombs at h
  by_cases hm : e.mandatoryHoleCards = 0
  · rw [if_pos hm]
    simp only [hm, ne_eq, not_true_eq_false, if_false, combinationsInt] at h
    split at h
    · simp at h
    · simp only [Except.ok.injEq] at h
      subst h
      rw [mem_combinations]
      constructor
      · rintro ⟨h1, h2⟩; exact ⟨h1, by omega⟩
      · rintro ⟨h1, h2⟩; exact ⟨h1, by omega⟩
  · rw [if_neg hm]
    rw [if_pos hm] at h
    unfold combinationsInt at h
    split at h
    · simp at h
    · next hcs heq =>
      split at heq
      · simp at heq
      · simp only [Except.ok.injEq] at heq
        subst heq
        simp only [] at h
        split at h
        · split at h
          · simp at h
          · next cc heq2 =>
            split at heq2
            · simp at heq2
            · simp only [Except.ok.injEq] at heq2 h
              subst heq2 h
              simp only [productConcat, List.mem_flatMap, List.mem_map, mem_combinations]
              constructor
              · rintro ⟨a, ⟨h1, h2⟩, b, ⟨h3, h4⟩, rfl⟩
                exact ⟨a, b, h1, by omega, h3, by omega, rfl⟩
              · rintro ⟨a, b, h1, h2, h3, h4, rfl⟩
                exact ⟨a, ⟨h1, by omega⟩, b, ⟨h3, by omega⟩, rfl⟩
        · simp only [Except.ok.injEq] at h
          subst h
          rw [mem_combinations]
          constructor
          · rintro ⟨h1, h2⟩
            exact ⟨x, [], h1, by omega, by simp, by simp; omega, by simp⟩
          · rintro ⟨a, b, h1, h2, h3, h4, rfl⟩
            have : b = [] := List.length_eq_zero_iff.1 (by omega)
            subst this
            simp only [List.append_nil]
            exact ⟨h1, by omega⟩

theorem handCombs_ok {e : Evaluator} (hole comm : List Card) (h0 : 0 ≤ e.mandatoryHoleCards)
    (h1 : e.mandatoryHoleCards ≤ e.cardsForHand) : ∃ combs, e.handCombs hole comm = .ok combs := by
  unfold Evaluator.handCombs combinationsInt
  by_cases hm : e.mandatoryHoleCards ≠ 0
  · rw [if_pos hm, if_neg (by omega)]
    simp only []
    split
    · rw [if_neg (by omega)]; exact ⟨_, rfl⟩
    · exact ⟨_, rfl⟩
  · rw [if_neg hm, if_neg (by omega)]
    exact ⟨_, rfl⟩

/-- an error does not depend on the cards -/
theorem handCombs_error {e : Evaluator} {hole comm : List Card} {x : Err}
    (h : e.handCombs hole comm = .error x) (hole' comm' : List Card) : e.handCombs hole' comm' = .error x := by
  unfold Evaluator.handCombs combinationsInt at h ⊢
  by_cases hm : e.mandatoryHoleCards ≠ 0
  · rw [if_pos hm] at h ⊢
    by_cases h1 : e.mandatoryHoleCards < 0
    · rw [if_pos h1] at h ⊢; exact h
    · rw [if_neg h1] at h ⊢
      simp only [] at h ⊢
      by_cases h2 : e.cardsForHand - e.mandatoryHoleCards ≠ 0
      · rw [if_pos h2] at h ⊢
        by_cases h3 : e.cardsForHand - e.mandatoryHoleCards < 0
        · rw [if_pos h3] at h ⊢; exact h
        · rw [if_neg h3] at h; simp at h
      · rw [if_neg h2] at h; simp at h
  · rw [if_neg hm] at h ⊢
    by_cases h3 : e.cardsForHand < 0
    · rw [if_pos h3] at h ⊢; exact h
    · rw [if_neg h3] at h; simp at h

theorem evaluate_perm (e : Evaluator) {hole hole' comm comm' : List Card} (h1 : hole.Perm hole')
    (h2 : comm.Perm comm') : e.evaluate hole comm = e.evaluate hole' comm' := by
  unfold Evaluator.evaluate
  cases hA : e.handCombs hole comm with
  | error x => rw [handCombs_error hA hole' comm']
  | ok A =>
    cases hB : e.handCombs hole' comm' with
    | error x => rw [handCombs_error hB hole comm] at hA; simp at hA
    | ok B =>
      simp only []
      have trans : ∀ {h c h' c' : List Card} {A B : List (List Card)}, h.Perm h' → c.Perm c' →
          e.handCombs h c = .ok A → e.handCombs h' c' = .ok B → ∀ x ∈ A, ∃ y ∈ B, x.Perm y := by
        intro h c h' c' A B h1 h2 hA hB x hx
        have hx' := (mem_handCombs hA x).1 hx
        by_cases hm : e.mandatoryHoleCards = 0
        · rw [if_pos hm] at hx'
          obtain ⟨y, hy, hsub⟩ := (hx'.1.subperm).trans (h1.append h2).subperm
          refine ⟨y, (mem_handCombs hB y).2 ?_, hy.symm⟩
          rw [if_pos hm]
          exact ⟨hsub, by rw [hy.length_eq]; exact hx'.2⟩
        · rw [if_neg hm] at hx'
          obtain ⟨a, b, e1, e2, e3, e4, rfl⟩ := hx'
          obtain ⟨a', ha, hsa⟩ := (e1.subperm).trans h1.subperm
          obtain ⟨b', hb, hsb⟩ := (e3.subperm).trans h2.subperm
          refine ⟨a' ++ b', (mem_handCombs hB _).2 ?_, (ha.append hb).symm⟩
          rw [if_neg hm]
          exact ⟨a', b', hsa, by rw [ha.length_eq]; exact e2, hsb, by rw [hb.length_eq]; exact e4, rfl⟩
      have len : ∀ {h c : List Card} {A : List (List Card)}, e.handCombs h c = .ok A →
          ∀ x ∈ A, x.length = e.cardsForHand.toNat := by
        intro h c A hA x hx
        have hx' := (mem_handCombs hA x).1 hx
        by_cases hm : e.mandatoryHoleCards = 0
        · rw [if_pos hm] at hx'; omega
        · rw [if_neg hm] at hx'
          obtain ⟨a, b, e1, e2, e3, e4, rfl⟩ := hx'
          rw [List.length_append]; omega
      exact minLoop_congr _ (len hA) (len hB) (trans h1 h2 hA hB) (trans h1.symm h2.symm hB hA)


/-! ## get_rank_class -/

theorem rankClassLoop_hit (t : Table) (v : Int) (A B : List HandClass) (k : HandClass)
    (hA : ∀ d ∈ A, (t.handDict d).cumulative < v) (hk : v ≤ (t.handDict k).cumulative) :
    rankClassLoop t v (A ++ k :: B) = .ok k.name := by
  induction A with
  | nil => simp [rankClassLoop, hk]
  | cons d A ih =>
    rw [List.cons_append, rankClassLoop, if_neg (by have := hA d (by simp); omega)]
    exact ih (fun x hx => hA x (by simp [hx]))

theorem rankClassLoop_miss (t : Table) (v : Int) (L : List HandClass)
    (hL : ∀ d ∈ L, (t.handDict d).cumulative < v) : rankClassLoop t v L = .error .invalidHandRank := by
  induction L with
  | nil => rfl
  | cons d L ih =>
    rw [rankClassLoop, if_neg (by have := hL d (by simp); omega)]
    exact ih (fun x hx => hL x (by simp [hx]))

theorem rankClassLoop_some (t : Table) (v : Int) (L : List HandClass) (k : HandClass) (hk : k ∈ L)
    (h : v ≤ (t.handDict k).cumulative) : ∃ d ∈ L, rankClassLoop t v L = .ok d.name := by
  induction L with
  | nil => simp at hk
  | cons d L ih =>
    rw [rankClassLoop]
    split
    · exact ⟨d, by simp, rfl⟩
    · next hd =>
      rcases List.mem_cons.1 hk with rfl | hk
      · exact absurd h hd
      · obtain ⟨x, hx, he⟩ := ih hk
        exact ⟨x, by simp [hx], he⟩

theorem idxOf_append_lt (A B : List HandClass) (k d : HandClass) (hd : d ∈ A) (hk : k ∉ A) :
    (A ++ k :: B).idxOf d < (A ++ k :: B).idxOf k := by
  rw [List.idxOf_append_of_mem hd, List.idxOf_append_of_notMem hk]
  have := List.idxOf_lt_length_iff.2 hd
  omega

theorem filed_class {s r c : Nat} {low : Bool} {order : Option (List String)} {t : Table} {classes : List HandClass}
    (X : Ctx s r c low order t classes) {rs : List Nat} {k : HandKind} {v : Int}
    (h : FiledAs s r c low classes rs k v) : rankClassLoop t v t.rankedHands = .ok k.name := by
  have hr := filed_range X h
  have hkm : cls k ∈ t.rankedHands := by
    rw [X.built.ranked, X.spec.ranked, List.mem_filter]
    refine ⟨X.all _, ?_⟩
    have := X.bef_nonneg (cls k); have := hr.2.2.2
    rw [decide_eq_true_eq]; unfold bef cnt at *; omega
  have hnd : t.rankedHands.Nodup := by
    rw [X.built.ranked, X.spec.ranked]; exact X.nodup.filter _
  obtain ⟨A, B, hAB⟩ := List.append_of_mem hkm
  rw [hAB, ← cls_name k]
  have hkA : cls k ∉ A := by
    rw [hAB, List.nodup_append] at hnd
    intro hA
    exact hnd.2.2 _ hA (cls k) (by simp) rfl
  apply rankClassLoop_hit
  · intro d hd
    have hdm : d ∈ t.rankedHands := by rw [hAB]; simp [hd]
    rw [X.built.ranked, X.spec.ranked, List.mem_filter] at hdm
    have hlt : t.rankedHands.idxOf d < t.rankedHands.idxOf (cls k) := by
      rw [hAB]; exact idxOf_append_lt A B _ _ hd hkA
    rw [X.built.ranked, X.spec.ranked, List.mem_filter] at hkm
    rw [X.built.ranked, X.spec.ranked, idxOf_filter_lt (fun c' => decide (0 < before
      (fun c' => (classCount s r c low c').2) classes c' + (classCount s r c low c').2)) classes d (cls k)
      hdm.2 hkm.2] at hlt
    have hne : d ≠ cls k := fun e => hkA (e ▸ hd)
    have hb := before_lt (fun c' => (classCount s r c low c').2) X.nonneg classes d (cls k) hne (X.all _) (X.all _)
    have hd2 := hdm.2
    rw [decide_eq_true_eq] at hd2
    rw [X.cum]
    unfold bef cnt at *
    rcases hb with ⟨hb, -⟩ | ⟨-, hb⟩
    · omega
    · omega
  · rw [X.cum]; exact hr.2.2.1

theorem ranked_max {s r c : Nat} {low : Bool} {order : Option (List String)} {t : Table} {classes : List HandClass}
    (X : Ctx s r c low order t classes) :
    (∀ d ∈ t.rankedHands, (t.handDict d).cumulative ≤ t.maxRank) ∧
    1 ≤ t.maxRank ∧ ∃ k ∈ t.rankedHands, (t.handDict k).cumulative = t.maxRank := by
  have hS := X.shape
  obtain ⟨h1, k, -, hk⟩ := (none_sorted_table s (by have := hS.1; omega) r (by have := hS.2.1; omega) c
    (by have := hS.2.2.1; omega) low).resolve_left (fun hh => hh hS)
  have h2 : cnt s r c low k ≠ 0 := fun e => hk ((h1 k (mem_classList k)).1.2 e)
  have h3 := X.nonneg k
  have h4 := X.bef_le k
  have h5 := X.bef_nonneg k
  refine ⟨fun d _ => by rw [X.cum]; exact X.bef_le d, by omega, ?_⟩
  have h6 : 0 < (rankLoop (classCount s r c low) classes).cumulative := by
    rw [← X.built.max]; omega
  obtain ⟨d, hd, -, hc⟩ := X.spec.last h6
  rw [X.built.ranked, X.built.dict, X.built.max]
  exact ⟨d, List.mem_of_getLast? hd, hc⟩

/-! ## renaming suits -/

theorem lookup_rename (t : Table) (ps : List (Nat × Nat)) (hp : AreCards ps) (σ : Nat → Nat)
    (hσ : ∀ u < 4, σ u < 4) (hinj : ∀ u < 4, ∀ w < 4, σ u = σ w → u = w) :
    t.lookup ((ps.map fun p => (p.1, σ p.2)).map fun p => mkCard p.1 p.2) =
      t.lookup (ps.map fun p => mkCard p.1 p.2) := by
  have hp' : AreCards (ps.map fun p => (p.1, σ p.2)) := by
    intro q hq
    obtain ⟨p, hp1, rfl⟩ := List.mem_map.1 hq
    exact ⟨(hp p hp1).1, hσ _ (hp p hp1).2⟩
  cases ps with
  | nil => rfl
  | cons p ps =>
    have hiff := sameSuit_iff p ps hp
    have hiff' := sameSuit_iff (p.1, σ p.2) (ps.map fun p => (p.1, σ p.2)) (by simpa using hp')
    have hs : (∀ q ∈ (p.1, σ p.2) :: ps.map (fun p => (p.1, σ p.2)), q.2 = σ p.2) ↔ ∀ q ∈ p :: ps, q.2 = p.2 := by
      constructor
      · intro h q hq
        rcases List.mem_cons.1 hq with rfl | hq'
        · rfl
        · exact hinj _ (hp q hq).2 _ (hp p (by simp)).2
            (h (q.1, σ q.2) (List.mem_cons_of_mem _ (List.mem_map.2 ⟨q, hq', rfl⟩)))
      · intro h q hq
        rcases List.mem_cons.1 hq with rfl | hq
        · rfl
        · obtain ⟨w, hw, rfl⟩ := List.mem_map.1 hq
          simp only
          rw [h w (by simp [hw])]
    have hprime : primeFromHand (((p :: ps).map fun p => (p.1, σ p.2)).map fun p => mkCard p.1 p.2) =
        primeFromHand ((p :: ps).map fun p => mkCard p.1 p.2) := by
      rw [primeFromHand_eq _ hp', primeFromHand_eq _ hp, List.map_map]
      rfl
    have hbits : ∀ (a : Nat × Nat) (l : List (Nat × Nat)), AreCards (a :: l) → ∀ x < 13,
        (((l.map fun p => mkCard p.1 p.2).foldl (fun a c => a ||| c.int) (mkCard a.1 a.2).int) >>> 16).testBit x
          = decide (x ∈ (a :: l).map (·.1)) := by
      intro a l hal x hx
      rw [Nat.testBit_shiftRight, testBit_foldl_or, mkCard_testBit _ _ _ (hal a (by simp)).1 (hal a (by simp)).2 hx,
        Bool.eq_iff_iff]
      simp only [Bool.or_eq_true, decide_eq_true_eq, List.any_eq_true, List.mem_map, List.map_cons, List.mem_cons]
      constructor
      · rintro (h | ⟨c, ⟨q, hq, rfl⟩, h2⟩)
        · exact .inl h
        · right
          have := hal q (by simp [hq])
          rw [mkCard_testBit _ _ _ this.1 this.2 hx, decide_eq_true_eq] at h2
          exact ⟨q, hq, h2.symm⟩
      · rintro (h | ⟨q, hq, h2⟩)
        · exact .inl h
        · right
          have := hal q (by simp [hq])
          exact ⟨_, ⟨q, hq, rfl⟩, by rw [mkCard_testBit _ _ _ this.1 this.2 hx, decide_eq_true_eq]; exact h2.symm⟩
    have pf : ∀ a b : Nat, (∀ x < 13, a.testBit x = b.testBit x) → primeFromBits a = primeFromBits b := by
      intro a b hab
      unfold primeFromBits
      have h1 : ∀ (l : List Nat) (z : Nat), (∀ x ∈ l, x < 13) →
          l.foldl (fun product i => if a &&& (1 <<< i) ≠ 0 then product * PRIMES.getD i 0 else product) z
          = l.foldl (fun product i => if b &&& (1 <<< i) ≠ 0 then product * PRIMES.getD i 0 else product) z := by
        intro l
        induction l with
        | nil => intro z _; rfl
        | cons i l ih =>
          intro z hl
          have e : (a &&& (1 <<< i) ≠ 0) ↔ (b &&& (1 <<< i) ≠ 0) := by
            have hab' := hab i (hl i (by simp))
            have key : ∀ y : Nat, (y &&& (1 <<< i) ≠ 0) ↔ y.testBit i = true := by
              intro y
              rw [Nat.shiftLeft_eq, Nat.one_mul, Nat.and_two_pow]
              cases y.testBit i <;> simp
            rw [key, key, hab']
          simp only [List.foldl_cons]
          rw [ih _ (fun x hx => hl x (by simp [hx]))]
          simp only [e]
      apply h1
      decide
    have L : ∀ (a : Nat × Nat) (l : List (Nat × Nat)), t.lookup ((a :: l).map fun p => mkCard p.1 p.2) =
        if ((a :: l).map fun p => mkCard p.1 p.2).foldl (fun a c => a &&& c.int) 0xF000 ≠ 0 then
          t.suitedLookup.get (primeFromBits (((l.map fun p => mkCard p.1 p.2).foldl (fun a c => a ||| c.int)
            (mkCard a.1 a.2).int) >>> 16))
        else t.unsuitedLookup.get (primeFromHand ((a :: l).map fun p => mkCard p.1 p.2)) := fun a l => rfl
    rw [L p ps, List.map_cons, L (p.1, σ p.2) (ps.map fun p => (p.1, σ p.2))]
    by_cases hh : ∀ q ∈ p :: ps, q.2 = p.2
    · rw [if_pos (hiff.2 hh), if_pos (hiff'.2 (hs.2 hh))]
      congr 1
      apply pf
      intro x hx
      rw [hbits p ps hp x hx, hbits (p.1, σ p.2) _ (by simpa using hp') x hx]
      simp only [List.map_cons, List.map_map]
      rfl
    · rw [if_neg (fun h => hh (hiff.1 h)), if_neg (fun h => hh (hs.1 (hiff'.1 h)))]
      rw [List.map_cons] at hprime
      rw [hprime]

end Clubs
