import Verif.Lemmas.Eval

/-!
# Helper lemmas for the evaluator properties
-/

namespace Clubs

open Spec

/-- A table whose dictionaries can be filled can be built, and its classes can be printed. -/
theorem new_of_counts {s r c : Nat} {low : Bool} {order : Option (List String)} {classes : List HandClass}
    (hc : 1 ≤ c ∧ c ≤ 5) (h0 : ∀ k, 0 ≤ (classCount s r c low k).2) (hsu0 : ∀ k, 0 ≤ (classCount s r c low k).1)
    (hpos : ∃ k, (classCount s r c low k).1 ≠ 0 ∧ 1 ≤ cnt s r c low k)
    (hcomp : ∀ o, order = some o → ∀ x ∈ ORDER_STRINGS, x ∈ o)
    (ho : orderedClasses (classCount s r c low) order = .ok classes) (hn : classes.Nodup)
    (ha : ∀ k, k ∈ classes) {su un un' : Dict}
    (h1 : flushes (rankLoop (classCount s r c low) classes).handDict
        (rankLoop (classCount s r c low) classes).rankedHands r c low = .ok (su, un))
    (h2 : multiples (rankLoop (classCount s r c low) classes).handDict
        (rankLoop (classCount s r c low) classes).rankedHands r c un = .ok un') (m : Int) :
    ∃ e, Evaluator.new s r c m low order = .ok e := by
  obtain ⟨t, ht⟩ : ∃ t, Table.new s r c low order = .ok t := by
    unfold Table.new
    have e : (match order with
        | none => (pure () : Except Err Unit)
        | some o => if (ORDER_STRINGS.any fun s => !o.contains s) = true then throw Err.invalidOrder else pure ()) = .ok () := by
      cases order with
      | none => rfl
      | some o =>
        have : (ORDER_STRINGS.any fun s => !o.contains s) = false := by
          rw [List.any_eq_false]
          intro x hx
          simp [hcomp o rfl x hx]
        simp only [this]
        rfl
    cases order with
    | none =>
      simp only [bind, Except.bind, pure, Except.pure, ho, h1, h2]
      exact ⟨_, rfl⟩
    | some o =>
      have : (ORDER_STRINGS.any fun s => !o.contains s) = false := by
        rw [List.any_eq_false]
        intro x hx
        simp [hcomp o rfl x hx]
      simp only [this, bind, Except.bind, pure, Except.pure, ho, h1, h2]
      exact ⟨_, rfl⟩
  obtain ⟨cl, B⟩ := Table.new_ok ht
  have hcl : cl = classes := by
    have := B.ordered; rw [ho] at this; simpa using this.symm
  subst hcl
  have sp := rankLoop_spec (classCount s r c low) h0 cl hn
  unfold Evaluator.new
  rw [if_neg (by omega), ht]
  simp only []
  have hsu : ∀ k, (t.handDict k).suited = (classCount s r c low k).1 := by
    intro k; rw [B.dict]; exact (sp.info k (ha k)).1
  rw [if_neg]
  · exact ⟨_, rfl⟩
  · rintro ⟨hsum, -⟩
    -- a ranked class with cumulative count > 0 is non-empty
    obtain ⟨k, hk, hpos⟩ := hpos
    have hmem : k ∈ t.rankedHands := by
      rw [B.ranked, sp.ranked, List.mem_filter]
      refine ⟨ha k, ?_⟩
      have := before_nonneg _ h0 cl k
      rw [decide_eq_true_eq]; unfold cnt at *; omega
    have hall : ∀ x ∈ t.rankedHands.map (fun c => (t.handDict c).suited), 0 ≤ x := by
      intro x hx
      obtain ⟨d, -, rfl⟩ := List.mem_map.1 hx
      rw [hsu]; exact hsu0 d
    have hle : ∀ (l : List Int), (∀ x ∈ l, 0 ≤ x) → ∀ y ∈ l, y ≤ l.sum := by
      intro l
      induction l with
      | nil => simp
      | cons a l ih =>
        intro h y hy
        have hs0 : 0 ≤ l.sum := List.sum_nonneg (fun x hx => h x (by simp [hx]))
        rw [List.sum_cons]
        rcases List.mem_cons.1 hy with rfl | hy
        · omega
        · have := ih (fun x hx => h x (by simp [hx])) y hy
          have := h a (by simp)
          omega
    have h5 := hle _ hall (t.handDict k).suited (List.mem_map.2 ⟨k, hmem, rfl⟩)
    rw [hsum, hsu] at h5
    have h6 := hsu0 k
    exact hk (by omega)

/-- … in particular for the shapes for which the code's formulas make sense. -/
theorem new_of_tables {s r c : Nat} {low : Bool} {order : Option (List String)} {classes : List HandClass}
    (hS : Shape s r c low) (hcomp : ∀ o, order = some o → ∀ x ∈ ORDER_STRINGS, x ∈ o)
    (ho : orderedClasses (classCount s r c low) order = .ok classes) (hn : classes.Nodup)
    (ha : ∀ k, k ∈ classes) {su un un' : Dict}
    (h1 : flushes (rankLoop (classCount s r c low) classes).handDict
        (rankLoop (classCount s r c low) classes).rankedHands r c low = .ok (su, un))
    (h2 : multiples (rankLoop (classCount s r c low) classes).handDict
        (rankLoop (classCount s r c low) classes).rankedHands r c un = .ok un') (m : Int) :
    ∃ e, Evaluator.new s r c m low order = .ok e := by
  have htab := (none_sorted_table s (by have := hS.1; omega) r (by have := hS.2.1; omega) c
    (by have := hS.2.2.1; omega) low).resolve_left (fun hh => hh hS)
  have h0 : ∀ k, 0 ≤ (classCount s r c low k).2 := fun k => hS.facts.1 k (mem_classList k)
  refine new_of_counts hS.2.2.1 h0 (fun k => (htab.1 k (mem_classList k)).2) ?_ hcomp ho hn ha h1 h2 m
  obtain ⟨k, -, hk⟩ := htab.2
  refine ⟨k, hk, ?_⟩
  have h3 := (htab.1 k (mem_classList k)).1
  have h4 := h0 k
  have : cnt s r c low k ≠ 0 := fun e => hk (h3.2 e)
  unfold cnt at *
  omega

theorem new_of_runs {s r c : Nat} {low : Bool} {order : Option (List String)} {classes : List HandClass}
    (hS : Shape s r c low) (hcomp : ∀ o, order = some o → ∀ x ∈ ORDER_STRINGS, x ∈ o)
    (ho : orderedClasses (classCount s r c low) order = .ok classes) (hn : classes.Nodup)
    (ha : ∀ k, k ∈ classes)
    (hz : ∀ k, bef s r c low classes k + cnt s r c low k = 0 ∨ 1 ≤ cnt s r c low k) (m : Int) :
    ∃ e, Evaluator.new s r c m low order = .ok e := by
  obtain ⟨su, un, un', h1, h2⟩ := table_runs hS hn ha hz
  exact new_of_tables hS hcomp ho hn ha h1 h2 m

theorem combinations_map {α β : Type} (f : α → β) (k : Nat) (xs : List α) :
    combinations k (xs.map f) = (combinations k xs).map (List.map f) := by
  induction xs generalizing k with
  | nil => cases k <;> simp [combinations]
  | cons x xs ih =>
    cases k with
    | zero => simp [combinations]
    | succ k => simp [combinations, ih, List.map_map, Function.comp_def]

theorem minLoop_map (t : Table) (f g : List (Nat × Nat) → List Card) (L : List (List (Nat × Nat))) (m : Int)
    (h : ∀ x ∈ L, t.lookup (f x) = t.lookup (g x)) : minLoop t (L.map f) m = minLoop t (L.map g) m := by
  induction L generalizing m with
  | nil => rfl
  | cons x L ih =>
    rw [List.map_cons, List.map_cons, minLoop, minLoop, h x (by simp)]
    cases t.lookup (g x) with
    | error e => rfl
    | ok v => exact ih _ (fun y hy => h y (by simp [hy]))

theorem sublist_pairs {ps : List (Nat × Nat)} {x : List Card}
    (h : x.Sublist (ps.map fun p => mkCard p.1 p.2)) :
    ∃ qs : List (Nat × Nat), qs.Sublist ps ∧ x = qs.map fun p => mkCard p.1 p.2 := by
  obtain ⟨qs, h1, h2⟩ := List.sublist_map_iff.1 h
  exact ⟨qs, h1, h2⟩

theorem codeOf_cls (k : HandKind) : codeOf (cls k) = k.code := by cases k <;> decide

end Clubs
