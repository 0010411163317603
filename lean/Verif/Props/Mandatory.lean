import Verif.Props.Evaluator

/-!
# C116: having to use hole cards
-/

namespace Clubs

open Spec

variable {s r c m : Int} {low : Bool} {order : Option (List String)} {e f : Evaluator} {hole comm : List Card}

/-- `evaluate` does not fail if the table knows every allowed selection -/
theorem evaluate_total (h0 : 0 ≤ e.mandatoryHoleCards) (h1 : e.mandatoryHoleCards ≤ e.cardsForHand)
    (h : ∀ sel, Selection e.cardsForHand e.mandatoryHoleCards hole comm sel → ∃ w, e.table.lookup sel = .ok w) :
    ∃ v, e.evaluate hole comm = .ok v := by
  obtain ⟨combs, hc⟩ := handCombs_ok hole comm h0 h1
  obtain ⟨v, hv⟩ := minLoop_total (t := e.table) (hs := combs) e.table.maxRank (fun x hx => h x ((mem_handCombs hc x).1 hx))
  exact ⟨v, by unfold Evaluator.evaluate; rw [hc]; exact hv⟩

/-- what one has to choose one may choose -/
theorem selection_free {n m : Int} {sel : List Card} (h : Selection n m hole comm sel) : Selection n 0 hole comm sel := by
  unfold Selection at h ⊢
  rw [if_pos rfl]
  split at h
  · exact h
  · obtain ⟨a, b, h1, h2, h3, h4, rfl⟩ := h
    refine ⟨h1.append h3, ?_⟩
    rw [List.length_append]
    push_cast
    omega

/-- **C116**: having to use `m` of the hole cards never improves a hand: the evaluator without mandatory hole cards finds a
value at least as good, or fails like the other one on cards that are not in the table. -/
theorem C116_free (he : Evaluator.new s r c 0 low order = .ok e) (hf : Evaluator.new s r c m low order = .ok f) (h0 : 0 ≤ m) (hm : m ≤ c)
    {v : Int} (hv : e.evaluate hole comm = .ok v) : ∃ w, f.evaluate hole comm = .ok w ∧ v ≤ w := by
  obtain ⟨t1, c1, m1, c2, -⟩ := Evaluator.new_table he
  obtain ⟨t2, c3, m2, -, -⟩ := Evaluator.new_table hf
  rw [t1] at t2
  have ht : e.table = f.table := by injection t2
  obtain ⟨a1, a2, a3⟩ := (C13_minimum e (by omega) (by omega) hole comm v).1 hv
  rw [c1, m1] at a1
  obtain ⟨w, hw⟩ := evaluate_total (e := f) (hole := hole) (comm := comm) (by omega) (by omega) (by
    intro sel hsel
    rw [c3, m2] at hsel
    obtain ⟨x, hx, -⟩ := a1 sel (selection_free hsel)
    exact ⟨x, by rw [← ht]; exact hx⟩)
  refine ⟨w, hw, ?_⟩
  obtain ⟨-, -, b3⟩ := (C13_minimum f (by omega) (by omega) hole comm w).1 hw
  rcases b3 with rfl | ⟨sel, hsel, hl⟩
  · rw [← ht]; exact a2
  · rw [c3, m2] at hsel
    obtain ⟨x, hx, hle⟩ := a1 sel (selection_free hsel)
    rw [ht, hl] at hx
    cases hx
    exact hle

/-- **C116**: who may use any cards has the best of what they would have if they had to use one, two, … hole cards, or
only the community cards. -/
theorem C116_best (he : Evaluator.new s r c 0 low order = .ok e) {v : Int} (hv : e.evaluate hole comm = .ok v) :
    e.evaluate [] comm = .ok v ∨
      ∃ m f, 1 ≤ m ∧ m ≤ c ∧ Evaluator.new s r c m low order = .ok f ∧ f.evaluate hole comm = .ok v := by
  obtain ⟨t1, c1, m1, c2, -⟩ := Evaluator.new_table he
  have hnew : ∀ m, Evaluator.new s r c m low order = .ok { e with mandatoryHoleCards := m } := by
    intro m
    unfold Evaluator.new at he ⊢
    split at he
    · cases he
    · rename_i hc
      rw [if_neg hc]
      rw [t1] at he ⊢
      simp only [] at he ⊢
      split at he
      · cases he
      · rename_i hz
        rw [if_neg hz]
        simp only [Except.ok.injEq] at he ⊢
        exact congrArg (fun x : Evaluator => { x with mandatoryHoleCards := m }) he
  obtain ⟨a1, a2, a3⟩ := (C13_minimum e (by omega) (by omega) hole comm v).1 hv
  rw [c1, m1] at a1 a3
  -- what the community cards alone give
  have board : ∃ w, e.evaluate [] comm = .ok w ∧ v ≤ w ∧ ∀ sel, sel.Sublist comm → (sel.length : Int) = c → ∀ x, e.table.lookup sel = .ok x → w ≤ x := by
    have hsel : ∀ sel, Selection c 0 [] comm sel → Selection c 0 hole comm sel := by
      intro sel h
      unfold Selection at h ⊢
      rw [if_pos rfl] at h ⊢
      exact ⟨h.1.trans (List.sublist_append_right hole comm), h.2⟩
    obtain ⟨w, hw⟩ := evaluate_total (e := e) (hole := []) (comm := comm) (by omega) (by omega) (by
      intro sel h
      rw [c1, m1] at h
      obtain ⟨x, hx, -⟩ := a1 sel (hsel sel h)
      exact ⟨x, hx⟩)
    obtain ⟨b1, -, b3⟩ := (C13_minimum e (by omega) (by omega) [] comm w).1 hw
    rw [c1, m1] at b1 b3
    refine ⟨w, hw, ?_, ?_⟩
    · rcases b3 with rfl | ⟨sel, h1, h2⟩
      · exact a2
      · obtain ⟨x, hx, hle⟩ := a1 sel (hsel sel h1)
        rw [h2] at hx
        cases hx
        exact hle
    · intro sel h1 h2 x hx
      obtain ⟨y, hy, hle⟩ := b1 sel (by unfold Selection; rw [if_pos rfl]; exact ⟨h1, h2⟩)
      rw [hx] at hy
      cases hy
      exact hle
  obtain ⟨w, hw, hvw, hmin⟩ := board
  rcases a3 with hmax | ⟨sel, hsel, hl⟩
  · left
    have : w ≤ e.table.maxRank := ((C13_minimum e (by omega) (by omega) [] comm w).1 hw).2.1
    rw [hw]
    congr 1
    omega
  · unfold Selection at hsel
    rw [if_pos rfl] at hsel
    obtain ⟨a, b, rfl, ha, hb⟩ := List.sublist_append_iff.1 hsel.1
    have hlen := hsel.2
    rw [List.length_append] at hlen
    push_cast at hlen
    by_cases hk : a = []
    · subst hk
      left
      have := hmin b hb (by simpa using hlen) v hl
      rw [hw]
      congr 1
      omega
    · right
      have hpos : 0 < a.length := List.length_pos_iff.2 hk
      obtain ⟨x, hx, hle⟩ := C116_free he (hnew a.length) (by omega) (by omega) hv
      refine ⟨a.length, _, by omega, by omega, hnew a.length, ?_⟩
      obtain ⟨b1, -, -⟩ := (C13_minimum { e with mandatoryHoleCards := (a.length : Int) } (by simp) (by simp only; omega) hole comm x).1 hx
      obtain ⟨y, hy, hle'⟩ := b1 (a ++ b) (by
        simp only [c1]
        unfold Selection
        rw [if_neg (by omega)]
        exact ⟨a, b, ha, rfl, hb, by omega, rfl⟩)
      simp only [hl] at hy
      cases hy
      rw [hx]
      congr 1
      omega

/-- **C116**: without mandatory hole cards it does not matter which cards are in the hole and which on the table. -/
theorem C116_where (h0 : e.mandatoryHoleCards = 0) {hole' comm' : List Card} (h : (hole ++ comm).Perm (hole' ++ comm')) :
    e.evaluate hole comm = e.evaluate hole' comm' := by
  have key : ∀ hole comm, e.evaluate hole comm = e.evaluate (hole ++ comm) [] := by
    intro hole comm
    unfold Evaluator.evaluate Evaluator.handCombs
    rw [if_neg (by simp [h0]), if_neg (by simp [h0]), List.append_nil]
  rw [key hole comm, key hole' comm']
  exact C12_evaluate_order e _ _ _ _ h (.refl _)

/-- **C116**: with exactly the mandatory number of hole cards and exactly as many community cards as are needed, there is no choice, and
the evaluator says the same as the one without mandatory hole cards. -/
theorem C116_no_choice (he : Evaluator.new s r c 0 low order = .ok e) (hf : Evaluator.new s r c m low order = .ok f) (h0 : 0 ≤ m) (hm : m ≤ c)
    (hh : (hole.length : Int) = m) (hc : (comm.length : Int) = c - m) {v : Int} (hv : e.evaluate hole comm = .ok v) :
    f.evaluate hole comm = .ok v := by
  obtain ⟨t1, c1, m1, c2, -⟩ := Evaluator.new_table he
  obtain ⟨t2, c3, m2, -, -⟩ := Evaluator.new_table hf
  rw [t1] at t2
  have ht : e.table = f.table := by injection t2
  have hall : ∀ sel, Selection c 0 hole comm sel → Selection c m hole comm sel := by
    intro sel h
    unfold Selection at h ⊢
    rw [if_pos rfl] at h
    split
    · exact h
    · have : sel = hole ++ comm := h.1.eq_of_length (by rw [List.length_append]; have := h.2; omega)
      exact ⟨hole, comm, .refl _, hh, .refl _, hc, this⟩
  obtain ⟨w, hw, hle⟩ := C116_free he hf h0 hm hv
  obtain ⟨b1, b2, -⟩ := (C13_minimum f (by omega) (by omega) hole comm w).1 hw
  rw [c3, m2] at b1
  obtain ⟨-, -, a3⟩ := (C13_minimum e (by omega) (by omega) hole comm v).1 hv
  rw [c1, m1] at a3
  have : w ≤ v := by
    rcases a3 with h | ⟨sel, h1, h2⟩
    · rw [h, ht]; exact b2
    · obtain ⟨x, hx, hl⟩ := b1 sel (hall sel h1)
      rw [← ht, h2] at hx
      cases hx
      exact hl
  rw [hw]
  congr 1
  omega

/-- one card in the hole, one on the table -/
example : ∃ e f, Evaluator.new 2 3 2 0 false none = .ok e ∧ Evaluator.new 2 3 2 1 false none = .ok f ∧
    e.evaluate [mkCard 11 0] [mkCard 11 1] = .ok 1 ∧ ([mkCard 11 0].length : Int) = 1 ∧ ([mkCard 11 1].length : Int) = 2 - 1 := by
  obtain ⟨e, he⟩ := (C09_exact_partial 2 3 2 (by omega) (by omega) (by omega) 0 false).2 (by simp)
  obtain ⟨f, hf⟩ := (C09_exact_partial 2 3 2 (by omega) (by omega) (by omega) 1 false).2 (by simp)
  have he' : Evaluator.new 2 3 2 0 false none = .ok e := he
  have h1 : (Evaluator.new 2 3 2 0 false none).bind (fun e => e.evaluate [mkCard 11 0] [mkCard 11 1]) = .ok 1 := by decide +kernel
  rw [he'] at h1
  exact ⟨e, f, he', hf, h1, rfl, rfl⟩

/-- the queen is in the hole or on the table -/
example : ∃ e, Evaluator.new 2 3 2 0 false none = .ok e ∧ e.mandatoryHoleCards = 0 ∧
    ([mkCard 10 0] ++ [mkCard 12 0, mkCard 12 1]).Perm ([mkCard 12 1] ++ [mkCard 12 0, mkCard 10 0]) := by
  obtain ⟨e, he⟩ := (C09_exact_partial 2 3 2 (by omega) (by omega) (by omega) 0 false).2 (by simp)
  exact ⟨e, he, (Evaluator.new_table he).2.2.1, by decide⟩

/-- a king in the hole and two aces on the table, hands of two cards: who has to use the king has no pair -/
example : ∃ e f v w, Evaluator.new 2 3 2 0 false none = .ok e ∧ Evaluator.new 2 3 2 1 false none = .ok f ∧
    e.evaluate [mkCard 11 0] [mkCard 12 0, mkCard 12 1] = .ok v ∧ f.evaluate [mkCard 11 0] [mkCard 12 0, mkCard 12 1] = .ok w ∧ v < w := by
  obtain ⟨e, he⟩ := (C09_exact_partial 2 3 2 (by omega) (by omega) (by omega) 0 false).2 (by simp)
  obtain ⟨f, hf⟩ := (C09_exact_partial 2 3 2 (by omega) (by omega) (by omega) 1 false).2 (by simp)
  have he' : Evaluator.new 2 3 2 0 false none = .ok e := he
  have hf' : Evaluator.new 2 3 2 1 false none = .ok f := hf
  have h1 : (Evaluator.new 2 3 2 0 false none).bind (fun e => e.evaluate [mkCard 11 0] [mkCard 12 0, mkCard 12 1]) = .ok 0 := by decide +kernel
  have h2 : (Evaluator.new 2 3 2 1 false none).bind (fun e => e.evaluate [mkCard 11 0] [mkCard 12 0, mkCard 12 1]) = .ok 4 := by decide +kernel
  rw [he'] at h1
  rw [hf'] at h2
  exact ⟨e, f, 0, 4, he', hf', h1, h2, by omega⟩

end Clubs
