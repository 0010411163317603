import Verif.Spec.Better
import Mathlib.Algebra.Order.BigOperators.Group.Finset
import Mathlib.Tactic.Ring
import Mathlib.Tactic.Linarith
import Mathlib.Tactic.Positivity

/-! # A better hand and the division of the pots -/

namespace Clubs

open Spec Finset

variable {n j : Nat} {act : Nat → Bool} {c s s' : Nat → Int}

theorem mem_winners {t i : Nat} : i ∈ winners n act c s t ↔
    i < n ∧ act i = true ∧ (t : Int) < c i ∧ ∀ k < n, act k = true → (t : Int) < c k → s i ≤ s k := by
  unfold winners; rw [mem_filter, mem_range]

/-- what a strictly better hand does to the winners of a layer -/
theorem winners_better (h : s' j < s j) (ho : ∀ i, i ≠ j → s' i = s i) (t : Nat) :
    (j ∈ winners n act c s t → winners n act c s' t = {j}) ∧
    (j ∉ winners n act c s t → winners n act c s' t = winners n act c s t ∨
      winners n act c s' t = insert j (winners n act c s t) ∨ winners n act c s' t = {j}) := by
  by_cases hj : j < n ∧ act j = true ∧ (t : Int) < c j
  · obtain ⟨j1, j2, j3⟩ := hj
    constructor
    · intro hw
      have hw := (mem_winners.1 hw).2.2.2
      ext i
      rw [mem_singleton, mem_winners]
      constructor
      · rintro ⟨h1, h2, h3, h4⟩
        by_contra hi
        have := h4 j j1 j2 j3
        have := hw i h1 h2 h3
        rw [ho i hi] at *
        omega
      · rintro rfl
        refine ⟨j1, j2, j3, fun k k1 k2 k3 => ?_⟩
        by_cases hk : k = i
        · rw [hk]
        · have := hw k k1 k2 k3
          rw [ho k hk]; omega
    · intro hw
      by_cases hb : ∃ k, k ≠ j ∧ k < n ∧ act k = true ∧ (t : Int) < c k ∧ s k < s' j
      · left
        obtain ⟨k, k0, k1, k2, k3, k4⟩ := hb
        ext i
        rw [mem_winners, mem_winners]
        constructor
        · rintro ⟨h1, h2, h3, h4⟩
          have hij : i ≠ j := by rintro rfl; have := h4 k k1 k2 k3; rw [ho k k0] at this; omega
          refine ⟨h1, h2, h3, fun l l1 l2 l3 => ?_⟩
          have h5 := h4 l l1 l2 l3
          rw [ho i hij] at h5
          by_cases hl : l = j
          · subst hl; omega
          · rwa [ho l hl] at h5
        · rintro ⟨h1, h2, h3, h4⟩
          have hij : i ≠ j := by rintro rfl; have := h4 k k1 k2 k3; omega
          refine ⟨h1, h2, h3, fun l l1 l2 l3 => ?_⟩
          rw [ho i hij]
          by_cases hl : l = j
          · subst hl; have := h4 k k1 k2 k3; omega
          · rw [ho l hl]; exact h4 l l1 l2 l3
      · right
        have hb : ∀ k, k ≠ j → k < n → act k = true → (t : Int) < c k → s' j ≤ s k := by
          intro k k0 k1 k2 k3
          by_contra hx
          exact hb ⟨k, k0, k1, k2, k3, by omega⟩
        by_cases hq : ∃ k, k ≠ j ∧ k < n ∧ act k = true ∧ (t : Int) < c k ∧ s k = s' j
        · left
          obtain ⟨k, k0, k1, k2, k3, k4⟩ := hq
          ext i
          rw [mem_insert, mem_winners, mem_winners]
          constructor
          · rintro ⟨h1, h2, h3, h4⟩
            by_cases hij : i = j
            · exact .inl hij
            · right
              refine ⟨h1, h2, h3, fun l l1 l2 l3 => ?_⟩
              have h5 := h4 j j1 j2 j3
              rw [ho i hij] at h5
              by_cases hl : l = j
              · subst hl; omega
              · have := hb l hl l1 l2 l3; omega
          · rintro (rfl | ⟨h1, h2, h3, h4⟩)
            · refine ⟨j1, j2, j3, fun l l1 l2 l3 => ?_⟩
              by_cases hl : l = i
              · rw [hl]
              · rw [ho l hl]; exact hb l hl l1 l2 l3
            · have hij : i ≠ j := by rintro rfl; have := h4 k k1 k2 k3; omega
              refine ⟨h1, h2, h3, fun l l1 l2 l3 => ?_⟩
              have := h4 k k1 k2 k3
              rw [ho i hij]
              by_cases hl : l = j
              · subst hl; omega
              · rw [ho l hl]; have := hb l hl l1 l2 l3; omega
        · right
          ext i
          rw [mem_singleton, mem_winners]
          constructor
          · rintro ⟨h1, h2, h3, h4⟩
            by_contra hij
            have h5 := h4 j j1 j2 j3
            rw [ho i hij] at h5
            have := hb i hij h1 h2 h3
            exact hq ⟨i, hij, h1, h2, h3, by omega⟩
          · rintro rfl
            refine ⟨j1, j2, j3, fun l l1 l2 l3 => ?_⟩
            by_cases hl : l = i
            · rw [hl]
            · rw [ho l hl]; exact hb l hl l1 l2 l3
  · have hsame : winners n act c s' t = winners n act c s t := by
      ext i
      rw [mem_winners, mem_winners]
      have key : i < n → act i = true → (t : Int) < c i → i ≠ j := by
        rintro h1 h2 h3 rfl; exact hj ⟨h1, h2, h3⟩
      constructor
      · rintro ⟨h1, h2, h3, h4⟩
        refine ⟨h1, h2, h3, fun l l1 l2 l3 => ?_⟩
        have h5 := h4 l l1 l2 l3
        rwa [ho i (key h1 h2 h3), ho l (by rintro rfl; exact hj ⟨l1, l2, l3⟩)] at h5
      · rintro ⟨h1, h2, h3, h4⟩
        refine ⟨h1, h2, h3, fun l l1 l2 l3 => ?_⟩
        rw [ho i (key h1 h2 h3), ho l (by rintro rfl; exact hj ⟨l1, l2, l3⟩)]
        exact h4 l l1 l2 l3
    refine ⟨fun hw => absurd (mem_winners.1 hw) fun hx => hj ⟨hx.1, hx.2.1, hx.2.2.1⟩, fun _ => .inl hsame⟩

/-! ## sums over pots -/

/-- the chips of the layers that `W` wins with `s` and `V` with `s'` -/
def movedChips (n : Nat) (act : Nat → Bool) (c s s' : Nat → Int) (W V : Finset Nat) : Int :=
  ∑ t ∈ range (numLayers n c), if winners n act c s t = W ∧ winners n act c s' t = V then layer n c t else 0

theorem chips_nonneg (t : Nat) : 0 ≤ layer n c t := by unfold layer; omega

theorem movedChips_nonneg (W V : Finset Nat) : 0 ≤ movedChips n act c s s' W V := by
  refine sum_nonneg fun t _ => ?_
  split_ifs
  · exact chips_nonneg t
  · rfl

theorem winners_sub (t : Nat) : winners n act c s t ∈ (range n).powerset := mem_powerset.2 (filter_subset _ _)

theorem potOf_movedChips (W : Finset Nat) : potOf n act c s W = ∑ V ∈ (range n).powerset, movedChips n act c s s' W V := by
  unfold potOf movedChips
  rw [sum_comm]
  refine sum_congr rfl fun t _ => ?_
  by_cases h : winners n act c s t = W
  · simp only [h, true_and, if_true]
    rw [sum_ite_eq, if_pos (winners_sub t)]
  · simp [h]

theorem potOf_movedChips' (V : Finset Nat) : potOf n act c s' V = ∑ W ∈ (range n).powerset, movedChips n act c s s' W V := by
  unfold potOf movedChips
  rw [sum_comm]
  refine sum_congr rfl fun t _ => ?_
  by_cases h : winners n act c s' t = V
  · simp only [h, and_true, if_true]
    rw [sum_ite_eq, if_pos (winners_sub t)]
  · simp [h]

theorem movedChips_zero {W V : Finset Nat} (h : ∀ t, winners n act c s t = W → winners n act c s' t ≠ V) : movedChips n act c s s' W V = 0 :=
  sum_eq_zero fun t _ => if_neg fun hx => h t hx.1 hx.2

/-- A quantity that is computed pot by pot does not become smaller. -/
theorem pots_better (h : s' j < s j) (ho : ∀ i, i ≠ j → s' i = s i) (hj : j < n) {g : Finset Nat → Int → Int} (g0 : ∀ V, g V 0 = 0)
    (gj : ∀ P, g {j} P = P) (gle : ∀ W P, j ∈ W → 0 ≤ P → g W P ≤ P)
    (gs : ∀ W A B C, j ∉ W → 0 ≤ A → 0 ≤ B → 0 ≤ C → g W (A + B + C) ≤ g W A + g (insert j W) B + C) :
    ∑ W ∈ (range n).powerset, g W (potOf n act c s W) ≤ ∑ V ∈ (range n).powerset, g V (potOf n act c s' V) := by
  have hjs : {j} ∈ (range n).powerset := by rw [mem_powerset, singleton_subset_iff, mem_range]; exact hj
  have wb := winners_better (n := n) (act := act) (c := c) h ho
  have e1 : ∀ V ∈ (range n).powerset, g V (potOf n act c s' V) = ∑ W ∈ (range n).powerset, g V (movedChips n act c s s' W V) := by
    intro V hV
    rw [potOf_movedChips' (s := s)]
    by_cases hVj : V = {j}
    · subst hVj
      simp only [gj]
    · have huniq : ∃ U ∈ (range n).powerset, ∀ W, W ≠ U → movedChips n act c s s' W V = 0 := by
        by_cases hm : j ∈ V
        · refine ⟨V.erase j, mem_powerset.2 ((erase_subset _ _).trans (mem_powerset.1 hV)), fun W hW => movedChips_zero ?_⟩
          rintro t rfl hx
          by_cases hw : j ∈ winners n act c s t
          · exact hVj (hx ▸ (wb t).1 hw)
          · rcases (wb t).2 hw with h1 | h1 | h1
            · rw [hx] at h1; rw [← h1] at hw; exact hw hm
            · rw [hx] at h1; rw [h1, erase_insert hw] at hW; exact hW rfl
            · rw [hx] at h1; exact hVj h1
        · refine ⟨V, hV, fun W hW => movedChips_zero ?_⟩
          rintro t rfl hx
          by_cases hw : j ∈ winners n act c s t
          · exact hVj (hx ▸ (wb t).1 hw)
          · rcases (wb t).2 hw with h1 | h1 | h1
            · rw [hx] at h1; exact hW h1.symm
            · rw [hx] at h1; exact hm (h1 ▸ mem_insert_self _ _)
            · rw [hx] at h1; exact hVj h1
      obtain ⟨U, hU, hz⟩ := huniq
      rw [sum_eq_single U (fun W _ hW => hz W hW) (fun hx => absurd hU hx),
        sum_eq_single U (fun W _ hW => by rw [hz W hW, g0]) (fun hx => absurd hU hx)]
  rw [sum_congr rfl e1, sum_comm]
  refine sum_le_sum fun W hW => ?_
  have nn : ∀ V, 0 ≤ movedChips n act c s s' W V := fun V => movedChips_nonneg W V
  rw [potOf_movedChips (s' := s')]
  by_cases hw : j ∈ W
  · have hz : ∀ V, V ≠ {j} → movedChips n act c s s' W V = 0 := fun V hV => movedChips_zero (by
      rintro t rfl hx
      exact hV (hx ▸ (wb t).1 hw))
    rw [sum_eq_single {j} (fun V _ hV => hz V hV) (fun hx => absurd hjs hx),
      sum_eq_single {j} (fun V _ hV => by rw [hz V hV, g0]) (fun hx => absurd hjs hx), gj]
    exact gle W _ hw (nn _)
  · have hz : ∀ V, V ≠ W → V ≠ insert j W → V ≠ {j} → movedChips n act c s s' W V = 0 := fun V h1 h2 h3 => movedChips_zero (by
      rintro t rfl hx
      rcases (wb t).2 hw with h4 | h4 | h4
      · exact h1 (hx ▸ h4)
      · exact h2 (hx ▸ h4)
      · exact h3 (hx ▸ h4))
    have hins : insert j W ∈ (range n).powerset := by
      rw [mem_powerset, insert_subset_iff, mem_range]; exact ⟨hj, mem_powerset.1 hW⟩
    have hWj : W ≠ {j} := by rintro rfl; exact hw (mem_singleton_self j)
    have hWi : W ≠ insert j W := fun e => hw (e ▸ mem_insert_self j W)
    by_cases hij : insert j W = {j}
    · have sub : ({W, {j}} : Finset (Finset Nat)) ⊆ (range n).powerset := by
        intro V hV
        rcases mem_insert.1 hV with rfl | hV
        · exact hW
        · rw [mem_singleton.1 hV]; exact hjs
      have out : ∀ V ∈ (range n).powerset, V ∉ ({W, {j}} : Finset (Finset Nat)) → movedChips n act c s s' W V = 0 := by
        intro V _ hV
        rw [mem_insert, mem_singleton, not_or] at hV
        exact hz V hV.1 (by rw [hij]; exact hV.2) hV.2
      rw [← sum_subset sub out, ← sum_subset sub (fun V h1 h2 => by rw [out V h1 h2, g0]), sum_pair hWj, sum_pair hWj, gj]
      have := gs W (movedChips n act c s s' W W) 0 (movedChips n act c s s' W {j}) hw (nn _) le_rfl (nn _)
      rw [g0] at this
      simpa using this
    · have sub : ({W, insert j W, {j}} : Finset (Finset Nat)) ⊆ (range n).powerset := by
        intro V hV
        rcases mem_insert.1 hV with rfl | hV
        · exact hW
        · rcases mem_insert.1 hV with rfl | hV
          · exact hins
          · rw [mem_singleton.1 hV]; exact hjs
      have out : ∀ V ∈ (range n).powerset, V ∉ ({W, insert j W, {j}} : Finset (Finset Nat)) → movedChips n act c s s' W V = 0 := by
        intro V _ hV
        rw [mem_insert, mem_insert, mem_singleton, not_or, not_or] at hV
        exact hz V hV.1 hV.2.1 hV.2.2
      have hni : W ∉ ({insert j W, {j}} : Finset (Finset Nat)) := by
        rw [mem_insert, mem_singleton, not_or]; exact ⟨hWi, hWj⟩
      rw [← sum_subset sub out, ← sum_subset sub (fun V h1 h2 => by rw [out V h1 h2, g0]), sum_insert hni, sum_insert hni,
        sum_pair hij, sum_pair hij, gj, ← add_assoc, ← add_assoc]
      exact gs W _ _ _ hw (nn _) (nn _) (nn _)

/-- **a better hand is due at least as much** -/
theorem due_better (h : Improves j s s') (hj : j < n) : due n act c s j ≤ due n act c s' j := by
  rcases h.1.lt_or_eq with hlt | heq
  · unfold due
    refine pots_better hlt h.2 hj (g := fun W P => if j ∈ W then P / (W.card : Int) else 0) (fun V => by simp)
      (fun P => by simp) (fun W P hW hP => ?_) (fun W A B C hW hA hB hC => ?_)
    · rw [if_pos hW]
      exact Int.ediv_le_self _ hP
    · simp only [if_neg hW, if_pos (mem_insert_self j W)]
      have := Int.ediv_nonneg hB (b := ((insert j W).card : Int)) (by omega)
      omega
  · have : s' = s := funext fun i => by by_cases hi : i = j; exacts [hi ▸ heq, h.2 i hi]
    rw [this]

/-- and at least as much together with the odd chips -/
theorem due_odd_better (h : Improves j s s') (hj : j < n) :
    due n act c s j + odd n act c s ≤ due n act c s' j + odd n act c s' := by
  rcases h.1.lt_or_eq with hlt | heq
  · unfold due odd
    rw [← sum_add_distrib, ← sum_add_distrib]
    refine pots_better hlt h.2 hj (g := fun W P => (if j ∈ W then P / (W.card : Int) else 0) + P % (W.card : Int)) (fun V => by simp)
      (fun P => by simp) (fun W P hW hP => ?_) (fun W A B C hW hA hB hC => ?_)
    · simp only [if_pos hW]
      have hc : 0 < (W.card : Int) := by exact_mod_cast card_pos.2 ⟨j, hW⟩
      have h1 := Int.mul_ediv_add_emod P W.card
      have h2 := Int.ediv_nonneg hP hc.le
      nlinarith
    · simp only [if_neg hW, if_pos (mem_insert_self j W), zero_add, card_insert_of_notMem hW]
      push_cast
      generalize hk : (W.card : Int) = k
      have hk0 : 0 ≤ k := by omega
      have hB2 := Int.mul_ediv_add_emod B (k + 1)
      have hB3 := Int.emod_nonneg B (show k + 1 ≠ 0 by omega)
      have hB4 := Int.ediv_nonneg hB (show 0 ≤ k + 1 by omega)
      rcases hk0.eq_or_lt with rfl | hpos
      · simp only [Int.emod_zero, zero_add, Int.ediv_one, Int.emod_one]
        omega
      · have hA := Int.mul_ediv_add_emod A k
        have hA3 := Int.emod_nonneg A hpos.ne'
        have key : (A + B + C) % k = (A % k + (B / (k + 1) + B % (k + 1)) + C) % k := by
          have e : A + B + C = (A % k + (B / (k + 1) + B % (k + 1)) + C) + k * (A / k + B / (k + 1)) := by
            have h1 : A = k * (A / k) + A % k := hA.symm
            have h2 : B = (k + 1) * (B / (k + 1)) + B % (k + 1) := hB2.symm
            generalize A / k = a at *
            generalize A % k = a' at *
            generalize B / (k + 1) = b at *
            generalize B % (k + 1) = b' at *
            rw [h1, h2]; ring
          rw [e, Int.add_mul_emod_self_left]
        rw [key]
        generalize hx : A % k + (B / (k + 1) + B % (k + 1)) + C = x
        have h1 := Int.mul_ediv_add_emod x k
        have h2 := Int.ediv_nonneg (show 0 ≤ x by omega) hpos.le
        nlinarith
  · have : s' = s := funext fun i => by by_cases hi : i = j; exacts [hi ▸ heq, h.2 i hi]
    rw [this]

/-- whoever wins with the better hand of `j` is `j` or won before; and `j` still wins where it won -/
theorem wins_better (h : Improves j s s') {i t : Nat} (hi : i ∈ winners n act c s' t) : i = j ∨ i ∈ winners n act c s t := by
  rcases h.1.lt_or_eq with hlt | heq
  · have wb := winners_better (n := n) (act := act) (c := c) hlt h.2 t
    by_cases hw : j ∈ winners n act c s t
    · rw [wb.1 hw] at hi; exact .inl (mem_singleton.1 hi)
    · rcases wb.2 hw with h1 | h1 | h1
      · rw [h1] at hi; exact .inr hi
      · rw [h1] at hi; exact mem_insert.1 hi
      · rw [h1] at hi; exact .inl (mem_singleton.1 hi)
  · have : s' = s := funext fun i => by by_cases hi : i = j; exacts [hi ▸ heq, h.2 i hi]
    rw [this] at hi
    exact .inr hi

theorem wins_still (h : Improves j s s') {t : Nat} (hi : j ∈ winners n act c s t) : j ∈ winners n act c s' t := by
  rcases h.1.lt_or_eq with hlt | heq
  · rw [(winners_better (n := n) (act := act) (c := c) hlt h.2 t).1 hi]; exact mem_singleton_self j
  · have : s' = s := funext fun i => by by_cases hi : i = j; exacts [hi ▸ heq, h.2 i hi]
    rwa [this]

theorem winners_fewer (h : Improves j s s') {i t : Nat} (hij : i ≠ j) (hi : i ∈ winners n act c s' t) :
    winners n act c s t ⊆ winners n act c s' t := by
  rcases h.1.lt_or_eq with hlt | heq
  · have wb := winners_better (n := n) (act := act) (c := c) hlt h.2 t
    by_cases hw : j ∈ winners n act c s t
    · rw [wb.1 hw] at hi; exact absurd (mem_singleton.1 hi) hij
    · rcases wb.2 hw with h1 | h1 | h1
      · rw [h1]
      · rw [h1]; exact subset_insert _ _
      · rw [h1] at hi; exact absurd (mem_singleton.1 hi) hij
  · have : s' = s := funext fun i => by by_cases hi : i = j; exacts [hi ▸ heq, h.2 i hi]
    rw [this]

theorem winners_more (h : Improves j s s') {t : Nat} (hi : j ∈ winners n act c s t) :
    winners n act c s' t ⊆ winners n act c s t := by
  intro i hx
  rcases wins_better h hx with rfl | h1
  · exact hi
  · exact h1

/-- layer by layer: a better hand gains, and nobody else does -/
theorem fairShare_better (h : Improves j s s') : fairShare n act c s j ≤ fairShare n act c s' j := by
  unfold fairShare
  refine sum_le_sum fun t _ => ?_
  have hl : (0 : Rat) ≤ layer n c t := by exact_mod_cast chips_nonneg t
  by_cases hw : j ∈ winners n act c s t
  · rw [if_pos hw, if_pos (wins_still h hw)]
    refine div_le_div_of_nonneg_left hl ?_ ?_
    · exact_mod_cast card_pos.2 ⟨j, wins_still h hw⟩
    · exact_mod_cast card_le_card (winners_more h hw)
  · rw [if_neg hw]
    split_ifs
    · positivity
    · rfl

theorem fairShare_others (h : Improves j s s') {i : Nat} (hij : i ≠ j) : fairShare n act c s' i ≤ fairShare n act c s i := by
  unfold fairShare
  refine sum_le_sum fun t _ => ?_
  have hl : (0 : Rat) ≤ layer n c t := by exact_mod_cast chips_nonneg t
  by_cases hw : i ∈ winners n act c s' t
  · rcases wins_better h hw with h1 | h1
    · exact absurd h1 hij
    rw [if_pos hw, if_pos h1]
    refine div_le_div_of_nonneg_left hl ?_ ?_
    · exact_mod_cast card_pos.2 ⟨i, h1⟩
    · exact_mod_cast card_le_card (winners_fewer h hij hw)
  · rw [if_neg hw]
    split_ifs
    · positivity
    · rfl

end Clubs
