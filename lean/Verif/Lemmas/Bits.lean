import Verif.Model.Evaluator
import Verif.Spec.Hands
import Mathlib.Data.Nat.Choose.Basic
import Mathlib.Tactic.Ring
import Mathlib.Data.Nat.Bitwise
import Mathlib.Tactic.Positivity
import Mathlib.Tactic.Linarith

/-! Helper lemmas: the bit-pattern generator. -/

namespace Clubs

/-- every positive number: `h`, then a zero, then `b ≥ 1` ones, then `a` zeros -/
theorem odd_form (m : Nat) : ∃ b h, 1 ≤ b ∧ 2 * m + 1 = h * 2 ^ (b + 1) + (2 ^ b - 1) := by
  induction m using Nat.strong_induction_on with
  | _ m ih =>
    rcases Nat.even_or_odd' m with ⟨j, rfl | rfl⟩
    · exact ⟨1, j, le_refl _, by omega⟩
    · obtain ⟨b, h, hb, e⟩ := ih j (by omega)
      refine ⟨b + 1, h, by omega, ?_⟩
      have h1 : 2 * (2 * j + 1) + 1 = 2 * (h * 2 ^ (b + 1) + (2 ^ b - 1)) + 1 := by rw [e]
      have h2 : 1 ≤ 2 ^ b := Nat.one_le_two_pow
      have h3 : h * 2 ^ (b + 1 + 1) = 2 * (h * 2 ^ (b + 1)) := by ring
      have h4 : 2 ^ (b + 1) = 2 * 2 ^ b := by ring
      omega

theorem pos_form (x : Nat) (hx : 0 < x) :
    ∃ a b h, 1 ≤ b ∧ x = h * 2 ^ (a + b + 1) + (2 ^ b - 1) * 2 ^ a := by
  induction x using Nat.strong_induction_on with
  | _ x ih =>
    rcases Nat.even_or_odd' x with ⟨j, rfl | rfl⟩
    · obtain ⟨a, b, h, hb, e⟩ := ih j (by omega) (by omega)
      refine ⟨a + 1, b, h, hb, ?_⟩
      rw [e]; ring
    · obtain ⟨b, h, hb, e⟩ := odd_form j
      exact ⟨0, b, h, hb, by rw [e]; simp⟩

theorem lowBit_eq (a m : Nat) : lowBit ((2 * m + 1) * 2 ^ a) = 2 ^ a := by
  unfold lowBit
  generalize hx : (2 * m + 1) * 2 ^ a = x
  have hpos : 0 < x := by rw [← hx]; positivity
  have hlt : x < 2 ^ (x.log2 + 1) := Nat.lt_log2_self
  have ha : a < x.log2 + 1 := by
    by_contra hcon
    have : 2 ^ (x.log2 + 1) ≤ 2 ^ a := Nat.pow_le_pow_right (by omega) (by omega)
    have : 2 ^ a ≤ x := by rw [← hx]; nlinarith [Nat.one_le_two_pow (n := a)]
    omega
  generalize x.log2 + 1 = L at *
  apply Nat.eq_of_testBit_eq
  intro i
  rw [Nat.testBit_and, Nat.testBit_two_pow]
  have e : 2 ^ L - x = 2 ^ L - ((x - 1) + 1) := by omega
  rw [e, Nat.testBit_two_pow_sub_succ (by omega)]
  have hx1 : x = 2 ^ a * (2 * m + 1) + 0 := by rw [← hx]; ring
  have hx2 : x - 1 = 2 ^ a * (2 * m) + (2 ^ a - 1) := by
    have := Nat.one_le_two_pow (n := a)
    have : 2 ^ a * (2 * m + 1) = 2 ^ a * (2 * m) + 2 ^ a := by ring
    omega
  rw [hx2]
  conv_lhs => rw [hx1]
  rw [Nat.testBit_two_pow_mul_add _ (by positivity),
    Nat.testBit_two_pow_mul_add _ (by have := Nat.one_le_two_pow (n := a); omega)]
  by_cases hi : i < a
  · simp [hi]; omega
  · simp only [hi, if_false]
    rcases Nat.lt_or_ge a i with h | h
    · obtain ⟨j, hj⟩ : ∃ j, i - a = j + 1 := ⟨i - a - 1, by omega⟩
      rw [hj, Nat.testBit_succ, Nat.testBit_succ]
      rw [show (2 * m + 1) / 2 = m by omega, show 2 * m / 2 = m by omega]
      have : ¬ a = i := by omega
      cases m.testBit j <;> simp [this]
    · have : a = i := by omega
      subst this
      simp [ha]

theorem nextBits_form (a b h : Nat) (hb : 1 ≤ b) :
    nextBits (h * 2 ^ (a + b + 1) + (2 ^ b - 1) * 2 ^ a)
      = h * 2 ^ (a + b + 1) + 2 ^ (a + b) + (2 ^ (b - 1) - 1) := by
  obtain ⟨b, rfl⟩ : ∃ c, b = c + 1 := ⟨b - 1, by omega⟩
  have h2 : 1 ≤ 2 ^ b := Nat.one_le_two_pow
  have ha2 : 1 ≤ 2 ^ a := Nat.one_le_two_pow
  generalize hx : h * 2 ^ (a + (b + 1) + 1) + (2 ^ (b + 1) - 1) * 2 ^ a = x
  -- x is odd times 2^a
  have e1 : x = (2 * (h * 2 ^ (b + 1) + (2 ^ b - 1)) + 1) * 2 ^ a := by
    rw [← hx]
    have e : 2 ^ (b + 1) - 1 = 2 * (2 ^ b - 1) + 1 := by
      have : 2 ^ (b + 1) = 2 * 2 ^ b := by ring
      omega
    rw [e]; ring
  have hor : x ||| (x - 1) = h * 2 ^ (a + (b + 1) + 1) + (2 ^ (a + (b + 1)) - 1) := by
    have hx1 : x = 2 ^ (a + (b + 1) + 1) * h + (2 ^ (b + 1) - 1) * 2 ^ a := by rw [← hx]; ring
    have hlow : (2 ^ (b + 1) - 1) * 2 ^ a = 2 ^ (a + (b + 1)) - 2 ^ a := by
      rw [Nat.sub_mul]; congr 1 <;> ring
    have hge : 2 * 2 ^ a ≤ 2 ^ (a + (b + 1)) := by
      have : 2 ^ (a + (b + 1)) = 2 * 2 ^ a * 2 ^ b := by ring
      nlinarith
    have hbig : 2 ^ (a + (b + 1) + 1) = 2 * 2 ^ (a + (b + 1)) := by ring
    have hx2 : x - 1 = 2 ^ (a + (b + 1) + 1) * h + ((2 ^ (b + 1) - 1) * 2 ^ a - 1) := by omega
    have hz : (2 ^ (b + 1) - 1) * 2 ^ a ||| ((2 ^ (b + 1) - 1) * 2 ^ a - 1)
        = 2 ^ (a + (b + 1)) - 1 := by
      apply Nat.eq_of_testBit_eq
      intro i
      rw [Nat.testBit_or, Nat.testBit_two_pow_sub_one]
      have y1 : (2 ^ (b + 1) - 1) * 2 ^ a = 2 ^ a * (2 ^ (b + 1) - 1) + 0 := by ring
      have y2 : (2 ^ (b + 1) - 1) * 2 ^ a - 1 = 2 ^ a * (2 ^ (b + 1) - 2) + (2 ^ a - 1) := by
        have : 2 ^ a * (2 ^ (b + 1) - 2) = 2 ^ a * 2 ^ (b + 1) - 2 ^ a * 2 := by rw [Nat.mul_sub]
        have : 2 ^ a * 2 ^ (b + 1) = 2 ^ (a + (b + 1)) := by ring
        omega
      rw [y2, y1, Nat.testBit_two_pow_mul_add _ (by positivity),
        Nat.testBit_two_pow_mul_add _ (by omega)]
      by_cases hi : i < a
      · simp [hi, Nat.testBit_two_pow_sub_one]; omega
      · simp only [hi, if_false, Nat.testBit_two_pow_sub_one]
        rw [show (2 : Nat) ^ (b + 1) - 2 = 2 * (2 ^ b - 1) by
          have : 2 ^ (b + 1) = 2 * 2 ^ b := by ring
          omega]
        by_cases hi2 : i < a + (b + 1)
        · simp [show i - a < b + 1 by omega, hi2]
        · obtain ⟨j, hj⟩ : ∃ j, i - a = j + 1 := ⟨i - a - 1, by omega⟩
          rw [hj, Nat.testBit_succ, Nat.mul_div_cancel_left _ (by omega : 0 < 2),
            Nat.testBit_two_pow_sub_one]
          simp [hi2]; omega
    rw [hx2]
    conv_lhs => lhs; rw [hx1]
    rw [Nat.two_pow_add_eq_or_of_lt (by omega), Nat.two_pow_add_eq_or_of_lt (by omega)]
    rw [Nat.mul_comm h, Nat.two_pow_add_eq_or_of_lt (by omega), ← hz]
    apply Nat.eq_of_testBit_eq
    intro i
    simp only [Nat.testBit_or]
    cases (2 ^ (a + (b + 1) + 1) * h).testBit i <;> simp
  unfold nextBits
  simp only []
  have hl1 : lowBit x = 2 ^ a := by rw [e1, lowBit_eq]
  have htemp : (x ||| (x - 1)) + 1 = (2 * h + 1) * 2 ^ (a + (b + 1)) := by
    rw [hor]
    have : 1 ≤ 2 ^ (a + (b + 1)) := Nat.one_le_two_pow
    have : (2 * h + 1) * 2 ^ (a + (b + 1)) = h * 2 ^ (a + (b + 1) + 1) + 2 ^ (a + (b + 1)) := by ring
    omega
  rw [htemp, lowBit_eq, hl1, Nat.pow_add, Nat.mul_div_cancel_left _ (by positivity),
    Nat.shiftRight_eq_div_pow]
  have e5 : 2 ^ (b + 1) / 2 ^ 1 = 2 ^ b := by rw [pow_succ, pow_one]; simp
  rw [e5, Nat.mul_comm, ← Nat.pow_add]
  have hlt : 2 ^ b - 1 < 2 ^ (a + (b + 1)) := by
    have : 2 ^ b ≤ 2 ^ (a + (b + 1)) := Nat.pow_le_pow_right (by omega) (by omega)
    omega
  rw [← Nat.two_pow_add_eq_or_of_lt hlt]
  have : b + 1 - 1 = b := by omega
  rw [this]
  ring

theorem nextBits_add_pow (x r : Nat) (hx : 0 < x) (h : nextBits x < 2 ^ r) :
    nextBits (x + 2 ^ r) = nextBits x + 2 ^ r := by
  obtain ⟨a, b, g, hb, e⟩ := pos_form x hx
  rw [e, nextBits_form a b g hb] at h
  have hlt : a + b < r := by
    by_contra hcon
    have : 2 ^ r ≤ 2 ^ (a + b) := Nat.pow_le_pow_right (by omega) (by omega)
    omega
  have e2 : x + 2 ^ r = (g + 2 ^ (r - (a + b + 1))) * 2 ^ (a + b + 1) + (2 ^ b - 1) * 2 ^ a := by
    have : 2 ^ r = 2 ^ (r - (a + b + 1)) * 2 ^ (a + b + 1) := by
      rw [← Nat.pow_add]; congr 1; omega
    rw [e, Nat.add_mul, ← this]; ring
  rw [e2, nextBits_form a b _ hb, e, nextBits_form a b g hb]
  have : 2 ^ r = 2 ^ (r - (a + b + 1)) * 2 ^ (a + b + 1) := by
    rw [← Nat.pow_add]; congr 1; omega
  rw [this]; ring

/-- the patterns of width `r` with `k` bits, in increasing order -/
def masks : Nat → Nat → List Nat
  | _, 0 => [0]
  | 0, _ + 1 => []
  | r + 1, k + 1 => masks r (k + 1) ++ (masks r k).map (· + 2 ^ r)

theorem masks_length (r k : Nat) : (masks r k).length = r.choose k := by
  induction r generalizing k with
  | zero => cases k <;> simp [masks]
  | succ r ih =>
    cases k with
    | zero => simp [masks]
    | succ k => simp [masks, ih, Nat.choose_succ_succ]; omega

theorem masks_eq_nil (r k : Nat) (h : r < k) : masks r k = [] := by
  apply List.eq_nil_of_length_eq_zero
  rw [masks_length, Nat.choose_eq_zero_of_lt h]

theorem masks_lt (r k x : Nat) (h : x ∈ masks r k) : x < 2 ^ r := by
  induction r generalizing k x with
  | zero => cases k <;> simp [masks] at h; simp [h]
  | succ r ih =>
    cases k with
    | zero => simp [masks] at h; simp [h]
    | succ k =>
      simp only [masks, List.mem_append, List.mem_map] at h
      rw [pow_succ]
      rcases h with h | ⟨y, hy, rfl⟩
      · have := ih _ _ h; omega
      · have := ih _ _ hy; omega

theorem masks_pos (r k x : Nat) (h : x ∈ masks r (k + 1)) : 0 < x := by
  induction r generalizing k x with
  | zero => simp [masks] at h
  | succ r ih =>
    simp only [masks, List.mem_append, List.mem_map] at h
    rcases h with h | ⟨y, hy, rfl⟩
    · exact ih _ _ h
    · positivity

theorem masks_sorted (r k : Nat) : (masks r k).Pairwise (· < ·) := by
  induction r generalizing k with
  | zero => cases k <;> simp [masks]
  | succ r ih =>
    cases k with
    | zero => simp [masks]
    | succ k =>
      simp only [masks]
      rw [List.pairwise_append]
      refine ⟨ih _, ?_, ?_⟩
      · rw [List.pairwise_map]
        exact (ih k).imp (by intro a b h; omega)
      · intro x hx y hy
        obtain ⟨z, hz, rfl⟩ := List.mem_map.1 hy
        have := masks_lt _ _ _ hx
        omega

theorem masks_head? (r k : Nat) (h : k ≤ r) : (masks r k).head? = some (2 ^ k - 1) := by
  induction r generalizing k with
  | zero => obtain rfl : k = 0 := by omega
            simp [masks]
  | succ r ih =>
    cases k with
    | zero => simp [masks]
    | succ k =>
      simp only [masks]
      rw [List.head?_append]
      rcases Nat.lt_or_ge r (k + 1) with h' | h'
      · obtain rfl : r = k := by omega
        rw [masks_eq_nil r (r + 1) (by omega)]
        simp only [List.head?_nil, Option.none_or, List.head?_map, ih r (le_refl _), Option.map_some]
        have := Nat.one_le_two_pow (n := r)
        congr 1; rw [pow_succ]; omega
      · rw [ih _ h']; simp

theorem masks_getLast? (r k : Nat) (h : k ≤ r) :
    (masks r k).getLast? = some ((2 ^ k - 1) * 2 ^ (r - k)) := by
  induction r generalizing k with
  | zero => obtain rfl : k = 0 := by omega
            simp [masks]
  | succ r ih =>
    cases k with
    | zero => simp [masks]
    | succ k =>
      simp only [masks]
      rw [List.getLast?_append, List.getLast?_map, ih k (by omega)]
      simp only [Option.map_some, Option.some_or]
      congr 1
      have e1 : 2 ^ r = 2 ^ k * 2 ^ (r - k) := by rw [← Nat.pow_add]; congr 1; omega
      rw [show r + 1 - (k + 1) = r - k by omega, e1, pow_succ]
      have := Nat.one_le_two_pow (n := k)
      rw [← Nat.add_mul]; congr 1; omega

theorem masks_chain (r k : Nat) : (masks r k).IsChain (fun x y => y = nextBits x) := by
  induction r generalizing k with
  | zero => cases k <;> simp [masks]
  | succ r ih =>
    cases k with
    | zero => simp [masks]
    | succ k =>
      simp only [masks]
      rw [List.isChain_append]
      refine ⟨ih _, ?_, ?_⟩
      · cases k with
        | zero => simp [masks]
        | succ k =>
          rw [List.isChain_map]
          refine List.IsChain.imp_of_mem_imp ?_ (ih (k + 1))
          intro x y hx hy e
          have := masks_lt _ _ _ hy
          rw [e] at this
          rw [nextBits_add_pow x r (masks_pos _ _ _ hx) this, e]
      · intro x hx y hy
        rcases Nat.lt_or_ge r (k + 1) with h' | h'
        · rw [masks_eq_nil r (k + 1) h'] at hx; simp at hx
        · rw [masks_getLast? r _ h'] at hx
          rw [List.head?_map, masks_head? r k (by omega)] at hy
          simp at hx hy
          subst hx; subst hy
          have := nextBits_form (r - (k + 1)) (k + 1) 0 (by omega)
          rw [Nat.zero_mul, Nat.zero_add, Nat.zero_add] at this
          rw [this, show r - (k + 1) + (k + 1) = r by omega]
          simp; omega

theorem genBits_of_chain (l : List Nat) (x : Nat) (h : l.head? = some x)
    (hc : l.IsChain (fun x y => y = nextBits x)) : genBits l.length x = l := by
  induction l generalizing x with
  | nil => simp at h
  | cons a l ih =>
    simp at h; subst h
    simp only [List.length_cons, genBits]
    congr 1
    cases l with
    | nil => rfl
    | cons b l =>
      rw [List.isChain_cons_cons] at hc
      rw [← hc.1]
      exact ih b rfl hc.2

theorem genBits_eq_masks (r k : Nat) (h : k ≤ r) :
    genBits (r.choose k) (2 ^ k - 1) = masks r k := by
  rw [← masks_length]
  exact genBits_of_chain _ _ (masks_head? r k h) (masks_chain r k)

theorem bitCount_succ (r x : Nat) :
    Spec.bitCount (r + 1) x = Spec.bitCount r x + (if x.testBit r then 1 else 0) := by
  simp only [Spec.bitCount, List.range_succ, List.filter_append, List.length_append]
  congr 1
  by_cases h : x.testBit r <;> simp [h]

theorem bitCount_low (r x y : Nat) (h : ∀ i < r, x.testBit i = y.testBit i) :
    Spec.bitCount r x = Spec.bitCount r y := by
  unfold Spec.bitCount
  congr 1
  apply List.filter_congr
  intro i hi
  exact h i (List.mem_range.1 hi)

theorem mem_masks (r k : Nat) (x : Nat) : x ∈ masks r k ↔ x < 2 ^ r ∧ Spec.bitCount r x = k := by
  induction r generalizing k x with
  | zero => cases k <;> simp [masks, Spec.bitCount]
  | succ r ih =>
    have key : ∀ x, x < 2 ^ (r + 1) → (x < 2 ^ r ∧ x.testBit r = false) ∨
        (∃ y, y < 2 ^ r ∧ x = y + 2 ^ r ∧ x.testBit r = true ∧ Spec.bitCount r x = Spec.bitCount r y) := by
      intro x hx
      rcases Nat.lt_or_ge x (2 ^ r) with h | h
      · exact .inl ⟨h, Nat.testBit_lt_two_pow h⟩
      · have hy : x - 2 ^ r < 2 ^ r := by rw [pow_succ] at hx; omega
        have e : x = 2 ^ r * 1 + (x - 2 ^ r) := by omega
        refine .inr ⟨x - 2 ^ r, hy, by omega, ?_, ?_⟩
        · rw [e, Nat.testBit_two_pow_mul_add _ hy]; simp
        · apply bitCount_low
          intro i hi
          conv_lhs => rw [e]
          rw [Nat.testBit_two_pow_mul_add _ hy]
          simp [hi]
    have hp : 2 ^ (r + 1) = 2 ^ r + 2 ^ r := by rw [pow_succ]; omega
    have zero : masks r 0 = [0] := by cases r <;> rfl
    cases k with
    | zero =>
      have zero' : masks (r + 1) 0 = [0] := rfl
      have := ih 0
      rw [zero', List.mem_singleton]
      constructor
      · rintro rfl; exact ⟨by positivity, by simp [Spec.bitCount]⟩
      · rintro ⟨h1, h2⟩
        rw [bitCount_succ] at h2
        rcases key x h1 with ⟨h3, h4⟩ | ⟨y, -, -, h4, -⟩
        · have := (this x).2 ⟨h3, by omega⟩
          rw [zero] at this; simpa using this
        · simp [h4] at h2
    | succ k =>
      simp only [masks, List.mem_append, List.mem_map, ih]
      rw [bitCount_succ]
      constructor
      · rintro (⟨h1, h2⟩ | ⟨y, ⟨h1, h2⟩, rfl⟩)
        · exact ⟨by omega, by rw [Nat.testBit_lt_two_pow h1]; simpa using h2⟩
        · refine ⟨by omega, ?_⟩
          rcases key (y + 2 ^ r) (by omega) with ⟨h3, h4⟩ | ⟨z, h3, h4, h5, h6⟩
          · omega
          · have : z = y := by omega
            subst this
            simp [h5, h6, h2]
      · rintro ⟨h1, h2⟩
        rcases key x h1 with ⟨h3, h4⟩ | ⟨z, h3, h4, h5, h6⟩
        · exact .inl ⟨h3, by simpa [h4] using h2⟩
        · exact .inr ⟨z, ⟨h3, by rw [h5] at h2; simp at h2; omega⟩, h4.symm⟩

end Clubs
