import Verif.Model.Rectangle
import Verif.Spec.Rectangle

/-!
# Rounding of positions to pixels
-/

namespace Clubs

open RoundedRectangle Spec

theorem roundReal_near (x : ℝ) : |(roundReal x : ℝ) - x| ≤ 1 / 2 := by
  have h0 := Int.fract_nonneg x
  have h1 := Int.fract_lt_one x
  have e : (⌊x⌋ : ℝ) = x - Int.fract x := by rw [Int.self_sub_fract]
  unfold roundReal
  split
  · rw [e, abs_le]; constructor <;> linarith
  · split
    · push_cast; rw [e, abs_le]; constructor <;> linarith
    · split
      · rw [e, abs_le]; constructor <;> linarith
      · push_cast; rw [e, abs_le]; constructor <;> linarith

theorem roundReal_int (k : ℤ) : roundReal (k : ℝ) = k := by
  unfold roundReal; simp

theorem roundReal_mono {x y : ℝ} (h : x ≤ y) : roundReal x ≤ roundReal y := by
  by_contra hc
  rw [not_le] at hc
  have hc' : (roundReal y : ℝ) + 1 ≤ roundReal x := by exact_mod_cast hc
  have hx := abs_le.1 (roundReal_near x)
  have hy := abs_le.1 (roundReal_near y)
  have : x = y := by linarith
  subst this
  exact lt_irrefl _ hc

theorem roundCents_near (x : ℝ) : |roundCents x - x| ≤ 1 / 200 := by
  have := abs_le.1 (roundReal_near (100 * x))
  unfold roundCents
  rw [abs_le]; constructor <;> linarith

theorem onBorder_near {c : ℝ × ℝ} {w h : ℝ} {p : ℝ × ℝ} (h0 : 0 < h) (hp : OnBorder c w h p) :
    |p.1 - c.1| ≤ w / 2 ∧ |p.2 - c.2| ≤ h / 2 := by
  rcases hp with ⟨h1, h2⟩ | ⟨h1, h2⟩
  · exact ⟨by linarith, h2.le⟩
  · constructor
    · have : (|p.1 - c.1| - (w - h) / 2) ^ 2 ≤ (h / 2) ^ 2 := by nlinarith [sq_nonneg (p.2 - c.2)]
      have := abs_le_of_sq_le_sq this (by linarith)
      linarith [(abs_le.1 this).2]
    · exact abs_le_of_sq_le_sq (by nlinarith [sq_nonneg (|p.1 - c.1| - (w - h) / 2)]) (by linarith) |>.trans' (le_refl _)

/-- a bet, also after rounding -/
theorem inside_of {x y x' y' : ℝ} (h : OnBorder (500, 500) 675 365 (x, y)) (hx : |x' - x| ≤ 0.505) (hy : |y' - y| ≤ 0.505) :
    Inside (500, 500) 900 550 (x', y') := by
  unfold OnBorder at h
  unfold Inside
  norm_num at h hx hy ⊢
  have ax : |x' - 500| ≤ |x - 500| + 101/200 := by
    calc |x' - 500| = |(x - 500) + (x' - x)| := by ring_nf
      _ ≤ _ := (abs_add_le _ _).trans (by linarith)
  have ay : |y' - 500| ≤ |y - 500| + 101/200 := by
    calc |y' - 500| = |(y - 500) + (y' - y)| := by ring_nf
      _ ≤ _ := (abs_add_le _ _).trans (by linarith)
  rw [← sq_abs (y - 500)] at h
  rw [← sq_abs (y' - 500)]
  have := abs_nonneg (x - 500)
  have := abs_nonneg (y - 500)
  have := abs_nonneg (x' - 500)
  have := abs_nonneg (y' - 500)
  generalize |x - 500| = X at *
  generalize |y - 500| = Y at *
  generalize |x' - 500| = X' at *
  generalize |y' - 500| = Y' at *
  rcases h with ⟨h1, h2⟩ | ⟨h1, h2⟩
  · exact .inl ⟨by linarith, by linarith⟩
  · have hY : Y ≤ 365/2 := by nlinarith [sq_nonneg (X - 155)]
    have hX : X - 155 ≤ 365/2 := by nlinarith [sq_nonneg Y]
    rcases le_or_gt X' 175 with h3 | h3
    · exact .inl ⟨h3, by linarith⟩
    · refine .inr ⟨h3.le, ?_⟩
      have e1 : (X' - 175) ^ 2 ≤ (X - 155) ^ 2 := by apply sq_le_sq' <;> linarith
      have e2 : Y' ^ 2 ≤ (Y + 101/200) ^ 2 := by apply sq_le_sq' <;> linarith
      nlinarith

/-- a player, also after rounding -/
theorem outside_of {x y x' y' : ℝ} (h : OnBorder (500, 500) 1000 650 (x, y)) (hx : |x' - x| ≤ 0.505) (hy : |y' - y| ≤ 0.505) :
    Outside (500, 500) 900 550 (x', y') := by
  unfold OnBorder at h
  unfold Outside
  norm_num at h hx hy ⊢
  have ax : |x - 500| ≤ |x' - 500| + 101/200 := by
    calc |x - 500| = |(x' - 500) + (x - x')| := by ring_nf
      _ ≤ _ := (abs_add_le _ _).trans (by rw [abs_sub_comm x x']; linarith)
  have ay : |y - 500| ≤ |y' - 500| + 101/200 := by
    calc |y - 500| = |(y' - 500) + (y - y')| := by ring_nf
      _ ≤ _ := (abs_add_le _ _).trans (by rw [abs_sub_comm y y']; linarith)
  have ax' : |x' - 500| ≤ |x - 500| + 101/200 := by
    calc |x' - 500| = |(x - 500) + (x' - x)| := by ring_nf
      _ ≤ _ := (abs_add_le _ _).trans (by linarith)
  rw [← sq_abs (y - 500)] at h
  rw [← sq_abs (y' - 500)]
  have := abs_nonneg (x - 500)
  have := abs_nonneg (y - 500)
  have := abs_nonneg (x' - 500)
  have := abs_nonneg (y' - 500)
  generalize |x - 500| = X at *
  generalize |y - 500| = Y at *
  generalize |x' - 500| = X' at *
  generalize |y' - 500| = Y' at *
  rcases h with ⟨h1, h2⟩ | ⟨h1, h2⟩
  · rcases le_or_gt X' 175 with h3 | h3
    · exact .inl ⟨h3, by linarith⟩
    · exact .inr ⟨h3.le, by nlinarith [sq_nonneg (X' - 175)]⟩
  · rcases le_or_gt X' 175 with h3 | h3
    · refine .inl ⟨h3, ?_⟩
      have : X - 175 ≤ 1 := by linarith
      nlinarith
    · refine .inr ⟨h3.le, ?_⟩
      by_contra hc
      have hX : X' - 175 ≤ 275 := by nlinarith [sq_nonneg Y']
      have hY : Y' ≤ 275 := by nlinarith [sq_nonneg (X' - 175)]
      have e1 : (X - 175) ^ 2 ≤ (X' - 175 + 101/200) ^ 2 := by apply sq_le_sq' <;> linarith
      have e2 : Y ^ 2 ≤ (Y' + 101/200) ^ 2 := by apply sq_le_sq' <;> linarith
      nlinarith

end Clubs
