import Verif.Lemmas.Rectangle
import Verif.Lemmas.Rectangle2
import Verif.Lemmas.Rectangle3
import Verif.Spec.Rectangle
import Mathlib.Data.Set.Finite.Lemmas

/-!
# C65: the seats around the table in the browser

`C65_rounded`, `C65_rounded_collide`, `C65_distinct`, `C65_table` and `C65_inexact` are about the places in the picture,
which are whole numbers; the other statements are about `edge` before its final rounding to two decimals.
-/

namespace Clubs

open Real Spec

namespace RoundedRectangle

/-- the point around which the path runs -/
noncomputable def center (R : RoundedRectangle) : ℝ × ℝ := (R.centerX + R.x, R.centerY + R.y)

theorem edge_eq (R : RoundedRectangle) (h0 : 0 < R.height) (hw : R.height ≤ R.width) (f : ℝ) :
    R.edge f = ((track R.halfStraight R.radius (Int.fract f * R.perimeter)).1 + R.center.1,
      (track R.halfStraight R.radius (Int.fract f * R.perimeter)).2 + R.center.2) := by
  unfold edge center
  rw [R.offset_eq h0 hw _ (Int.fract_lt_one f)]

theorem halfStraight_nonneg {R : RoundedRectangle} (hw : R.height ≤ R.width) : 0 ≤ R.halfStraight := by
  unfold halfStraight; linarith

theorem radius_pos {R : RoundedRectangle} (h0 : 0 < R.height) : 0 < R.radius := by unfold radius; linarith

theorem perimeter_pos {R : RoundedRectangle} (h0 : 0 < R.height) (hw : R.height ≤ R.width) : 0 < R.perimeter := by
  rw [perimeter_eq]
  have := halfStraight_nonneg hw
  have := mul_pos pi_pos (radius_pos h0)
  linarith

end RoundedRectangle

open RoundedRectangle

/-- **C65**: every point is on the border of the rectangle. -/
theorem C65_border (R : RoundedRectangle) (h0 : 0 < R.height) (hw : R.height ≤ R.width) (f : ℝ) :
    OnBorder (R.centerX + R.x, R.centerY + R.y) R.width R.height (R.edge f) := by
  have ha := halfStraight_nonneg hw
  have hρ := radius_pos h0
  have hp : 0 < π * R.radius := mul_pos pi_pos hρ
  have hs0 : 0 ≤ Int.fract f * R.perimeter := mul_nonneg (Int.fract_nonneg f) (perimeter_pos h0 hw).le
  have hs1 : Int.fract f * R.perimeter ≤ 4 * R.halfStraight + 2 * π * R.radius := by
    rw [← R.perimeter_eq]
    exact mul_le_of_le_one_left (perimeter_pos h0 hw).le (Int.fract_lt_one f).le
  rw [R.edge_eq h0 hw]
  unfold OnBorder center
  simp only [add_sub_cancel_right]
  have e1 : (R.width - R.height) / 2 = R.halfStraight := rfl
  have e2 : R.height / 2 = R.radius := rfl
  rw [e1, e2]
  generalize Int.fract f * R.perimeter = s at *
  generalize R.halfStraight = a at *
  generalize R.radius = ρ at *
  rcases pieces s a ρ with h1 | ⟨h1, h2⟩ | ⟨h1, h2⟩ | ⟨h1, h2⟩ | h1
  · rw [track1 hρ h1]
    exact .inl ⟨by rw [abs_neg, abs_of_nonneg hs0]; exact h1, abs_of_pos hρ⟩
  · rw [track2 ha hρ h1 h2]
    have hs := mul_nonneg hρ.le (sin_nonneg_of_mem_Icc (angle_mem hρ h1 h2))
    have : |-a - ρ * sin ((s - a) / ρ)| = a + ρ * sin ((s - a) / ρ) := by
      rw [abs_of_nonpos (by linarith)]; ring
    refine .inr ⟨by simp only [this]; linarith, ?_⟩
    simp only [this]
    have := sin_sq_add_cos_sq ((s - a) / ρ)
    linear_combination ρ ^ 2 * this
  · rw [track3 ha hρ h1 h2]
    exact .inl ⟨abs_le.2 ⟨by simp only; linarith, by simp only; linarith⟩, by simp only [abs_neg]; exact abs_of_pos hρ⟩
  · rw [track4 ha hρ h1 h2]
    have hm : (s - 3 * a - π * ρ) / ρ ∈ Set.Icc 0 π := by
      have := angle_mem (a := 3 * a + π * ρ) (s := s) hρ h1 (by linarith)
      rwa [← sub_sub] at this
    have hs := mul_nonneg hρ.le (sin_nonneg_of_mem_Icc hm)
    have : |a + ρ * sin ((s - 3 * a - π * ρ) / ρ)| = a + ρ * sin ((s - 3 * a - π * ρ) / ρ) := abs_of_nonneg (by linarith)
    refine .inr ⟨by simp only [this]; linarith, ?_⟩
    simp only [this]
    have := sin_sq_add_cos_sq ((s - 3 * a - π * ρ) / ρ)
    linear_combination ρ ^ 2 * this
  · rw [track5 ha hρ h1]
    exact .inl ⟨by simp only; rw [abs_of_nonneg (by linarith)]; linarith, abs_of_pos hρ⟩

/-- **C65**: the path starts in the middle of the lower side (`y` grows downwards) and one turn leads back. -/
theorem C65_start (R : RoundedRectangle) (h0 : 0 < R.height) (hw : R.height ≤ R.width) :
    R.edge 0 = (R.centerX + R.x, R.centerY + R.y + R.height / 2) ∧ ∀ (f : ℝ) (k : ℤ), R.edge (f + k) = R.edge f := by
  constructor
  · rw [R.edge_eq h0 hw, Int.fract_zero, zero_mul, track1 (radius_pos h0) (halfStraight_nonneg hw)]
    unfold center radius
    ext
    · simp
    · simp only; ring
  · intro f k
    unfold edge
    rw [Int.fract_add_intCast]

/-- **C65**: seats the same way along in opposite directions are mirror images. -/
theorem C65_mirror (R : RoundedRectangle) (h0 : 0 < R.height) (hw : R.height ≤ R.width) (f : ℝ) :
    (R.edge (-f)).1 - (R.centerX + R.x) = -((R.edge f).1 - (R.centerX + R.x)) ∧ (R.edge (-f)).2 = (R.edge f).2 := by
  have hP := (perimeter_pos h0 hw).le
  rw [R.edge_eq h0 hw, R.edge_eq h0 hw]
  by_cases hf : Int.fract f = 0
  · rw [Int.fract_neg_eq_zero.2 hf, hf, zero_mul, track1 (radius_pos h0) (halfStraight_nonneg hw)]
    simp [center]
  · rw [Int.fract_neg hf, sub_mul, one_mul, R.perimeter_eq, track_mirror (halfStraight_nonneg hw) (radius_pos h0)]
    · simp [center]
    · rw [← R.perimeter_eq]; exact mul_nonneg (Int.fract_nonneg f) hP
    · rw [← R.perimeter_eq]; exact mul_le_of_le_one_left hP (Int.fract_lt_one f).le

/-- **C65**: seats half a turn apart are opposite each other. -/
theorem C65_opposite (R : RoundedRectangle) (h0 : 0 < R.height) (hw : R.height ≤ R.width) (f : ℝ) :
    (R.edge (f + 1 / 2)).1 - (R.centerX + R.x) = -((R.edge f).1 - (R.centerX + R.x)) ∧
    (R.edge (f + 1 / 2)).2 - (R.centerY + R.y) = -((R.edge f).2 - (R.centerY + R.y)) := by
  have ha := halfStraight_nonneg hw
  have hρ := radius_pos h0
  have hP := perimeter_pos h0 hw
  have half : R.perimeter / 2 = 2 * R.halfStraight + π * R.radius := by rw [perimeter_eq]; ring
  have key : ∀ u : ℝ, 0 ≤ u → u ≤ 1 / 2 → track R.halfStraight R.radius ((u + 1 / 2) * R.perimeter) =
      (-(track R.halfStraight R.radius (u * R.perimeter)).1, -(track R.halfStraight R.radius (u * R.perimeter)).2) := by
    intro u u0 u1
    have e : (u + 1 / 2) * R.perimeter = u * R.perimeter + (2 * R.halfStraight + π * R.radius) := by
      rw [← half]; ring
    rw [e, track_half ha hρ (mul_nonneg u0 hP.le) (by rw [← half]; nlinarith)]
  rw [R.edge_eq h0 hw, R.edge_eq h0 hw]
  have f0 := Int.fract_nonneg f
  have f1 := Int.fract_lt_one f
  rcases lt_or_ge (Int.fract f) (1 / 2) with h | h
  · have : Int.fract (f + 1 / 2) = Int.fract f + 1 / 2 := by
      rw [Int.fract_eq_iff]
      exact ⟨by linarith, by linarith, ⌊f⌋, by unfold Int.fract; ring⟩
    rw [this, key _ f0 h.le]
    simp [center]
  · have : Int.fract (f + 1 / 2) = Int.fract f - 1 / 2 := by
      rw [Int.fract_eq_iff]
      exact ⟨by linarith, by linarith, ⌊f⌋ + 1, by unfold Int.fract; push_cast; ring⟩
    have k := key (Int.fract f - 1 / 2) (by linarith) (by linarith)
    rw [sub_add_cancel] at k
    rw [this, k]
    simp [center]

/-- **C65**: different seats are at different places, for any number of players. -/
theorem C65_injective (R : RoundedRectangle) (h0 : 0 < R.height) (hw : R.height ≤ R.width) (n i j : ℕ) (hi : i < n)
    (hj : j < n) (h : R.edge ((i : ℝ) / n) = R.edge ((j : ℝ) / n)) : i = j := by
  have hn : (0 : ℝ) < n := by exact_mod_cast (Nat.zero_le i).trans_lt hi
  have fr : ∀ k : ℕ, k < n → Int.fract ((k : ℝ) / n) = (k : ℝ) / n := fun k hk =>
    Int.fract_eq_self.2 ⟨by positivity, (div_lt_one hn).2 (by exact_mod_cast hk)⟩
  have hP := perimeter_pos h0 hw
  rw [R.edge_eq h0 hw, R.edge_eq h0 hw, fr i hi, fr j hj] at h
  have ht : track R.halfStraight R.radius ((i : ℝ) / n * R.perimeter) =
      track R.halfStraight R.radius ((j : ℝ) / n * R.perimeter) := by
    obtain ⟨h1, h2⟩ := Prod.ext_iff.1 h
    exact Prod.ext (by simpa using h1) (by simpa using h2)
  have bound : ∀ k : ℕ, k < n → 0 ≤ (k : ℝ) / n * R.perimeter ∧
      (k : ℝ) / n * R.perimeter < 4 * R.halfStraight + 2 * π * R.radius := by
    intro k hk
    have : (k : ℝ) / n < 1 := (div_lt_one hn).2 (by exact_mod_cast hk)
    rw [← R.perimeter_eq]
    exact ⟨by positivity, by nlinarith⟩
  have e : (i : ℝ) / n * R.perimeter = (j : ℝ) / n * R.perimeter := by
    rcases le_total ((i : ℝ) / n * R.perimeter) ((j : ℝ) / n * R.perimeter) with hl | hl
    · exact track_inj (halfStraight_nonneg hw) (radius_pos h0) (bound i hi).1 hl (bound j hj).2 ht
    · exact (track_inj (halfStraight_nonneg hw) (radius_pos h0) (bound j hj).1 hl (bound i hi).2 ht.symm).symm
  have := mul_right_cancel₀ hP.ne' e
  rw [div_left_inj' hn.ne'] at this
  exact_mod_cast this

/-- **C65**: the path has no jumps … -/
theorem C65_continuous (R : RoundedRectangle) (h0 : 0 < R.height) (hw : R.height ≤ R.width) : Continuous R.edge := by
  have ha := halfStraight_nonneg hw
  have hρ := radius_pos h0
  have hc := track_continuous ha hρ
  have hp : 0 < π * R.radius := mul_pos pi_pos hρ
  have : R.edge = (fun u => ((track R.halfStraight R.radius (u * R.perimeter)).1 + R.center.1,
      (track R.halfStraight R.radius (u * R.perimeter)).2 + R.center.2)) ∘ Int.fract := by
    funext f; exact R.edge_eq h0 hw f
  rw [this]
  refine ContinuousOn.comp_fract'' (Continuous.continuousOn (by fun_prop)) ?_
  rw [zero_mul, one_mul, track1 hρ ha, R.perimeter_eq, track5 ha hρ (by linarith)]
  simp

/-- … and constant speed, but for finitely many fractions: players are evenly spaced along the border. -/
theorem C65_speed (R : RoundedRectangle) (h0 : 0 < R.height) (hw : R.height ≤ R.width) :
    ∃ B : Set ℝ, B.Finite ∧ ∀ f, 0 < f → f < 1 → f ∉ B → ∃ dx dy, HasDerivAt (fun f => (R.edge f).1) dx f ∧
      HasDerivAt (fun f => (R.edge f).2) dy f ∧
      dx ^ 2 + dy ^ 2 = (2 * (R.width - R.height) + π * R.height) ^ 2 := by
  have ha := halfStraight_nonneg hw
  have hρ := radius_pos h0
  have hP := perimeter_pos h0 hw
  have hp : 0 < π * R.radius := mul_pos pi_pos hρ
  have hPe : 2 * (R.width - R.height) + π * R.height = R.perimeter := by
    unfold perimeter straightWidth radiusHeight; ring
  rw [hPe]
  have loc : ∀ f : ℝ, 0 < f → f < 1 → ∀ᶠ g in nhds f, R.edge g =
      ((track R.halfStraight R.radius (g * R.perimeter)).1 + R.center.1,
        (track R.halfStraight R.radius (g * R.perimeter)).2 + R.center.2) := by
    intro f f0 f1
    filter_upwards [Ioo_mem_nhds f0 f1] with g hg
    rw [R.edge_eq h0 hw, Int.fract_eq_self.2 ⟨hg.1.le, hg.2⟩]
  generalize hPP : R.perimeter = P at *
  generalize R.halfStraight = a at *
  generalize R.radius = ρ at *
  generalize R.center = c at *
  -- the derivative on one open piece
  have piece : ∀ (f : ℝ) (X Y : ℝ → ℝ) (x' y' : ℝ), 0 < f → f < 1 →
      (∀ᶠ s in nhds (f * P), track a ρ s = (X s, Y s)) → HasDerivAt X x' (f * P) → HasDerivAt Y y' (f * P) →
      x' ^ 2 + y' ^ 2 = 1 → ∃ dx dy, HasDerivAt (fun f => (R.edge f).1) dx f ∧ HasDerivAt (fun f => (R.edge f).2) dy f ∧
        dx ^ 2 + dy ^ 2 = P ^ 2 := by
    intro f X Y x' y' f0 f1 hev hX hY hn
    have hm : HasDerivAt (fun g : ℝ => g * P) P f := by simpa using (hasDerivAt_id f).mul_const P
    have hev' : ∀ᶠ g in nhds f, R.edge g = (X (g * P) + c.1, Y (g * P) + c.2) := by
      filter_upwards [loc f f0 f1, hm.continuousAt.eventually hev] with g h1 h2
      rw [h1, h2]
    refine ⟨x' * P, y' * P, ?_, ?_, by linear_combination P ^ 2 * hn⟩
    · refine HasDerivAt.congr_of_eventuallyEq ((hX.comp f hm).add_const c.1) ?_
      filter_upwards [hev'] with g hg
      rw [hg]; rfl
    · refine HasDerivAt.congr_of_eventuallyEq ((hY.comp f hm).add_const c.2) ?_
      filter_upwards [hev'] with g hg
      rw [hg]; rfl
  refine ⟨{a / P, (a + π * ρ) / P, (3 * a + π * ρ) / P, (3 * a + 2 * π * ρ) / P}, by simp, ?_⟩
  intro f f0 f1 hB
  simp only [Set.mem_insert_iff, Set.mem_singleton_iff, not_or, eq_div_iff hP.ne'] at hB
  obtain ⟨b1, b2, b3, b4⟩ := hB
  have ang : ∀ (k s : ℝ), HasDerivAt (fun s => (s - k) / ρ) (1 / ρ) s := fun k s =>
    ((hasDerivAt_id s).sub_const k).div_const ρ
  rcases pieces (f * P) a ρ with h1 | ⟨h1, h2⟩ | ⟨h1, h2⟩ | ⟨h1, h2⟩ | h1
  · refine piece f (fun s => -s) (fun _ => ρ) (-1) 0 f0 f1 ?_ (hasDerivAt_neg _) (hasDerivAt_const _ _) (by norm_num)
    filter_upwards [Iio_mem_nhds (lt_of_le_of_ne h1 b1)] with s hs
    exact track1 hρ (le_of_lt hs)
  · refine piece f (fun s => -a - ρ * sin ((s - a) / ρ)) (fun s => ρ * cos ((s - a) / ρ))
      (-(ρ * (cos ((f * P - a) / ρ) * (1 / ρ)))) (ρ * (-sin ((f * P - a) / ρ) * (1 / ρ))) f0 f1 ?_
      (((ang a _).sin.const_mul ρ).const_sub (-a)) ((ang a _).cos.const_mul ρ) ?_
    · filter_upwards [Ioo_mem_nhds (lt_of_le_of_ne h1 (Ne.symm b1)) (lt_of_le_of_ne h2 b2)] with s hs
      exact track2 ha hρ hs.1.le hs.2.le
    · have := sin_sq_add_cos_sq ((f * P - a) / ρ)
      field_simp
      linarith
  · refine piece f (fun s => s - 2 * a - π * ρ) (fun _ => -ρ) 1 0 f0 f1 ?_
      (((hasDerivAt_id _).sub_const _).sub_const _) (hasDerivAt_const _ _) (by norm_num)
    filter_upwards [Ioo_mem_nhds (lt_of_le_of_ne h1 (Ne.symm b2)) (lt_of_le_of_ne h2 b3)] with s hs
    exact track3 ha hρ hs.1.le hs.2.le
  · refine piece f (fun s => a + ρ * sin ((s - (3 * a + π * ρ)) / ρ)) (fun s => -ρ * cos ((s - (3 * a + π * ρ)) / ρ))
      (ρ * (cos ((f * P - (3 * a + π * ρ)) / ρ) * (1 / ρ))) (-ρ * (-sin ((f * P - (3 * a + π * ρ)) / ρ) * (1 / ρ))) f0 f1 ?_
      (((ang _ _).sin.const_mul ρ).const_add a) ((ang _ _).cos.const_mul (-ρ)) ?_
    · filter_upwards [Ioo_mem_nhds (lt_of_le_of_ne h1 (Ne.symm b3)) (lt_of_le_of_ne h2 b4)] with s hs
      rw [track4 ha hρ hs.1.le hs.2.le, sub_sub]
    · have := sin_sq_add_cos_sq ((f * P - (3 * a + π * ρ)) / ρ)
      generalize (f * P - (3 * a + π * ρ)) / ρ = θ at *
      field_simp
      linarith
  · refine piece f (fun s => 4 * a + 2 * π * ρ - s) (fun _ => ρ) (-1) 0 f0 f1 ?_
      ((hasDerivAt_id _).const_sub _) (hasDerivAt_const _ _) (by norm_num)
    filter_upwards [Ioi_mem_nhds (lt_of_le_of_ne h1 (Ne.symm b4))] with s hs
    exact track5 ha hρ (le_of_lt hs)

/-- **C65**: the place of a player in the picture, a whole number of pixels, is at most 0.505 pixels away in each
direction from its point on the border -/
theorem C65_rounded (R : RoundedRectangle) (h0 : 0 < R.height) (hw : R.height ≤ R.width) (n i : ℕ) :
    ∃ p : ℝ × ℝ, OnBorder (R.centerX + R.x, R.centerY + R.y) R.width R.height p ∧ p = R.edge ((i : ℝ) / n) ∧
      |((R.place n i).1 : ℝ) - p.1| ≤ 0.505 ∧ |((R.place n i).2 : ℝ) - p.2| ≤ 0.505 := by
  have key : ∀ x : ℝ, |(roundReal (roundCents x) : ℝ) - x| ≤ 0.505 := by
    intro x
    have h1 := abs_le.1 (roundReal_near (roundCents x))
    have h2 := abs_le.1 (roundCents_near x)
    rw [abs_le]; constructor <;> norm_num <;> linarith
  exact ⟨_, C65_border R h0 hw _, rfl, key _, key _⟩

/-- … so with enough players two of them are drawn on the same spot, whatever the size of the table. -/
theorem C65_rounded_collide (R : RoundedRectangle) (h0 : 0 < R.height) (hw : R.height ≤ R.width) :
    ∃ N, ∀ n ≥ N, ∃ i j, i < n ∧ j < n ∧ i ≠ j ∧ R.place n i = R.place n j := by
  set a := ⌊R.centerX + R.x - R.width / 2⌋ - 1
  set b := ⌈R.centerX + R.x + R.width / 2⌉ + 1
  set a' := ⌊R.centerY + R.y - R.height / 2⌋ - 1
  set b' := ⌈R.centerY + R.y + R.height / 2⌉ + 1
  let box : Finset (ℤ × ℤ) := Finset.Icc a b ×ˢ Finset.Icc a' b'
  refine ⟨box.card + 1, fun n hn => ?_⟩
  have inside : ∀ i, R.place n i ∈ box := by
    intro i
    obtain ⟨p, hp, -, h1, h2⟩ := C65_rounded R h0 hw n i
    obtain ⟨n1, n2⟩ := onBorder_near h0 hp
    have fx := Int.floor_le (R.centerX + R.x - R.width / 2)
    have cx := Int.le_ceil (R.centerX + R.x + R.width / 2)
    have fy := Int.floor_le (R.centerY + R.y - R.height / 2)
    have cy := Int.le_ceil (R.centerY + R.y + R.height / 2)
    rw [abs_le] at h1 h2 n1 n2
    norm_num at h1 h2
    simp only [box, Finset.mem_product, Finset.mem_Icc]
    refine ⟨⟨?_, ?_⟩, ?_, ?_⟩ <;> rw [← Int.cast_le (R := ℝ)] <;> simp only [a, b, a', b'] <;> push_cast <;> linarith
  obtain ⟨i, hi, j, hj, hne, e⟩ := Finset.exists_ne_map_eq_of_card_lt_of_maps_to (s := Finset.range n) (t := box)
    (f := R.place n) (by simpa using hn) (fun i _ => inside i)
  exact ⟨i, j, Finset.mem_range.1 hi, Finset.mem_range.1 hj, hne, e⟩

/-- **C65**: in the picture the players are drawn around the table and their bets on it. -/
theorem C65_table (n i : ℕ) :
    Outside (500, 500) tableRectangle.width tableRectangle.height
      (((playerRectangle.place n i).1 : ℝ), ((playerRectangle.place n i).2 : ℝ)) ∧
    Inside (500, 500) tableRectangle.width tableRectangle.height
      (((commitRectangle.place n i).1 : ℝ), ((commitRectangle.place n i).2 : ℝ)) := by
  obtain ⟨p, hp, -, h1, h2⟩ := C65_rounded playerRectangle
    (by unfold playerRectangle tableRectangle RoundedRectangle.new; norm_num)
    (by unfold playerRectangle tableRectangle RoundedRectangle.new; norm_num) n i
  obtain ⟨q, hq, -, g1, g2⟩ := C65_rounded commitRectangle
    (by unfold commitRectangle tableRectangle RoundedRectangle.new; norm_num)
    (by unfold commitRectangle tableRectangle RoundedRectangle.new; norm_num) n i
  have e1 : playerRectangle.centerX + playerRectangle.x = 500 ∧ playerRectangle.centerY + playerRectangle.y = 500 ∧
      playerRectangle.width = 1000 ∧ playerRectangle.height = 650 := by
    unfold playerRectangle tableRectangle RoundedRectangle.new; norm_num
  have e2 : commitRectangle.centerX + commitRectangle.x = 500 ∧ commitRectangle.centerY + commitRectangle.y = 500 ∧
      commitRectangle.width = 675 ∧ commitRectangle.height = 365 := by
    unfold commitRectangle tableRectangle RoundedRectangle.new; norm_num
  have e3 : tableRectangle.width = 900 ∧ tableRectangle.height = 550 := ⟨rfl, rfl⟩
  rw [e1.1, e1.2.1, e1.2.2.1, e1.2.2.2] at hp
  rw [e2.1, e2.2.1, e2.2.2.1, e2.2.2.2] at hq
  rw [e3.1, e3.2]
  exact ⟨outside_of hp h1 h2, inside_of hq g1 g2⟩

/-- **C65**, with numbers that are not exact: whatever numbers `q i` take the place of the exact points of `edge`, if they
are wrong by at most `ε` in each direction then the places in the picture are wrong by at most `0.505 + ε`, and the places
of different seats are different as long as neighbours are more than `3 * (1.01 + 2 * ε)` pixels apart along the border. -/
theorem C65_inexact (R : RoundedRectangle) (ε : ℝ) (hh : 2 * (1.01 + 2 * ε) < R.height)
    (hw : R.height + 2 * (1.01 + 2 * ε) < R.width) (n : ℕ) (q : ℕ → ℝ × ℝ)
    (hq : ∀ i < n, |(q i).1 - (R.edge ((i : ℝ) / n)).1| ≤ ε ∧ |(q i).2 - (R.edge ((i : ℝ) / n)).2| ≤ ε) :
    (∀ i < n, |((RoundedRectangle.pixel (q i)).1 : ℝ) - (R.edge ((i : ℝ) / n)).1| ≤ 0.505 + ε ∧
      |((RoundedRectangle.pixel (q i)).2 : ℝ) - (R.edge ((i : ℝ) / n)).2| ≤ 0.505 + ε) ∧
    (3 * (1.01 + 2 * ε) * n < 2 * (R.width - R.height) + π * R.height → ∀ i < n, ∀ j < n,
      RoundedRectangle.pixel (q i) = RoundedRectangle.pixel (q j) → i = j) := by
  have key : ∀ x : ℝ, |(RoundedRectangle.roundReal (RoundedRectangle.roundCents x) : ℝ) - x| ≤ 0.505 := by
    intro x
    have h1 := abs_le.1 (roundReal_near (RoundedRectangle.roundCents x))
    have h2 := abs_le.1 (roundCents_near x)
    rw [abs_le]; constructor <;> norm_num <;> linarith
  have close : ∀ i < n, |((RoundedRectangle.pixel (q i)).1 : ℝ) - (R.edge ((i : ℝ) / n)).1| ≤ 0.505 + ε ∧
      |((RoundedRectangle.pixel (q i)).2 : ℝ) - (R.edge ((i : ℝ) / n)).2| ≤ 0.505 + ε := by
    intro i hi
    obtain ⟨h1, h2⟩ := hq i hi
    have k1 := key (q i).1
    have k2 := key (q i).2
    unfold RoundedRectangle.pixel
    rw [abs_le] at h1 h2 k1 k2 ⊢
    rw [abs_le]
    exact ⟨⟨by linarith, by linarith⟩, by linarith, by linarith⟩
  refine ⟨close, fun hP => ?_⟩
  -- two seats, in order
  have main : ∀ i j, i < j → j < n → RoundedRectangle.pixel (q i) ≠ RoundedRectangle.pixel (q j) := by
    intro i j hij hj e
    have hi := hij.trans hj
    have hε : 0 ≤ ε := (abs_nonneg _).trans (hq i hi).1
    have h0 : 0 < R.height := by linarith
    have hw' : R.height ≤ R.width := by linarith
    obtain ⟨a1, a2⟩ := close i hi
    obtain ⟨b1, b2⟩ := close j hj
    rw [e] at a1 a2
    have hn : (0 : ℝ) < n := by exact_mod_cast (Nat.zero_le i).trans_lt hi
    have fr : ∀ k : ℕ, k < n → Int.fract ((k : ℝ) / n) = (k : ℝ) / n := fun k hk =>
      Int.fract_eq_self.2 ⟨by positivity, (div_lt_one hn).2 (by exact_mod_cast hk)⟩
    have hp := R.perimeter_pos h0 hw'
    have hPe : 2 * (R.width - R.height) + π * R.height = R.perimeter := by
      unfold RoundedRectangle.perimeter RoundedRectangle.straightWidth RoundedRectangle.radiusHeight; ring
    rw [hPe] at hP
    rw [R.edge_eq h0 hw', fr i hi] at a1 a2
    rw [R.edge_eq h0 hw', fr j hj] at b1 b2
    simp only at a1 a2 b1 b2
    rw [abs_le] at a1 a2 b1 b2
    have hle : (i : ℝ) / n * R.perimeter ≤ (j : ℝ) / n * R.perimeter := by
      have : (i : ℝ) ≤ j := by exact_mod_cast hij.le
      gcongr
    have hd : R.halfStraight = (R.width - R.height) / 2 := rfl
    have hr : R.radius = R.height / 2 := rfl
    have c := track_close (a := R.halfStraight) (ρ := R.radius) (s := (i : ℝ) / n * R.perimeter)
      (t := (j : ℝ) / n * R.perimeter) (δ := 1.01 + 2 * ε) (by rw [hd]; linarith) (by rw [hr]; linarith)
      (by rw [hr]; linarith) (by positivity) hle
      (by
        rw [← R.perimeter_eq]
        exact mul_le_of_le_one_left hp.le ((div_le_one hn).2 (by exact_mod_cast hj.le)))
      (by rw [abs_le]; constructor <;> linarith) (by rw [abs_le]; constructor <;> linarith)
    have gap : ∀ k : ℝ, 1 ≤ k → 3 * (1.01 + 2 * ε) < k / n * R.perimeter := by
      intro k hk
      have : 3 * (1.01 + 2 * ε) < R.perimeter / n := by rwa [lt_div_iff₀ hn]
      have : R.perimeter / n ≤ k * (R.perimeter / n) := le_mul_of_one_le_left (by positivity) hk
      have : k / n * R.perimeter = k * (R.perimeter / n) := by ring
      linarith
    rcases c with c | c
    · have := gap ((j : ℝ) - i) (by
        have : (i : ℝ) + 1 ≤ j := by exact_mod_cast hij
        linarith)
      have : ((j : ℝ) - i) / n * R.perimeter = (j : ℝ) / n * R.perimeter - (i : ℝ) / n * R.perimeter := by ring
      linarith
    · rw [← R.perimeter_eq] at c
      have := gap ((n : ℝ) - (j - i)) (by
        have : (j : ℝ) + 1 ≤ n := by exact_mod_cast hj
        have : (0 : ℝ) ≤ i := by positivity
        linarith)
      have : ((n : ℝ) - (j - i)) / n * R.perimeter =
          R.perimeter - ((j : ℝ) / n * R.perimeter - (i : ℝ) / n * R.perimeter) := by
        field_simp
      linarith
  intro i hi j hj e
  rcases Nat.lt_trichotomy i j with h | h | h
  · exact absurd e (main i j h hj)
  · exact h
  · exact absurd e.symm (main j i h hi)

/-- **C65**: at a table of up to 500 players every player, and every bet, has its own place in the picture, also if the
computed points are wrong by up to a twentieth of a pixel. -/
theorem C65_distinct (n : ℕ) (hn : n ≤ 500) (ε : ℝ) (hε : ε ≤ 1 / 20) (q : ℕ → ℝ × ℝ) (R : RoundedRectangle)
    (hR : R = playerRectangle ∨ R = commitRectangle)
    (hq : ∀ i < n, |(q i).1 - (R.edge ((i : ℝ) / n)).1| ≤ ε ∧ |(q i).2 - (R.edge ((i : ℝ) / n)).2| ≤ ε)
    (i j : ℕ) (hi : i < n) (hj : j < n) (e : RoundedRectangle.pixel (q i) = RoundedRectangle.pixel (q j)) : i = j := by
  have hn' : (n : ℝ) ≤ 500 := by exact_mod_cast hn
  have h0 : (0 : ℝ) ≤ n := by positivity
  have hε0 : 0 ≤ ε := (abs_nonneg _).trans (hq i hi).1
  have hm : 3 * (1.01 + 2 * ε) * n ≤ 3 * (1.01 + 2 * (1 / 20)) * 500 := by gcongr
  have hπ := pi_gt_three
  rcases hR with rfl | rfl
  · have e1 : playerRectangle.width = 1000 ∧ playerRectangle.height = 650 := by
      unfold playerRectangle tableRectangle RoundedRectangle.new; norm_num
    exact (C65_inexact playerRectangle ε (by rw [e1.2]; linarith) (by rw [e1.1, e1.2]; linarith) n q hq).2
      (by rw [e1.1, e1.2]; norm_num at hm ⊢; linarith) i hi j hj e
  · have e1 : commitRectangle.width = 675 ∧ commitRectangle.height = 365 := by
      unfold commitRectangle tableRectangle RoundedRectangle.new; norm_num
    exact (C65_inexact commitRectangle ε (by rw [e1.2]; linarith) (by rw [e1.1, e1.2]; linarith) n q hq).2
      (by rw [e1.1, e1.2]; norm_num at hm ⊢; linarith) i hi j hj e

/-- in particular the places the model computes -/
example (n : ℕ) (hn : n ≤ 500) (i j : ℕ) (hi : i < n) (hj : j < n)
    (e : playerRectangle.place n i = playerRectangle.place n j) : i = j :=
  C65_distinct n hn 0 (by norm_num) (fun k => playerRectangle.edge ((k : ℝ) / n)) _ (.inl rfl)
    (fun k _ => by simp) i j hi hj e

/-- the two rectangles that are used meet the assumptions, and both have the centre of the picture as their centre -/
example : (0 < playerRectangle.height ∧ playerRectangle.height ≤ playerRectangle.width) ∧
    (0 < commitRectangle.height ∧ commitRectangle.height ≤ commitRectangle.width) ∧
    playerRectangle.center = (500, 500) ∧ commitRectangle.center = (500, 500) := by
  unfold playerRectangle commitRectangle tableRectangle RoundedRectangle.new RoundedRectangle.center
  norm_num

end Clubs
