import Verif.Model.Rectangle
import Mathlib.Topology.Algebra.Order.Floor
import Mathlib.Analysis.SpecialFunctions.Trigonometric.Deriv

/-!
# The path of `_RoundedRectangle.edge` in normal form
-/

namespace Clubs

open Real

/-- the path around the border, from the middle of the side with larger `y`; `a` is half the straight part, `ρ` the
radius, `s` the distance travelled -/
noncomputable def track (a ρ s : ℝ) : ℝ × ℝ :=
  open Classical in
  if s < a then (-s, ρ)
  else if s < a + π * ρ then (-a - ρ * sin ((s - a) / ρ), ρ * cos ((s - a) / ρ))
  else if s < 3 * a + π * ρ then (s - 2 * a - π * ρ, -ρ)
  else if s < 3 * a + 2 * π * ρ then (a + ρ * sin ((s - 3 * a - π * ρ) / ρ), -ρ * cos ((s - 3 * a - π * ρ) / ρ))
  else (4 * a + 2 * π * ρ - s, ρ)

namespace RoundedRectangle

/-- half the straight part -/
noncomputable def halfStraight (R : RoundedRectangle) : ℝ := (R.width - R.height) / 2

/-- the radius of the round parts -/
noncomputable def radius (R : RoundedRectangle) : ℝ := R.height / 2

theorem perimeter_eq (R : RoundedRectangle) : R.perimeter = 4 * R.halfStraight + 2 * π * R.radius := by
  unfold perimeter straightWidth radiusHeight halfStraight radius; ring

theorem offset_eq (R : RoundedRectangle) (h0 : 0 < R.height) (hw : R.height ≤ R.width) (f : ℝ) (hf : f < 1) :
    R.offset f = track R.halfStraight R.radius (f * R.perimeter) := by
  have e1 : R.straightWidth * 0.5 = R.halfStraight := by unfold straightWidth halfStraight; ring
  have e2 : R.circlePerimeter * 0.5 = π * R.radius := by unfold circlePerimeter radius; ring
  have e3 : R.straightWidth * 1.5 = 3 * R.halfStraight := by unfold straightWidth halfStraight; ring
  have e4 : R.circlePerimeter = 2 * π * R.radius := by unfold circlePerimeter radius; ring
  have e5 : R.straightWidth = 2 * R.halfStraight := by unfold straightWidth halfStraight; ring
  have e6 : R.radiusHeight = R.radius := by unfold radiusHeight radius; ring
  have ha : 0 ≤ R.halfStraight := by unfold halfStraight; linarith
  have hρ : 0 < R.radius := by unfold radius; linarith
  have hP := R.perimeter_eq
  have hπ := pi_pos
  have hπρ : 0 < π * R.radius := by positivity
  have hlt : f * R.perimeter < R.perimeter := by
    have : 0 < R.perimeter := by rw [hP]; nlinarith
    nlinarith
  generalize hs : f * R.perimeter = s at *
  unfold offset track
  simp only [hs, e1, e2, e3, e6, if_pos hf.le]
  rw [e4, e5]
  generalize R.halfStraight = a at *
  generalize R.radius = ρ at *
  by_cases c1 : s < a
  · simp [c1]
  by_cases c2 : s < a + π * ρ
  · simp only [c1, c2, if_true, if_false]
    have : π * 0.5 + π * ((s - a) / (π * ρ)) = (s - a) / ρ + π / 2 := by field_simp; ring
    rw [this, cos_add_pi_div_two, sin_add_pi_div_two]
    congr 1; ring
  by_cases c3 : s < 3 * a + π * ρ
  · simp only [c1, c2, c3, if_true, if_false]
    have : a ≠ 0 := by intro h; apply c2; linarith
    congr 1
    field_simp; ring
  by_cases c4 : s < 3 * a + 2 * π * ρ
  · simp only [c1, c2, c3, c4, if_true, if_false]
    have : π * 1.5 + π * ((s - 3 * a + π * ρ) / (π * ρ)) = ((s - 3 * a - π * ρ) / ρ - π / 2) + 2 * π + 2 * π := by
      field_simp; ring
    rw [this, cos_add_two_pi, cos_add_two_pi, sin_add_two_pi, sin_add_two_pi, cos_sub_pi_div_two, sin_sub_pi_div_two]
    congr 1 <;> ring
  · simp only [c1, c2, c3, c4, if_false]
    have : a ≠ 0 := by intro h; apply c4; rw [hP] at hlt; linarith
    congr 1
    field_simp; ring

end RoundedRectangle

/-! ## the five pieces, with both end points -/

section
variable {a ρ s t : ℝ}

theorem track1 (hρ : 0 < ρ) (h : s ≤ a) : track a ρ s = (-s, ρ) := by
  have hp : 0 < π * ρ := mul_pos pi_pos hρ
  rcases h.lt_or_eq with h | rfl
  · simp [track, h]
  · have : s < s + π * ρ := by linarith
    simp [track, this]

theorem track4 (ha : 0 ≤ a) (hρ : 0 < ρ) (h1 : 3 * a + π * ρ ≤ s) (h2 : s ≤ 3 * a + 2 * π * ρ) :
    track a ρ s = (a + ρ * sin ((s - 3 * a - π * ρ) / ρ), -ρ * cos ((s - 3 * a - π * ρ) / ρ)) := by
  have hp : 0 < π * ρ := mul_pos pi_pos hρ
  have c1 : ¬ s < a := by linarith
  have c2 : ¬ s < a + π * ρ := by linarith
  have c3 : ¬ s < 3 * a + π * ρ := by linarith
  rcases h2.lt_or_eq with h | h
  · simp only [track, c1, c2, c3, h, if_true, if_false]
  · have c4 : ¬ s < 3 * a + 2 * π * ρ := by linarith
    simp only [track, c1, c2, c3, c4, if_false]
    have : (s - 3 * a - π * ρ) / ρ = π := by rw [h]; field_simp; ring
    rw [this, sin_pi, cos_pi, h]
    ext <;> simp <;> ring

theorem track3 (ha : 0 ≤ a) (hρ : 0 < ρ) (h1 : a + π * ρ ≤ s) (h2 : s ≤ 3 * a + π * ρ) :
    track a ρ s = (s - 2 * a - π * ρ, -ρ) := by
  have hp : 0 < π * ρ := mul_pos pi_pos hρ
  have c1 : ¬ s < a := by linarith
  have c2 : ¬ s < a + π * ρ := by linarith
  rcases h2.lt_or_eq with h | h
  · simp only [track, c1, c2, h, if_true, if_false]
  · rw [track4 ha hρ h.ge (by linarith)]
    have : (s - 3 * a - π * ρ) / ρ = 0 := by rw [h]; simp
    rw [this, sin_zero, cos_zero, h]
    ext <;> simp <;> ring

theorem track2 (ha : 0 ≤ a) (hρ : 0 < ρ) (h1 : a ≤ s) (h2 : s ≤ a + π * ρ) :
    track a ρ s = (-a - ρ * sin ((s - a) / ρ), ρ * cos ((s - a) / ρ)) := by
  have c1 : ¬ s < a := by linarith
  rcases h2.lt_or_eq with h | h
  · simp only [track, c1, h, if_true, if_false]
  · rw [track3 ha hρ h.ge (by linarith)]
    have : (s - a) / ρ = π := by rw [h]; field_simp; ring
    rw [this, sin_pi, cos_pi, h]
    ext <;> simp <;> ring

theorem track5 (ha : 0 ≤ a) (hρ : 0 < ρ) (h1 : 3 * a + 2 * π * ρ ≤ s) : track a ρ s = (4 * a + 2 * π * ρ - s, ρ) := by
  have hp : 0 < π * ρ := mul_pos pi_pos hρ
  have c1 : ¬ s < a := by linarith
  have c2 : ¬ s < a + π * ρ := by linarith
  have c3 : ¬ s < 3 * a + π * ρ := by linarith
  have c4 : ¬ s < 3 * a + 2 * π * ρ := by linarith
  simp only [track, c1, c2, c3, c4, if_false]

/-- in which piece a point of the path lies -/
theorem pieces (s a ρ : ℝ) : s ≤ a ∨ (a ≤ s ∧ s ≤ a + π * ρ) ∨ (a + π * ρ ≤ s ∧ s ≤ 3 * a + π * ρ) ∨
    (3 * a + π * ρ ≤ s ∧ s ≤ 3 * a + 2 * π * ρ) ∨ 3 * a + 2 * π * ρ ≤ s := by
  rcases le_total s a with h | h1
  · exact .inl h
  rcases le_total s (a + π * ρ) with h | h2
  · exact .inr (.inl ⟨h1, h⟩)
  rcases le_total s (3 * a + π * ρ) with h | h3
  · exact .inr (.inr (.inl ⟨h2, h⟩))
  rcases le_total s (3 * a + 2 * π * ρ) with h | h4
  · exact .inr (.inr (.inr (.inl ⟨h3, h⟩)))
  · exact .inr (.inr (.inr (.inr h4)))

/-- the second half of the path is the first one, reflected in the centre -/
theorem track_half (ha : 0 ≤ a) (hρ : 0 < ρ) (h0 : 0 ≤ s) (h : s ≤ 2 * a + π * ρ) :
    track a ρ (s + (2 * a + π * ρ)) = (-(track a ρ s).1, -(track a ρ s).2) := by
  have hp : 0 < π * ρ := mul_pos pi_pos hρ
  rcases le_total s a with h1 | h1
  · rw [track1 hρ h1, track3 ha hρ (by linarith) (by linarith)]
    ext <;> simp <;> ring
  rcases le_total s (a + π * ρ) with h2 | h2
  · rw [track2 ha hρ h1 h2, track4 ha hρ (by linarith) (by linarith)]
    have : (s + (2 * a + π * ρ) - 3 * a - π * ρ) / ρ = (s - a) / ρ := by ring
    rw [this]
    ext <;> simp <;> ring
  · rw [track3 ha hρ h2 (by linarith), track5 ha hρ (by linarith)]
    ext <;> simp <;> ring

/-- backwards the path is the mirror image -/
theorem track_mirror (ha : 0 ≤ a) (hρ : 0 < ρ) (_ : 0 ≤ s) (_ : s ≤ 4 * a + 2 * π * ρ) :
    track a ρ (4 * a + 2 * π * ρ - s) = (-(track a ρ s).1, (track a ρ s).2) := by
  have hp : 0 < π * ρ := mul_pos pi_pos hρ
  rcases pieces s a ρ with h1 | ⟨h1, h2⟩ | ⟨h1, h2⟩ | ⟨h1, h2⟩ | h1
  · rw [track1 hρ h1, track5 ha hρ (by linarith)]
    ext <;> simp
  · rw [track2 ha hρ h1 h2, track4 ha hρ (by linarith) (by linarith)]
    have : (4 * a + 2 * π * ρ - s - 3 * a - π * ρ) / ρ = π - (s - a) / ρ := by field_simp; ring
    rw [this, sin_pi_sub, cos_pi_sub]
    ext <;> simp <;> ring
  · rw [track3 ha hρ h1 h2, track3 ha hρ (by linarith) (by linarith)]
    ext <;> simp <;> ring
  · rw [track4 ha hρ h1 h2, track2 ha hρ (by linarith) (by linarith)]
    have : (4 * a + 2 * π * ρ - s - a) / ρ = π - (s - 3 * a - π * ρ) / ρ := by field_simp; ring
    rw [this, sin_pi_sub, cos_pi_sub]
    ext <;> simp <;> ring
  · rw [track5 ha hρ h1, track1 hρ (by linarith)]

theorem angle_mem (hρ : 0 < ρ) (h1 : a ≤ s) (h2 : s ≤ a + π * ρ) : (s - a) / ρ ∈ Set.Icc 0 π :=
  ⟨div_nonneg (by linarith) hρ.le, by rw [div_le_iff₀ hρ]; linarith⟩

/-- the first half lies on one side, and touches the axis only at its ends -/
theorem track_side (ha : 0 ≤ a) (hρ : 0 < ρ) (h0 : 0 ≤ s) (h : s ≤ 2 * a + π * ρ) :
    (track a ρ s).1 ≤ 0 ∧ ((track a ρ s).1 = 0 → s = 0 ∨ s = 2 * a + π * ρ) := by
  have hp : 0 < π * ρ := mul_pos pi_pos hρ
  rcases le_total s a with h1 | h1
  · rw [track1 hρ h1]
    exact ⟨by simpa using h0, fun e => .inl (by simpa using e)⟩
  rcases le_total s (a + π * ρ) with h2 | h2
  · rw [track2 ha hρ h1 h2]
    have hm := angle_mem hρ h1 h2
    have hs := sin_nonneg_of_mem_Icc hm
    have hρs := mul_nonneg hρ.le hs
    refine ⟨by simp only; linarith, fun e => ?_⟩
    simp only at e
    have a0 : a = 0 := by linarith
    have s0 : sin ((s - a) / ρ) = 0 := by
      have : ρ * sin ((s - a) / ρ) = 0 := by linarith
      exact (mul_eq_zero.1 this).resolve_left hρ.ne'
    by_contra hn
    push Not at hn
    have p1 : 0 < (s - a) / ρ := div_pos (by rcases h0.lt_or_eq with h | h <;> [linarith; exact absurd h.symm hn.1]) hρ
    have p2 : (s - a) / ρ < π := by
      rw [div_lt_iff₀ hρ]
      rcases h2.lt_or_eq with h | h
      · linarith
      · exact absurd (by linarith) hn.2
    exact absurd s0 (sin_pos_of_pos_of_lt_pi p1 p2).ne'
  · rw [track3 ha hρ h2 (by linarith)]
    exact ⟨by simp only; linarith, fun e => .inr (by simp only at e; linarith)⟩

theorem track_inj_half (ha : 0 ≤ a) (hρ : 0 < ρ) (_ : 0 ≤ s) (hst : s ≤ t) (h : t ≤ 2 * a + π * ρ)
    (e : track a ρ s = track a ρ t) : s = t := by
  have hp : 0 < π * ρ := mul_pos pi_pos hρ
  have div_inj : ∀ {u v : ℝ}, (u - a) / ρ = (v - a) / ρ → u = v := by
    intro u v h
    rw [div_left_inj' hρ.ne'] at h
    linarith
  rcases le_total t a with t1 | t1
  · rw [track1 hρ (hst.trans t1), track1 hρ t1] at e
    simpa using (Prod.ext_iff.1 e).1
  rcases le_total t (a + π * ρ) with t2 | t2
  · rcases le_total s a with s1 | s1
    · rw [track1 hρ s1, track2 ha hρ t1 t2] at e
      obtain ⟨e1, e2⟩ := Prod.ext_iff.1 e
      simp only at e1 e2
      have hs := mul_nonneg hρ.le (sin_nonneg_of_mem_Icc (angle_mem hρ t1 t2))
      have hc : cos ((t - a) / ρ) = cos 0 := by
        rw [cos_zero]; exact mul_left_cancel₀ hρ.ne' (by linarith)
      have := injOn_cos (angle_mem hρ t1 t2) ⟨le_rfl, pi_pos.le⟩ hc
      have ht : t = a := by rw [div_eq_zero_iff] at this; rcases this with h | h <;> linarith
      linarith
    · rw [track2 ha hρ s1 (hst.trans t2), track2 ha hρ t1 t2] at e
      have e2 := (Prod.ext_iff.1 e).2
      simp only at e2
      exact div_inj (injOn_cos (angle_mem hρ s1 (hst.trans t2)) (angle_mem hρ t1 t2) (mul_left_cancel₀ hρ.ne' e2))
  · rw [track3 ha hρ t2 (by linarith)] at e
    rcases le_total s a with s1 | s1
    · rw [track1 hρ s1] at e
      have e2 := (Prod.ext_iff.1 e).2
      simp only at e2
      linarith
    rcases le_total s (a + π * ρ) with s2 | s2
    · rw [track2 ha hρ s1 s2] at e
      obtain ⟨e1, e2⟩ := Prod.ext_iff.1 e
      simp only at e1 e2
      have hs := mul_nonneg hρ.le (sin_nonneg_of_mem_Icc (angle_mem hρ s1 s2))
      have hc : cos ((s - a) / ρ) = cos π := by
        rw [cos_pi]; exact mul_left_cancel₀ hρ.ne' (by linarith)
      have := injOn_cos (angle_mem hρ s1 s2) ⟨pi_pos.le, le_rfl⟩ hc
      rw [div_eq_iff hρ.ne'] at this
      linarith
    · rw [track3 ha hρ s2 (by linarith)] at e
      have e1 := (Prod.ext_iff.1 e).1
      simp only at e1
      linarith

theorem track_inj (ha : 0 ≤ a) (hρ : 0 < ρ) (h0 : 0 ≤ s) (hst : s ≤ t) (ht : t < 4 * a + 2 * π * ρ)
    (e : track a ρ s = track a ρ t) : s = t := by
  have hp : 0 < π * ρ := mul_pos pi_pos hρ
  rcases le_total t (2 * a + π * ρ) with t1 | t1
  · exact track_inj_half ha hρ h0 hst t1 e
  have mt := track_mirror (s := t) ha hρ (by linarith) ht.le
  rcases le_total s (2 * a + π * ρ) with s1 | s1
  · have hs := track_side ha hρ h0 s1
    have ht' := track_side (s := 4 * a + 2 * π * ρ - t) ha hρ (by linarith) (by linarith)
    rw [mt] at ht'
    simp only at ht'
    rw [← e] at ht'
    have x0 : (track a ρ s).1 = 0 := le_antisymm hs.1 (by linarith [ht'.1])
    have t2 : t = 2 * a + π * ρ := by
      rcases ht'.2 (by rw [x0]; simp) with h | h <;> linarith
    exact track_inj_half ha hρ h0 hst t2.le e
  · have ms := track_mirror (s := s) ha hρ h0 (by linarith)
    have := track_inj_half (s := 4 * a + 2 * π * ρ - t) (t := 4 * a + 2 * π * ρ - s) ha hρ (by linarith) (by linarith)
      (by linarith) (by rw [ms, mt, e])
    linarith

theorem track_continuous (ha : 0 ≤ a) (hρ : 0 < ρ) : Continuous (track a ρ) := by
  have hp : 0 < π * ρ := mul_pos pi_pos hρ
  have e : (Set.univ : Set ℝ) = Set.Iic a ∪ (Set.Icc a (a + π * ρ) ∪ (Set.Icc (a + π * ρ) (3 * a + π * ρ) ∪
      (Set.Icc (3 * a + π * ρ) (3 * a + 2 * π * ρ) ∪ Set.Ici (3 * a + 2 * π * ρ)))) := by
    ext s; simpa using pieces s a ρ
  rw [← continuousOn_univ, e]
  refine ContinuousOn.union_of_isClosed ?_ (ContinuousOn.union_of_isClosed ?_ (ContinuousOn.union_of_isClosed ?_
    (ContinuousOn.union_of_isClosed ?_ ?_ isClosed_Icc isClosed_Ici) isClosed_Icc
      (isClosed_Icc.union isClosed_Ici)) isClosed_Icc (isClosed_Icc.union (isClosed_Icc.union isClosed_Ici))) isClosed_Iic
      (isClosed_Icc.union (isClosed_Icc.union (isClosed_Icc.union isClosed_Ici)))
  · exact ContinuousOn.congr (by fun_prop) (fun s h => track1 hρ h)
  · exact ContinuousOn.congr (by fun_prop) (fun s h => track2 ha hρ h.1 h.2)
  · exact ContinuousOn.congr (by fun_prop) (fun s h => track3 ha hρ h.1 h.2)
  · exact ContinuousOn.congr (by fun_prop) (fun s h => track4 ha hρ h.1 h.2)
  · exact ContinuousOn.congr (by fun_prop) (fun s h => track5 ha hρ h)

end

end Clubs
