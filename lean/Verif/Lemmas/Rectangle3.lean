import Verif.Lemmas.Rectangle
import Mathlib.Analysis.SpecialFunctions.Trigonometric.Bounds
import Mathlib.Analysis.Real.Pi.Bounds

/-!
# Points of the path that are close to each other are not far apart along the path
-/

namespace Clubs

open Real

variable {a ρ s t δ : ℝ}

theorem track_close_half (ha : 0 ≤ a) (hρ : 0 < ρ) (hδ : δ < ρ) (hst : s ≤ t) (h : t ≤ 2 * a + π * ρ)
    (e1 : |(track a ρ s).1 - (track a ρ t).1| ≤ δ) (e2 : |(track a ρ s).2 - (track a ρ t).2| ≤ δ) : t - s ≤ 3 * δ := by
  have hp : 0 < π * ρ := mul_pos pi_pos hρ
  have hπ : π < 3.15 := pi_lt_d2
  have hπ0 := pi_pos
  have hδ0 : 0 ≤ δ := (abs_nonneg _).trans e1
  rw [abs_le] at e1 e2
  have jordan : ∀ {θ : ℝ}, 0 ≤ θ → θ ≤ π / 2 → θ ≤ 2 * sin θ := by
    intro θ t0 t1
    have := mul_le_sin t0 t1
    have h2 : θ / 2 ≤ 2 / π * θ := by
      rw [div_mul_eq_mul_div, div_le_div_iff₀ (by norm_num) hπ0]; nlinarith
    linarith
  rcases le_total t a with t1 | t1
  · rw [track1 hρ (hst.trans t1), track1 hρ t1] at e1
    simp only at e1
    linarith
  rcases le_total t (a + π * ρ) with t2 | t2
  · have mt := angle_mem hρ t1 t2
    rcases le_total s a with s1 | s1
    · rw [track1 hρ s1, track2 ha hρ t1 t2] at e1 e2
      simp only at e1 e2
      set θ := (t - a) / ρ with hθ
      have tθ : t - a = ρ * θ := by rw [hθ]; field_simp
      have hs := mul_nonneg hρ.le (sin_nonneg_of_mem_Icc mt)
      have hc : 0 < cos θ := by
        have : 0 < ρ * cos θ := by linarith
        exact pos_of_mul_pos_right this hρ.le
      have hh : θ ≤ π / 2 := by
        by_contra hn
        push Not at hn
        exact absurd hc (not_lt.2 (cos_nonpos_of_pi_div_two_le_of_le hn.le (by linarith [mt.2])))
      have := mul_le_mul_of_nonneg_left (jordan mt.1 hh) hρ.le
      linarith
    · have ms := angle_mem hρ s1 (hst.trans t2)
      rw [track2 ha hρ s1 (hst.trans t2), track2 ha hρ t1 t2] at e1 e2
      simp only at e1 e2
      set θ := (t - a) / ρ with hθ
      set η := (s - a) / ρ with hη
      have tθ : t - a = ρ * θ := by rw [hθ]; field_simp
      have sη : s - a = ρ * η := by rw [hη]; field_simp
      have hle : η ≤ θ := by
        have : ρ * η ≤ ρ * θ := by linarith
        exact le_of_mul_le_mul_left this hρ
      have q1 : (ρ * sin θ - ρ * sin η) ^ 2 ≤ δ ^ 2 := sq_le_sq' (by linarith) (by linarith)
      have q2 : (ρ * cos η - ρ * cos θ) ^ 2 ≤ δ ^ 2 := sq_le_sq' (by linarith) (by linarith)
      have q3 : (ρ * sin θ - ρ * sin η) ^ 2 + (ρ * cos η - ρ * cos θ) ^ 2 = ρ ^ 2 * (2 - 2 * cos (θ - η)) := by
        rw [cos_sub]
        have h1 := sin_sq_add_cos_sq θ
        have h2 := sin_sq_add_cos_sq η
        linear_combination ρ ^ 2 * h1 + ρ ^ 2 * h2
      have q4 : 2 - 2 * cos (θ - η) = 4 * sin ((θ - η) / 2) ^ 2 := by
        have : θ - η = 2 * ((θ - η) / 2) := by ring
        rw [this, cos_two_mul, cos_sq']
        ring_nf
      have q5 := jordan (θ := (θ - η) / 2) (by linarith) (by linarith [mt.2, ms.1])
      have q6 : (ρ * (θ - η)) ^ 2 ≤ 4 * (ρ ^ 2 * (4 * sin ((θ - η) / 2) ^ 2)) := by
        have : ((θ - η) / 2) ^ 2 ≤ (2 * sin ((θ - η) / 2)) ^ 2 := pow_le_pow_left₀ (by linarith) q5 2
        nlinarith [sq_nonneg ρ]
      have q7 : (ρ * (θ - η)) ^ 2 ≤ (3 * δ) ^ 2 := by
        rw [q4] at q3
        nlinarith [sq_nonneg δ]
      have := (abs_le.1 (abs_le_of_sq_le_sq q7 (by linarith))).2
      linarith
  · rw [track3 ha hρ t2 (by linarith)] at e1 e2
    rcases le_total s a with s1 | s1
    · rw [track1 hρ s1] at e2
      simp only at e2
      linarith
    rcases le_total s (a + π * ρ) with s2 | s2
    · rw [track2 ha hρ s1 s2] at e1 e2
      simp only at e1 e2
      have ms := angle_mem hρ s1 s2
      set η := (s - a) / ρ with hη
      have sη : s - a = ρ * η := by rw [hη]; field_simp
      have hs := mul_nonneg hρ.le (sin_nonneg_of_mem_Icc ms)
      have hc : cos η < 0 := by
        by_contra hn
        push Not at hn
        have := mul_nonneg hρ.le hn
        linarith
      have hh : π / 2 ≤ η := by
        by_contra hn
        push Not at hn
        exact absurd hc (not_lt.2 (cos_nonneg_of_neg_pi_div_two_le_of_le (by linarith [ms.1]) hn.le))
      have := mul_le_mul_of_nonneg_left (jordan (θ := π - η) (by linarith [ms.2]) (by linarith)) hρ.le
      rw [sin_pi_sub] at this
      have : ρ * (π - η) = π * ρ - ρ * η := by ring
      linarith
    · rw [track3 ha hρ s2 (by linarith)] at e1
      simp only at e1
      linarith

/-- the path around -/
theorem track_close (ha : δ < a) (hρ : 0 < ρ) (hδ : δ < ρ) (h0 : 0 ≤ s) (hst : s ≤ t) (ht : t ≤ 4 * a + 2 * π * ρ)
    (e1 : |(track a ρ s).1 - (track a ρ t).1| ≤ δ) (e2 : |(track a ρ s).2 - (track a ρ t).2| ≤ δ) :
    t - s ≤ 3 * δ ∨ 4 * a + 2 * π * ρ - (t - s) ≤ 3 * δ := by
  have hp : 0 < π * ρ := mul_pos pi_pos hρ
  have hδ0 : 0 ≤ δ := (abs_nonneg _).trans e1
  have ha0 : 0 ≤ a := hδ0.trans ha.le
  rcases le_total t (2 * a + π * ρ) with t1 | t1
  · exact .inl (track_close_half ha0 hρ hδ hst t1 e1 e2)
  have mt := track_mirror (s := t) ha0 hρ (by linarith) ht
  rcases le_total s (2 * a + π * ρ) with s1 | s1
  · have hs := track_side ha0 hρ h0 s1
    have ht' := track_side (s := 4 * a + 2 * π * ρ - t) ha0 hρ (by linarith) (by linarith)
    rw [mt] at ht'
    simp only at ht'
    rw [abs_le] at e1 e2
    -- both points are on the straight parts
    have near : ∀ u, 0 ≤ u → u ≤ 2 * a + π * ρ → -δ ≤ (track a ρ u).1 →
        (u ≤ δ ∧ (track a ρ u).2 = ρ) ∨ (2 * a + π * ρ - u ≤ δ ∧ (track a ρ u).2 = -ρ) := by
      intro u u0 u1 ux
      rcases le_total u a with v1 | v1
      · rw [track1 hρ v1] at ux ⊢
        exact .inl ⟨by simp only at ux; linarith, rfl⟩
      rcases le_total u (a + π * ρ) with v2 | v2
      · rw [track2 ha0 hρ v1 v2] at ux
        simp only at ux
        have := mul_nonneg hρ.le (sin_nonneg_of_mem_Icc (angle_mem hρ v1 v2))
        linarith
      · rw [track3 ha0 hρ v2 (by linarith)] at ux ⊢
        exact .inr ⟨by simp only at ux; linarith, rfl⟩
    have n1 := near s h0 s1 (by linarith [ht'.1])
    have n2 := near (4 * a + 2 * π * ρ - t) (by linarith) (by linarith) (by rw [mt]; simp only; linarith [hs.1])
    rw [mt] at n2
    simp only at n2
    rcases n1 with ⟨n1, m1⟩ | ⟨n1, m1⟩ <;> rcases n2 with ⟨n2, m2⟩ | ⟨n2, m2⟩
    · right; linarith
    · rw [m1, m2] at e2; linarith
    · rw [m1, m2] at e2; linarith
    · left; linarith
  · have ms := track_mirror (s := s) ha0 hρ h0 (by linarith)
    left
    have := track_close_half (s := 4 * a + 2 * π * ρ - t) (t := 4 * a + 2 * π * ρ - s) (δ := δ) ha0 hρ hδ (by linarith)
      (by linarith) (by rw [ms, mt]; simp only; rw [abs_le] at e1 ⊢; constructor <;> linarith)
      (by rw [ms, mt]; simp only; rw [abs_le] at e2 ⊢; constructor <;> linarith)
    linarith

end Clubs
