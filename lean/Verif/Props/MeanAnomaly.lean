import Verif.Props.Derived
import Verif.Props.Geometry
import Mathlib.Analysis.SpecialFunctions.Trigonometric.Bounds
import Mathlib.Analysis.SpecialFunctions.Trigonometric.Deriv
import Mathlib.Analysis.Calculus.Deriv.MeanValue

/-!
# The mean anomaly of an orbit stays in one turn

for eccentricities up to three quarters.
-/

namespace Tatc.Props
open Tatc.Orbit Tatc.Num Tatc.Spec

/-- `t - sin t` is at least a sixth of the cube of the sine. -/
theorem sin_add_cube_le {t : ℝ} (ht : 0 ≤ t) : Real.sin t + Real.sin t ^ 3 / 6 ≤ t := by
  let f : ℝ → ℝ := fun t => t - Real.sin t - Real.sin t ^ 3 / 6
  have hd : ∀ x, HasDerivAt f (1 - Real.cos x - (3 * Real.sin x ^ 2 * Real.cos x) / 6) x := by
    intro x
    have h3 := ((Real.hasDerivAt_sin x).pow 3).div_const 6
    have := ((hasDerivAt_id x).sub (Real.hasDerivAt_sin x)).sub h3
    refine this.congr_deriv ?_
    norm_num
  have hmono : MonotoneOn f (Set.Ici 0) := by
    apply monotoneOn_of_deriv_nonneg (convex_Ici 0)
    · exact fun x _ => (hd x).continuousAt.continuousWithinAt
    · exact fun x _ => (hd x).differentiableAt.differentiableWithinAt
    · intro x _
      rw [(hd x).deriv]
      have hs := Real.sin_sq_add_cos_sq x
      have h1 := Real.cos_le_one x
      have h2 := Real.neg_one_le_cos x
      have : 1 - Real.cos x - 3 * Real.sin x ^ 2 * Real.cos x / 6 =
          (1 - Real.cos x) * (1 - (1 + Real.cos x) * Real.cos x / 2) := by
        rw [show Real.sin x ^ 2 = 1 - Real.cos x ^ 2 by linarith]; ring
      rw [this]
      apply mul_nonneg (by linarith)
      nlinarith
  have := hmono (Set.mem_Ici.mpr le_rfl) (Set.mem_Ici.mpr ht) ht
  simp only [f, Real.sin_zero] at this
  linarith

/-- The series of the mean anomaly, in radians. -/
noncomputable def meanSeries (e t : ℝ) : ℝ :=
  t - 2 * e * Real.sin t + (3 / 4 * e ^ 2 + 1 / 8 * e ^ 4) * Real.sin (2 * t) -
    1 / 3 * e ^ 3 * Real.sin (3 * t) + 5 / 32 * e ^ 4 * Real.sin (4 * t)

theorem trueToMean_series (x e : ℝ) : trueToMean x e = degrees (meanSeries e (radians x)) := rfl

/-- The factor of the sine in the series. -/
noncomputable def meanFactor (e c : ℝ) : ℝ :=
  -2 * e + (3 / 2 * e ^ 2 + 1 / 4 * e ^ 4) * c - 1 / 3 * e ^ 3 * (4 * c ^ 2 - 1) +
    5 / 32 * e ^ 4 * (8 * c ^ 3 - 4 * c)

theorem meanSeries_eq (e t : ℝ) : meanSeries e t = t + Real.sin t * meanFactor e (Real.cos t) := by
  have h2 : Real.sin (2 * t) = 2 * Real.sin t * Real.cos t := Real.sin_two_mul t
  have hs := Real.sin_sq_add_cos_sq t
  have h3 : Real.sin (3 * t) = Real.sin t * (4 * Real.cos t ^ 2 - 1) := by
    rw [Real.sin_three_mul]
    have : Real.sin t ^ 3 = Real.sin t * (1 - Real.cos t ^ 2) := by
      rw [show (1 - Real.cos t ^ 2) = Real.sin t ^ 2 by linarith]; ring
    rw [this]; ring
  have h4 : Real.sin (4 * t) = Real.sin t * (8 * Real.cos t ^ 3 - 4 * Real.cos t) := by
    rw [show 4 * t = 2 * (2 * t) by ring, Real.sin_two_mul (2 * t), h2, Real.cos_two_mul]; ring
  unfold meanSeries meanFactor
  rw [h2, h3, h4]; ring

/-- Nonnegative products for the bounds below. -/
theorem products_nonneg {u v x y : ℝ} (hu : 0 ≤ u) (hv : 0 ≤ v) (hx : 0 ≤ x) (hy : 0 ≤ y) (a b c d : Nat) :
    0 ≤ u ^ a * v ^ b * (x ^ c * y ^ d) := by positivity

theorem factor_high {e c : ℝ} (he0 : 0 ≤ e) (he1 : e ≤ 3 / 4) (hc0 : 1 / 2 ≤ c) (hc1 : c ≤ 1) :
    0 < 1 + (1 - c ^ 2) / 6 + meanFactor e c := by
  have P := products_nonneg (u := e) (v := (3 / 4 - e)) (x := (c - 1 / 2)) (y := (1 - c)) (by linarith) (by linarith) (by linarith) (by linarith)
  unfold meanFactor
  linarith [P 0 4 0 3, P 0 4 1 2, P 0 4 2 1, P 0 4 3 0, P 1 3 0 3, P 1 3 1 2, P 1 3 2 1, P 1 3 3 0, P 2 2 0 3, P 2 2 1 2, P 2 2 2 1, P 2 2 3 0, P 3 1 0 3, P 3 1 1 2, P 3 1 2 1, P 3 1 3 0, P 4 0 0 3, P 4 0 1 2, P 4 0 2 1, P 4 0 3 0]

theorem factor_mid {e c : ℝ} (he0 : 0 ≤ e) (he1 : e ≤ 3 / 4) (hc0 : 0 ≤ c) (hc1 : c ≤ 1 / 2) :
    0 < 1.57 - 1.074 * c + (1 - c ^ 2 / 2) * meanFactor e c := by
  have P := products_nonneg (u := e) (v := (3 / 4 - e)) (x := c) (y := (1 / 2 - c)) (by linarith) (by linarith) (by linarith) (by linarith)
  unfold meanFactor
  linarith [P 0 4 0 5, P 0 4 1 4, P 0 4 2 3, P 0 4 3 2, P 0 4 4 1, P 0 4 5 0, P 1 3 0 5, P 1 3 1 4, P 1 3 2 3, P 1 3 3 2, P 1 3 4 1, P 1 3 5 0, P 2 2 0 5, P 2 2 1 4, P 2 2 2 3, P 2 2 3 2, P 2 2 4 1, P 2 2 5 0, P 3 1 0 5, P 3 1 1 4, P 3 1 2 3, P 3 1 3 2, P 3 1 4 1, P 3 1 5 0, P 4 0 0 5, P 4 0 1 4, P 4 0 2 3, P 4 0 3 2, P 4 0 4 1, P 4 0 5 0]

theorem factor_low {e c : ℝ} (he0 : 0 ≤ e) (he1 : e ≤ 3 / 4) (hc0 : -1 ≤ c) (hc1 : c ≤ 0) :
    0 < 1.57 - c + (1 - c ^ 2 / 2) * meanFactor e c := by
  have P := products_nonneg (u := e) (v := (3 / 4 - e)) (x := (c + 1)) (y := (-c)) (by linarith) (by linarith) (by linarith) (by linarith)
  unfold meanFactor
  linarith [P 0 4 0 5, P 0 4 1 4, P 0 4 2 3, P 0 4 3 2, P 0 4 4 1, P 0 4 5 0, P 1 3 0 5, P 1 3 1 4, P 1 3 2 3, P 1 3 3 2, P 1 3 4 1, P 1 3 5 0, P 2 2 0 5, P 2 2 1 4, P 2 2 2 3, P 2 2 3 2, P 2 2 4 1, P 2 2 5 0, P 3 1 0 5, P 3 1 1 4, P 3 1 2 3, P 3 1 3 2, P 3 1 4 1, P 3 1 5 0, P 4 0 0 5, P 4 0 1 4, P 4 0 2 3, P 4 0 3 2, P 4 0 4 1, P 4 0 5 0]

/-- The series is positive in the first half turn. -/
theorem meanSeries_pos {e t : ℝ} (he0 : 0 ≤ e) (he1 : e ≤ 3 / 4) (h0 : 0 < t) (h1 : t ≤ Real.pi) :
    0 < meanSeries e t := by
  rw [meanSeries_eq]
  have hpi := Real.pi_gt_d2
  have hs0 : 0 ≤ Real.sin t := Real.sin_nonneg_of_nonneg_of_le_pi h0.le h1
  have hsq := Real.sin_sq_add_cos_sq t
  have hc1 := Real.cos_le_one t
  have hc0 := Real.neg_one_le_cos t
  rcases le_or_gt 0 (meanFactor e (Real.cos t)) with hp | hp
  · have := mul_nonneg hs0 hp
    linarith
  -- the sine is at most `1 - c ^ 2 / 2`
  have hs1 : Real.sin t ≤ 1 - Real.cos t ^ 2 / 2 := by
    nlinarith [sq_nonneg (Real.sin t - 1)]
  have hmul : (1 - Real.cos t ^ 2 / 2) * meanFactor e (Real.cos t) ≤ Real.sin t * meanFactor e (Real.cos t) :=
    mul_le_mul_of_nonpos_right hs1 hp.le
  rcases le_total (1 / 2) (Real.cos t) with hc | hc
  · have hA := factor_high he0 he1 hc hc1
    rcases hs0.lt_or_eq with hs | hs
    · have h3 := sin_add_cube_le h0.le
      have : 0 < Real.sin t * (1 + (1 - Real.cos t ^ 2) / 6 + meanFactor e (Real.cos t)) := mul_pos hs hA
      have h4 : Real.sin t ^ 3 = Real.sin t * (1 - Real.cos t ^ 2) := by
        rw [show 1 - Real.cos t ^ 2 = Real.sin t ^ 2 by linarith]; ring
      rw [h4] at h3
      linarith
    · rw [← hs]; linarith
  · rcases le_total 0 (Real.cos t) with hc' | hc'
    · have hB := factor_mid he0 he1 hc' hc
      -- with `u` a quarter turn minus `t`, the cosine of `t` is the sine of `u`
      have hu : 1.57 - 1.074 * Real.cos t ≤ t := by
        rcases le_or_gt (Real.pi / 2) t with h | h
        · nlinarith
        · have hu0 : 0 < Real.pi / 2 - t := by linarith
          have hcos : Real.sin (Real.pi / 2 - t) = Real.cos t := Real.sin_pi_div_two_sub t
          have hu1 : Real.pi / 2 - t ≤ Real.pi / 6 := by
            by_contra hcon
            push Not at hcon
            have : Real.sin (Real.pi / 6) < Real.sin (Real.pi / 2 - t) :=
              Real.sin_lt_sin_of_lt_of_le_pi_div_two (by linarith) (by linarith) hcon
            rw [hcos, Real.sin_pi_div_six] at this
            linarith
          have hcube := Real.sin_gt_sub_cube hu0
          rw [hcos] at hcube
          have hpi2 := Real.pi_lt_d2
          have hsmall : Real.pi / 2 - t ≤ 0.525 := by linarith
          nlinarith [mul_nonneg hu0.le (sub_nonneg.mpr hsmall), sq_nonneg (Real.pi / 2 - t)]
      linarith
    · have hC := factor_low he0 he1 hc0 hc'
      have hu : 1.57 - Real.cos t ≤ t := by
        have h2 : Real.sin (t - Real.pi / 2) ≤ t - Real.pi / 2 := by
          apply Real.sin_le
          by_contra hcon
          push Not at hcon
          have : 0 < Real.cos t := Real.cos_pos_of_mem_Ioo ⟨by linarith, by linarith⟩
          linarith
        rw [Real.sin_sub_pi_div_two] at h2
        linarith
      linarith

/-- The factor of the sine is never positive. -/
theorem meanFactor_nonpos {e c : ℝ} (he0 : 0 ≤ e) (he1 : e ≤ 3 / 4) (hc0 : -1 ≤ c) (hc1 : c ≤ 1) :
    meanFactor e c ≤ 0 := by
  have h : meanFactor e c = e * (-2 + (3 / 2 * e + 1 / 4 * e ^ 3) * c - 1 / 3 * e ^ 2 * (4 * c ^ 2 - 1) +
      5 / 32 * e ^ 3 * (8 * c ^ 3 - 4 * c)) := by unfold meanFactor; ring
  have he2 : e ^ 2 ≤ 9 / 16 := by nlinarith
  have he3 : e ^ 3 ≤ 27 / 64 := by nlinarith
  have h1 : (3 / 2 * e + 1 / 4 * e ^ 3) * c ≤ 1.24 := by
    have : 0 ≤ 3 / 2 * e + 1 / 4 * e ^ 3 := by positivity
    nlinarith
  have h2 : -(1 / 3 * e ^ 2 * (4 * c ^ 2 - 1)) ≤ 0.19 := by
    have : 0 ≤ e ^ 2 * c ^ 2 := by positivity
    nlinarith
  have h3 : 8 * c ^ 3 - 4 * c ≤ 4 := by nlinarith [sq_nonneg (c + 1 / 2), sq_nonneg c]
  have h4 : 5 / 32 * e ^ 3 * (8 * c ^ 3 - 4 * c) ≤ 0.27 := by
    have : 0 ≤ 5 / 32 * e ^ 3 := by positivity
    nlinarith
  rw [h]
  exact mul_nonpos_of_nonneg_of_nonpos he0 (by linarith)

/-- In the first half turn the mean anomaly is positive and at most the true anomaly. -/
theorem trueToMean_half {x e : ℝ} (he0 : 0 ≤ e) (he1 : e ≤ 3 / 4) (h0 : 0 < x) (h1 : x ≤ 180) :
    0 < trueToMean x e ∧ trueToMean x e ≤ x := by
  have hpi := Real.pi_pos
  have r0 : 0 < radians x := by unfold radians; positivity
  have r1 : radians x ≤ Real.pi := by
    unfold radians; rw [show x * (Real.pi / 180) = x / 180 * Real.pi by ring]; nlinarith
  rw [trueToMean_series]
  constructor
  · have := meanSeries_pos he0 he1 r0 r1
    unfold degrees
    positivity
  · have hle : meanSeries e (radians x) ≤ radians x := by
      rw [meanSeries_eq]
      have := mul_nonpos_of_nonneg_of_nonpos (Real.sin_nonneg_of_nonneg_of_le_pi r0.le r1)
        (meanFactor_nonpos he0 he1 (Real.neg_one_le_cos (radians x)) (Real.cos_le_one (radians x)))
      linarith
    calc degrees (meanSeries e (radians x)) ≤ degrees (radians x) := by
          unfold degrees
          exact mul_le_mul_of_nonneg_right hle (by positivity)
      _ = x := by unfold degrees radians; field_simp

theorem trueToMean_reflect (x e : ℝ) : trueToMean (360 - x) e = 360 - trueToMean x e := by
  have a := (C51_symmetry x e 0).2.2.2
  have b := (C51_symmetry (-x) e 1).2.2.1
  push_cast at b
  rw [show 360 - x = -x + 360 * 1 by ring, b, a]; ring

/-- The mean anomaly of a true anomaly in one turn is in one turn. -/
theorem trueToMean_inTurn {x e : ℝ} (he0 : 0 ≤ e) (he1 : e ≤ 3 / 4) (hx : InTurn x) :
    InTurn (trueToMean x e) := by
  obtain ⟨h0, h1⟩ := hx
  rcases h0.lt_or_eq with h | h
  · rcases le_total x 180 with h' | h'
    · obtain ⟨a, b⟩ := trueToMean_half he0 he1 h h'
      exact ⟨a.le, by linarith⟩
    · obtain ⟨a, b⟩ := trueToMean_half he0 he1 (x := 360 - x) (by linarith) (by linarith)
      rw [trueToMean_reflect] at a b
      exact ⟨by linarith, by linarith⟩
  · rw [← h, (C51_coincide 0 e).2.2.2.1]; exact ⟨le_rfl, by norm_num⟩

end Tatc.Props
