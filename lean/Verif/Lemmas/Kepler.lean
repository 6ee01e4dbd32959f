import Mathlib.Analysis.SpecialFunctions.Trigonometric.ArctanDeriv
import Mathlib.Analysis.SpecialFunctions.Trigonometric.Bounds
import Mathlib.Analysis.Calculus.Deriv.MeanValue
import Verif.Spec.Kepler

/-!
# Lemmas: the eccentric anomaly as a function of the true anomaly
-/

namespace Tatc.Lemmas
open Tatc.Spec

/-- `√(1 - e²)`. -/
noncomputable def axisRatio (e : ℝ) : ℝ := Real.sqrt (1 - e ^ 2)

section
variable {e : ℝ} (he0 : 0 ≤ e) (he1 : e < 1)
include he0 he1

theorem axisRatio_pos : 0 < axisRatio e := Real.sqrt_pos.mpr (by nlinarith)

theorem axisRatio_sq : axisRatio e ^ 2 = 1 - e ^ 2 := Real.sq_sqrt (by nlinarith)

theorem axisRatio_le_one : axisRatio e ≤ 1 := by
  have := axisRatio_sq he0 he1
  have := axisRatio_pos he0 he1
  nlinarith [sq_nonneg e]

theorem one_add_cos_pos (ν : ℝ) : 0 < 1 + e * Real.cos ν := by
  have := Real.neg_one_le_cos ν
  nlinarith

theorem ecc_den_pos (ν : ℝ) : 0 < 1 + axisRatio e + e * Real.cos ν := by
  have := one_add_cos_pos he0 he1 ν
  have := axisRatio_pos he0 he1
  linarith

/-- The tangent of half of the difference between the true and the eccentric anomaly. -/
noncomputable def halfTan (e ν : ℝ) : ℝ := e * Real.sin ν / (1 + axisRatio e + e * Real.cos ν)

/-- The eccentric anomaly. -/
noncomputable def eccOf (e ν : ℝ) : ℝ := ν - 2 * Real.arctan (halfTan e ν)

/-- The mean anomaly. -/
noncomputable def meanOf (e ν : ℝ) : ℝ := eccOf e ν - e * Real.sin (eccOf e ν)

theorem halfTan_sq (ν : ℝ) : (1 + halfTan e ν ^ 2) * (1 + axisRatio e + e * Real.cos ν) ^ 2 =
    2 * (1 + axisRatio e) * (1 + e * Real.cos ν) := by
  have hD := (ecc_den_pos he0 he1 ν).ne'
  have hk := axisRatio_sq he0 he1
  have hs := Real.sin_sq_add_cos_sq ν
  unfold halfTan
  rw [div_pow, add_mul, div_mul_cancel₀ _ (pow_ne_zero 2 hD)]
  have : (e * Real.sin ν) ^ 2 = e ^ 2 - e ^ 2 * Real.cos ν ^ 2 := by
    rw [mul_pow, show Real.sin ν ^ 2 = 1 - Real.cos ν ^ 2 by linarith]; ring
  rw [this]
  nlinarith

theorem cos_eccOf (ν : ℝ) : Real.cos (eccOf e ν) = (e + Real.cos ν) / (1 + e * Real.cos ν) := by
  have hD := ecc_den_pos he0 he1 ν
  have hk := axisRatio_sq he0 he1
  have hkp := axisRatio_pos he0 he1
  have hP := one_add_cos_pos he0 he1 ν
  have hs := Real.sin_sq_add_cos_sq ν
  have hu := halfTan_sq he0 he1 ν
  have hu1 : 0 < 1 + halfTan e ν ^ 2 := by positivity
  have hc2 : Real.cos (2 * Real.arctan (halfTan e ν)) = (1 - halfTan e ν ^ 2) / (1 + halfTan e ν ^ 2) := by
    rw [Real.cos_two_mul, Real.cos_sq_arctan]
    field_simp
    ring
  have hs2 : Real.sin (2 * Real.arctan (halfTan e ν)) = 2 * halfTan e ν / (1 + halfTan e ν ^ 2) := by
    rw [Real.sin_two_mul, Real.sin_arctan, Real.cos_arctan]
    have : Real.sqrt (1 + halfTan e ν ^ 2) * Real.sqrt (1 + halfTan e ν ^ 2) = 1 + halfTan e ν ^ 2 :=
      Real.mul_self_sqrt hu1.le
    rw [show 2 * (halfTan e ν / Real.sqrt (1 + halfTan e ν ^ 2)) * (1 / Real.sqrt (1 + halfTan e ν ^ 2)) =
      2 * halfTan e ν / (Real.sqrt (1 + halfTan e ν ^ 2) * Real.sqrt (1 + halfTan e ν ^ 2)) by
        rw [div_mul_eq_div_div]; ring, this]
  unfold eccOf
  rw [Real.cos_sub, hc2, hs2]
  rw [mul_div_assoc', mul_div_assoc', ← add_div, div_eq_div_iff hu1.ne' hP.ne']
  have hD2 : (1 + axisRatio e + e * Real.cos ν) ^ 2 ≠ 0 := pow_ne_zero 2 hD.ne'
  have hh : halfTan e ν * (1 + axisRatio e + e * Real.cos ν) = e * Real.sin ν := div_mul_cancel₀ _ hD.ne'
  apply mul_right_cancel₀ hD2
  have e1 : halfTan e ν ^ 2 * (1 + axisRatio e + e * Real.cos ν) ^ 2 = (e * Real.sin ν) ^ 2 := by
    rw [← mul_pow, hh]
  have lhs : (Real.cos ν * (1 - halfTan e ν ^ 2) + Real.sin ν * (2 * halfTan e ν)) * (1 + e * Real.cos ν) *
      (1 + axisRatio e + e * Real.cos ν) ^ 2 =
      (Real.cos ν * ((1 + axisRatio e + e * Real.cos ν) ^ 2 - (e * Real.sin ν) ^ 2) +
        Real.sin ν * (2 * (e * Real.sin ν) * (1 + axisRatio e + e * Real.cos ν))) * (1 + e * Real.cos ν) := by
    rw [← e1, ← hh]; ring
  rw [lhs, mul_assoc (e + Real.cos ν), hu]
  have : Real.cos ν * ((1 + axisRatio e + e * Real.cos ν) ^ 2 - (e * Real.sin ν) ^ 2) +
        Real.sin ν * (2 * (e * Real.sin ν) * (1 + axisRatio e + e * Real.cos ν)) =
      2 * (1 + axisRatio e) * (e + Real.cos ν) := by
    have hs' : Real.sin ν ^ 2 = 1 - Real.cos ν ^ 2 := by linarith
    have : Real.cos ν * ((1 + axisRatio e + e * Real.cos ν) ^ 2 - (e * Real.sin ν) ^ 2) +
        Real.sin ν * (2 * (e * Real.sin ν) * (1 + axisRatio e + e * Real.cos ν)) =
        Real.cos ν * ((1 + axisRatio e + e * Real.cos ν) ^ 2 - e ^ 2 * Real.sin ν ^ 2) +
        2 * e * Real.sin ν ^ 2 * (1 + axisRatio e + e * Real.cos ν) := by ring
    rw [this, hs']
    linear_combination Real.cos ν * hk
  rw [this]
  ring

theorem sin_eccOf (ν : ℝ) : Real.sin (eccOf e ν) = axisRatio e * Real.sin ν / (1 + e * Real.cos ν) := by
  have hD := ecc_den_pos he0 he1 ν
  have hk := axisRatio_sq he0 he1
  have hkp := axisRatio_pos he0 he1
  have hP := one_add_cos_pos he0 he1 ν
  have hs := Real.sin_sq_add_cos_sq ν
  have hu := halfTan_sq he0 he1 ν
  have hu1 : 0 < 1 + halfTan e ν ^ 2 := by positivity
  have hc2 : Real.cos (2 * Real.arctan (halfTan e ν)) = (1 - halfTan e ν ^ 2) / (1 + halfTan e ν ^ 2) := by
    rw [Real.cos_two_mul, Real.cos_sq_arctan]
    field_simp
    ring
  have hs2 : Real.sin (2 * Real.arctan (halfTan e ν)) = 2 * halfTan e ν / (1 + halfTan e ν ^ 2) := by
    rw [Real.sin_two_mul, Real.sin_arctan, Real.cos_arctan]
    have : Real.sqrt (1 + halfTan e ν ^ 2) * Real.sqrt (1 + halfTan e ν ^ 2) = 1 + halfTan e ν ^ 2 :=
      Real.mul_self_sqrt hu1.le
    rw [show 2 * (halfTan e ν / Real.sqrt (1 + halfTan e ν ^ 2)) * (1 / Real.sqrt (1 + halfTan e ν ^ 2)) =
      2 * halfTan e ν / (Real.sqrt (1 + halfTan e ν ^ 2) * Real.sqrt (1 + halfTan e ν ^ 2)) by
        rw [div_mul_eq_div_div]; ring, this]
  unfold eccOf
  rw [Real.sin_sub, hc2, hs2]
  rw [mul_div_assoc', mul_div_assoc', ← sub_div, div_eq_div_iff hu1.ne' hP.ne']
  have hD2 : (1 + axisRatio e + e * Real.cos ν) ^ 2 ≠ 0 := pow_ne_zero 2 hD.ne'
  have hh : halfTan e ν * (1 + axisRatio e + e * Real.cos ν) = e * Real.sin ν := div_mul_cancel₀ _ hD.ne'
  apply mul_right_cancel₀ hD2
  have e1 : halfTan e ν ^ 2 * (1 + axisRatio e + e * Real.cos ν) ^ 2 = (e * Real.sin ν) ^ 2 := by
    rw [← mul_pow, hh]
  have lhs : (Real.sin ν * (1 - halfTan e ν ^ 2) - Real.cos ν * (2 * halfTan e ν)) * (1 + e * Real.cos ν) *
      (1 + axisRatio e + e * Real.cos ν) ^ 2 =
      (Real.sin ν * ((1 + axisRatio e + e * Real.cos ν) ^ 2 - (e * Real.sin ν) ^ 2) -
        Real.cos ν * (2 * (e * Real.sin ν) * (1 + axisRatio e + e * Real.cos ν))) * (1 + e * Real.cos ν) := by
    rw [← e1, ← hh]; ring
  rw [lhs, mul_assoc (axisRatio e * Real.sin ν), hu]
  have : Real.sin ν * ((1 + axisRatio e + e * Real.cos ν) ^ 2 - (e * Real.sin ν) ^ 2) -
        Real.cos ν * (2 * (e * Real.sin ν) * (1 + axisRatio e + e * Real.cos ν)) =
      2 * (1 + axisRatio e) * (axisRatio e * Real.sin ν) := by
    have hs' : Real.sin ν ^ 2 = 1 - Real.cos ν ^ 2 := by linarith
    have : Real.sin ν * ((1 + axisRatio e + e * Real.cos ν) ^ 2 - (e * Real.sin ν) ^ 2) -
        Real.cos ν * (2 * (e * Real.sin ν) * (1 + axisRatio e + e * Real.cos ν)) =
        Real.sin ν * (((1 + axisRatio e + e * Real.cos ν) ^ 2 - e ^ 2 * Real.sin ν ^ 2) -
        Real.cos ν * (2 * e * (1 + axisRatio e + e * Real.cos ν))) := by ring
    rw [this, hs']
    linear_combination (-Real.sin ν) * hk
  rw [this]
  ring

omit he0 he1 in
theorem eccOf_near (ν : ℝ) : |ν - eccOf e ν| < Real.pi := by
  have h1 := Real.neg_pi_div_two_lt_arctan (halfTan e ν)
  have h2 := Real.arctan_lt_pi_div_two (halfTan e ν)
  unfold eccOf
  rw [abs_lt]
  constructor <;> linarith

theorem one_sub_cos_eccOf (ν : ℝ) : 1 - e * Real.cos (eccOf e ν) = (1 - e ^ 2) / (1 + e * Real.cos ν) := by
  have hP := one_add_cos_pos he0 he1 ν
  rw [cos_eccOf he0 he1]
  field_simp
  ring

theorem kepler_eccOf (ν : ℝ) : KeplerAnomalies e ν (eccOf e ν) (meanOf e ν) := by
  have hP := one_add_cos_pos he0 he1 ν
  refine ⟨rfl, ?_, ?_, eccOf_near ν⟩
  · rw [one_sub_cos_eccOf he0 he1, cos_eccOf he0 he1]
    field_simp
    ring
  · rw [one_sub_cos_eccOf he0 he1, sin_eccOf he0 he1]
    have hk := axisRatio_sq he0 he1
    show _ = axisRatio e * _
    rw [← hk]
    field_simp

theorem kepler_unique {ν E M : ℝ} (h : KeplerAnomalies e ν E M) : E = eccOf e ν ∧ M = meanOf e ν := by
  have hP := one_add_cos_pos he0 he1 ν
  have hkp := axisRatio_pos he0 he1
  have hk := axisRatio_sq he0 he1
  have hR : 0 < 1 - e * Real.cos E := by
    have := Real.cos_le_one E
    nlinarith
  have hc : Real.cos E = Real.cos (eccOf e ν) := by
    rw [cos_eccOf he0 he1, eq_div_iff hP.ne']
    linarith [h.along]
  have hs : Real.sin E = Real.sin (eccOf e ν) := by
    rw [sin_eccOf he0 he1, eq_div_iff hP.ne']
    have h2 := h.across
    have h1 := one_sub_cos_eccOf he0 he1 ν
    rw [← hc] at h1
    rw [h1] at h2
    have h3 : (1 - e ^ 2) * Real.sin ν = axisRatio e * Real.sin E * (1 + e * Real.cos ν) := by
      have : (1 - e ^ 2) * Real.sin ν = (1 - e ^ 2) / (1 + e * Real.cos ν) * Real.sin ν * (1 + e * Real.cos ν) := by
        field_simp
      rw [this, h2]; rfl
    rw [← hk] at h3
    have : axisRatio e * (Real.sin E * (1 + e * Real.cos ν)) = axisRatio e * (axisRatio e * Real.sin ν) := by
      linarith
    exact mul_left_cancel₀ hkp.ne' this
  have hE : E = eccOf e ν := by
    have hang : ((E : Real.Angle)) = (eccOf e ν : Real.Angle) := Real.Angle.cos_sin_inj hc hs
    obtain ⟨n, hn⟩ := Real.Angle.angle_eq_iff_two_pi_dvd_sub.mp hang
    have h1 := abs_lt.mp h.revolution
    have h2 := abs_lt.mp (eccOf_near (e := e) ν)
    have hpi := Real.pi_pos
    have : n = 0 := by
      have a1 : (n : ℝ) < 1 := by
        by_contra hcon
        push Not at hcon
        nlinarith
      have a2 : (-1 : ℝ) < n := by
        by_contra hcon
        push Not at hcon
        nlinarith
      have a1 : n < 1 := by exact_mod_cast a1
      have a2 : -1 < n := by exact_mod_cast a2
      omega
    rw [this] at hn
    simp at hn
    linarith
  exact ⟨hE, by rw [h.mean, hE]; rfl⟩

theorem hasDerivAt_eccOf (ν : ℝ) : HasDerivAt (eccOf e) (axisRatio e / (1 + e * Real.cos ν)) ν := by
  have hD := ecc_den_pos he0 he1 ν
  have hP := one_add_cos_pos he0 he1 ν
  have hk := axisRatio_sq he0 he1
  have hkp := axisRatio_pos he0 he1
  have hs := Real.sin_sq_add_cos_sq ν
  have h1 : HasDerivAt (fun ν => e * Real.sin ν) (e * Real.cos ν) ν := (Real.hasDerivAt_sin ν).const_mul e
  have h2 : HasDerivAt (fun ν => 1 + axisRatio e + e * Real.cos ν) (e * -Real.sin ν) ν :=
    ((Real.hasDerivAt_cos ν).const_mul e).const_add _
  have h3 := h1.fun_div h2 hD.ne'
  have h4 : HasDerivAt (eccOf e) _ ν := (hasDerivAt_id ν).sub (((h3.arctan).const_mul 2))
  refine h4.congr_deriv ?_
  have hu := halfTan_sq he0 he1 ν
  unfold halfTan at hu
  have hu1 : 1 / (1 + (e * Real.sin ν / (1 + axisRatio e + e * Real.cos ν)) ^ 2) =
      (1 + axisRatio e + e * Real.cos ν) ^ 2 / (2 * (1 + axisRatio e) * (1 + e * Real.cos ν)) := by
    rw [← hu]
    have : 1 + (e * Real.sin ν / (1 + axisRatio e + e * Real.cos ν)) ^ 2 ≠ 0 := by positivity
    field_simp
  rw [hu1]
  have hnum : e * Real.cos ν * (1 + axisRatio e + e * Real.cos ν) - e * Real.sin ν * (e * -Real.sin ν) =
      e * (Real.cos ν * (1 + axisRatio e) + e) := by
    have : Real.sin ν * Real.sin ν = 1 - Real.cos ν ^ 2 := by nlinarith
    linear_combination e ^ 2 * this
  rw [hnum]
  have h1k : 0 < 1 + axisRatio e := by linarith
  field_simp
  linear_combination (-1 : ℝ) * hk

theorem hasDerivAt_meanOf (ν : ℝ) :
    HasDerivAt (meanOf e) (axisRatio e ^ 3 / (1 + e * Real.cos ν) ^ 2) ν := by
  have hP := one_add_cos_pos he0 he1 ν
  have hE := hasDerivAt_eccOf he0 he1 ν
  have h : HasDerivAt (meanOf e) _ ν := hE.sub ((hE.sin).const_mul e)
  refine h.congr_deriv ?_
  have h1 := one_sub_cos_eccOf he0 he1 ν
  have hk := axisRatio_sq he0 he1
  rw [← hk] at h1
  have : axisRatio e / (1 + e * Real.cos ν) - e * (Real.cos (eccOf e ν) * (axisRatio e / (1 + e * Real.cos ν))) =
      (1 - e * Real.cos (eccOf e ν)) * (axisRatio e / (1 + e * Real.cos ν)) := by ring
  rw [this, h1]
  field_simp

end

theorem eccOf_zero (e : ℝ) : eccOf e 0 = 0 := by simp [eccOf, halfTan]

theorem meanOf_zero (e : ℝ) : meanOf e 0 = 0 := by simp [meanOf, eccOf_zero]

/-- A function with a bounded derivative that starts at zero grows at most linearly. -/
theorem abs_le_of_deriv {f f' : ℝ → ℝ} {K : ℝ} (hd : ∀ x, HasDerivAt f (f' x) x) (hK : ∀ x, |f' x| ≤ K)
    (h0 : f 0 = 0) (x : ℝ) : |f x| ≤ K * |x| := by
  have := Convex.norm_image_sub_le_of_norm_hasDerivWithin_le (f := f) (f' := f') (s := Set.univ) (x := 0) (y := x)
    (fun y _ => (hd y).hasDerivWithinAt) (fun y _ => hK y) convex_univ trivial trivial
  simpa [h0] using this

end Tatc.Lemmas
