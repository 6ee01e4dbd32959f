import Verif.Props.Derived
import Verif.Spec.Sun
import Mathlib.Analysis.Real.Pi.Bounds

/-!
# C76: sun-synchronous orbits follow the Sun
-/

namespace Tatc.Props
open Tatc.Num Tatc.Orbit Tatc.Spec
open scoped Classical

/-- C76, crossing time: the ascending node of the orbit (the descending one if so requested) is where the local
solar time is the requested one. -/
theorem C76_crossing_time (sun : Int → ℝ) (o : Sso) (h0 : 0 ≤ o.crossingDay) (h1 : o.crossingDay < 1) :
    InTurn (o.raan sun) ∧
      solarTime (sun o.epoch) (if o.ascending then o.raan sun else o.raan sun + 180) = o.crossingDay := by
  refine ⟨npMod_inTurn _, ?_⟩
  unfold solarTime Sso.raan npMod
  cases o.ascending
  · simp only [Bool.false_eq_true, if_false]
    set n := ⌊(sun o.epoch + 360 * o.crossingDay + 180 * 0) / 360⌋
    have : 1 / 2 + (sun o.epoch + 360 * o.crossingDay + 180 * 0 - 360 * (n : ℝ) + 180 - sun o.epoch) / 360 =
        o.crossingDay + ((1 - n : ℤ) : ℝ) := by push_cast; ring
    rw [this, Int.fract_add_intCast, Int.fract_eq_self.mpr ⟨h0, h1⟩]
  · simp only [if_true]
    set n := ⌊(sun o.epoch + 360 * o.crossingDay + 180 * 1) / 360⌋
    have : 1 / 2 + (sun o.epoch + 360 * o.crossingDay + 180 * 1 - 360 * (n : ℝ) - sun o.epoch) / 360 =
        o.crossingDay + ((1 - n : ℤ) : ℝ) := by push_cast; ring
    rw [this, Int.fract_add_intCast, Int.fract_eq_self.mpr ⟨h0, h1⟩]

theorem rpow_seven_half {x : ℝ} (hx : 0 ≤ x) : x ^ (7 / 2 : ℝ) = x ^ 3 * Real.sqrt x := by
  rw [Real.sqrt_eq_rpow, ← Real.rpow_natCast x 3]
  rcases eq_or_lt_of_le hx with rfl | hp
  · norm_num [Real.zero_rpow]
  · rw [← Real.rpow_add hp]; norm_num

/-- C76, precession: for every accepted altitude the node of an orbit with the reported inclination turns once in a
year, eastwards, to within one part in a thousand. -/
theorem C76_precession (o : Sso) (hv : Sso.Valid o) :
    |nodalRate earthJ2 equatorialRadius mu (meanRadius + o.altitude) (o.inclination * Real.pi / 180) * year -
      2 * Real.pi| ≤ 2 * Real.pi / 1000 := by
  obtain ⟨-, g0, g1⟩ := hv
  have hR := meanRadius_pos
  have hpi := Real.pi_pos
  set a := meanRadius + o.altitude with ha
  have ha0 : 0 < a := by linarith
  have hx0 : 0 < a / 12352000 := by positivity
  have hx1 : a / 12352000 ≤ 1 := by rw [div_le_one (by norm_num)]; linarith
  have hp0 : 0 ≤ (a / 12352000) ^ (7 / 2 : ℝ) := Real.rpow_nonneg hx0.le _
  have hp1 : (a / 12352000) ^ (7 / 2 : ℝ) ≤ 1 := Real.rpow_le_one hx0.le hx1 (by norm_num)
  have hcos : Real.cos (o.inclination * Real.pi / 180) = -(a / 12352000) ^ (7 / 2 : ℝ) := by
    have : o.inclination * Real.pi / 180 = Real.arccos (-(a / 12352000) ^ (7 / 2 : ℝ)) := by
      unfold Sso.inclination degrees; rw [← ha]; field_simp
    rw [this, Real.cos_arccos (by linarith) (by linarith)]
  have hsa : Real.sqrt a ^ 2 = a := Real.sq_sqrt ha0.le
  have hsa0 : 0 < Real.sqrt a := Real.sqrt_pos.mpr ha0
  have hs3 : Real.sqrt (a ^ 3) = a * Real.sqrt a := by
    rw [Real.sqrt_eq_iff_mul_self_eq (by positivity) (by positivity)]
    nlinarith
  have hrate : nodalRate earthJ2 equatorialRadius mu a (o.inclination * Real.pi / 180) =
      3 / 2 * earthJ2 * equatorialRadius ^ 2 * Real.sqrt mu / (12352000 ^ 3 * Real.sqrt 12352000) := by
    unfold nodalRate
    rw [hcos, rpow_seven_half hx0.le, Real.sqrt_div' _ (by positivity), hs3, Real.sqrt_div ha0.le]
    have : Real.sqrt 12352000 ≠ 0 := (Real.sqrt_pos.mpr (by norm_num)).ne'
    field_simp
  rw [hrate]
  have m1 : (19964980 : ℝ) ≤ Real.sqrt mu := by
    apply Real.le_sqrt_of_sq_le; unfold mu; norm_num
  have m2 : Real.sqrt mu ≤ 19964981 := by
    rw [Real.sqrt_le_left (by norm_num)]; unfold mu; norm_num
  have c1 : (3514.5 : ℝ) ≤ Real.sqrt 12352000 := by
    apply Real.le_sqrt_of_sq_le; norm_num
  have c2 : Real.sqrt 12352000 ≤ 3514.6 := by
    rw [Real.sqrt_le_left (by norm_num)]; norm_num
  have p1 := Real.pi_gt_d6
  have p2 := Real.pi_lt_d6
  set S := Real.sqrt 12352000
  set U := Real.sqrt mu
  have hS : 0 < (12352000 : ℝ) ^ 3 * S := by positivity
  unfold earthJ2 equatorialRadius year
  rw [abs_le, div_mul_eq_mul_div, div_sub' hS.ne', le_div_iff₀ hS, div_le_iff₀ hS]
  constructor
  · nlinarith [mul_le_mul c2 p2.le hpi.le (by norm_num : (0 : ℝ) ≤ 3514.6)]
  · nlinarith [mul_le_mul c1 p1.le (by norm_num : (0 : ℝ) ≤ 3.141592) (by linarith : 0 ≤ S)]

/-- Orbits that meet the hypotheses: 700 km, crossing at half past ten, descending. -/
example : Sso.Valid ⟨700000, 0, 0, 10.5 / 24, false⟩ ∧ 0 ≤ (10.5 : ℝ) / 24 ∧ (10.5 : ℝ) / 24 < 1 := by
  have := meanRadius_lt
  refine ⟨⟨⟨?_, ?_⟩, ?_, ?_⟩, by norm_num, by norm_num⟩
  · norm_num
  · norm_num
  · norm_num
  · show (700000 : ℝ) < 12352000 - meanRadius; linarith

end Tatc.Props
