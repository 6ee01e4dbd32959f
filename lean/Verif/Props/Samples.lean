import Verif.Model.Geometry
import Verif.Lemmas.ExceptList
import Verif.Props.Access
import Mathlib.Analysis.SpecialFunctions.Log.Deriv
import Mathlib.Topology.Algebra.InfiniteSum.Order

/-!
# C44: number of samples
-/

namespace Tatc.Props
open Tatc.Num Tatc.Geometry
open scoped Classical

/-- The area of a spherical cap whose diameter along the surface is `d`, on a sphere of radius `r`. -/
noncomputable def capArea (r d : ℝ) : ℝ := 2 * Real.pi * r ^ 2 * (1 - Real.cos (d / 2 / r))

theorem sampleArea_eq (d : ℝ) : sampleArea d = capArea meanRadius d := by
  unfold sampleArea capArea
  have : d / meanRadius / 2 = d / 2 / meanRadius := by ring
  simp only [this]
  ring

theorem ecc_range : 0 < eccentricity ∧ eccentricity < 1 := by
  unfold eccentricity flattening
  constructor
  · apply Real.sqrt_pos.mpr; norm_num
  · rw [Real.sqrt_lt' (by norm_num)]; norm_num

theorem surface_lower : 2 * Real.pi * equatorialRadius ^ 2 ≤ surfaceArea := by
  obtain ⟨h0, h1⟩ := ecc_range
  have hpi := Real.pi_pos
  unfold surfaceArea
  have hlog : 0 ≤ Real.log ((1 + eccentricity) / (1 - eccentricity)) := by
    apply Real.log_nonneg
    rw [le_div_iff₀ (by linarith)]; linarith
  have : 0 ≤ Real.pi * polarRadius ^ 2 / eccentricity := by positivity
  nlinarith [mul_nonneg this hlog]

theorem meanRadius_le : meanRadius ≤ equatorialRadius := by
  unfold meanRadius equatorialRadius polarRadius; norm_num

/-- A cap of at most half a turn is a positive part of the sphere. -/
theorem cap_pos {d : ℝ} (h0 : 0 < d) (h1 : d ≤ 2 * Real.pi * meanRadius) : 0 < capArea meanRadius d := by
  have hR := meanRadius_gt
  have hpi := Real.pi_pos
  have hx0 : 0 < d / 2 / meanRadius := by positivity
  have hx1 : d / 2 / meanRadius ≤ Real.pi := by rw [div_div, div_le_iff₀ (by positivity)]; linarith
  have hcos := Real.cos_lt_cos_of_nonneg_of_le_pi le_rfl hx1 hx0
  rw [Real.cos_zero] at hcos
  unfold capArea
  have : 0 < 1 - Real.cos (d / 2 / meanRadius) := by linarith
  positivity

theorem cap_mono {d e : ℝ} (h0 : 0 ≤ d) (hde : d ≤ e) (h1 : e ≤ 2 * Real.pi * meanRadius) :
    capArea meanRadius d ≤ capArea meanRadius e := by
  have hR := meanRadius_gt
  have hpi := Real.pi_pos
  unfold capArea
  apply mul_le_mul_of_nonneg_left _ (by positivity)
  have := Real.cos_le_cos_of_nonneg_of_le_pi (x := d / 2 / meanRadius) (y := e / 2 / meanRadius) (by positivity)
    (by rw [div_div, div_le_iff₀ (by positivity)]; linarith)
    (by apply div_le_div_of_nonneg_right _ (by linarith); linarith)
  linarith

/-- C44: for every distance up to half way round the Earth a number is returned, and that many caps of the
given diameter cover the surface area to within one cap. -/
theorem C44_area (d : ℝ) (h0 : 0 < d) (h1 : d ≤ 2 * Real.pi * meanRadius) : ∃ n : Nat, numberSamples d = .ok n ∧
    n * capArea meanRadius d ≤ surfaceArea ∧ surfaceArea < (n + 1) * capArea meanRadius d := by
  have hc := cap_pos h0 h1
  have hpi := Real.pi_pos
  have hA : 0 ≤ surfaceArea := le_trans (by positivity) surface_lower
  refine ⟨⌊surfaceArea / capArea meanRadius d⌋₊, ?_, ?_, ?_⟩
  · unfold numberSamples
    rw [sampleArea_eq]
    simp only [bind_eq_ok, require_eq_ok, pure, Except.pure]
    exact ⟨(), hc.ne', trivial⟩
  · have := Nat.floor_le (div_nonneg hA hc.le)
    rwa [le_div_iff₀ hc] at this
  · have := Nat.lt_floor_add_one (surfaceArea / capArea meanRadius d)
    rwa [div_lt_iff₀ hc] at this

/-- C44: more distant samples are not more numerous, up to half way round the Earth (`_partial`: beyond, the
angle the code takes the cosine of is more than half a turn and the number grows again). -/
theorem C44_monotone_partial (d e : ℝ) (h0 : 0 < d) (hde : d ≤ e) (h1 : e ≤ 2 * Real.pi * meanRadius) :
    ∃ n m, numberSamples d = .ok n ∧ numberSamples e = .ok m ∧ m ≤ n := by
  obtain ⟨n, hn, n1, n2⟩ := C44_area d h0 (by linarith)
  obtain ⟨m, hm, m1, m2⟩ := C44_area e (by linarith) h1
  refine ⟨n, m, hn, hm, ?_⟩
  have hc := cap_pos h0 (by linarith)
  have hmono := cap_mono h0.le hde h1
  by_contra hlt
  push Not at hlt
  have : (n : ℝ) + 1 ≤ m := by exact_mod_cast hlt
  have h3 : (n + 1 : ℝ) * capArea meanRadius d ≤ m * capArea meanRadius e :=
    mul_le_mul this hmono hc.le (by positivity)
  linarith

/-- C44: at least one sample up to a quarter of the way round the Earth. -/
theorem C44_positive_partial (d : ℝ) (h0 : 0 < d) (h1 : d ≤ Real.pi * meanRadius) :
    ∃ n, numberSamples d = .ok n ∧ 1 ≤ n := by
  have hR := meanRadius_gt
  have hpi := Real.pi_pos
  obtain ⟨n, hn, n1, n2⟩ := C44_area d h0 (by nlinarith)
  refine ⟨n, hn, ?_⟩
  by_contra hlt
  obtain rfl : n = 0 := by omega
  have h2 := cap_mono (e := Real.pi * meanRadius) h0.le h1 (by nlinarith)
  have h3 : capArea meanRadius (Real.pi * meanRadius) = 2 * Real.pi * meanRadius ^ 2 := by
    unfold capArea
    rw [show Real.pi * meanRadius / 2 / meanRadius = Real.pi / 2 by field_simp, Real.cos_pi_div_two]; ring
  have h4 := surface_lower
  have h5 : meanRadius ^ 2 ≤ equatorialRadius ^ 2 := pow_le_pow_left₀ (by linarith) meanRadius_le 2
  simp only [Nat.cast_zero, zero_add, one_mul] at n2
  nlinarith

/-- The logarithm of the surface area formula, from above. -/
theorem log_upper {x : ℝ} (h0 : 0 < x) (h1 : x < 1) :
    Real.log ((1 + x) / (1 - x)) ≤ 2 * x * (1 + x ^ 2 / 3 + x ^ 4 / (5 * (1 - x ^ 2))) := by
  rw [Real.log_div (by linarith) (by linarith)]
  have hs := Real.hasSum_log_sub_log_of_abs_lt_one (x := x) (by rw [abs_of_pos h0]; exact h1)
  have hx2 : x ^ 2 < 1 := by nlinarith
  have hg : HasSum (fun k : ℕ => 2 / 5 * x ^ 5 * (x ^ 2) ^ k) (2 / 5 * x ^ 5 * (1 - x ^ 2)⁻¹) :=
    (hasSum_geometric_of_lt_one (by positivity) hx2).mul_left _
  have hs2 := (hasSum_nat_add_iff' 2).mpr hs
  have hle := hasSum_le (fun k : ℕ => ?_) hs2 hg
  · simp only [Finset.sum_range_succ, Finset.sum_range_zero] at hle
    have e : 2 * x * (1 + x ^ 2 / 3 + x ^ 4 / (5 * (1 - x ^ 2))) =
        2 * x + 2 / 3 * x ^ 3 + 2 / 5 * x ^ 5 * (1 - x ^ 2)⁻¹ := by
      have : 1 - x ^ 2 ≠ 0 := by linarith
      field_simp
    rw [e]
    norm_num at hle ⊢
    linarith
  · have e : x ^ (2 * (k + 2) + 1) = x ^ 5 * (x ^ 2) ^ k := by rw [← pow_mul]; ring
    rw [e]
    have hk : (2 : ℝ) * (1 / (2 * ((k + 2 : ℕ) : ℝ) + 1)) ≤ 2 / 5 := by
      push_cast
      rw [mul_one_div, div_le_div_iff₀ (by positivity) (by norm_num)]
      have : (0 : ℝ) ≤ k := Nat.cast_nonneg k
      linarith
    have hp : 0 ≤ x ^ 5 * (x ^ 2) ^ k := by positivity
    calc 2 * (1 / (2 * ((k + 2 : ℕ) : ℝ) + 1)) * (x ^ 5 * (x ^ 2) ^ k)
        ≤ 2 / 5 * (x ^ 5 * (x ^ 2) ^ k) := mul_le_mul_of_nonneg_right hk hp
      _ = _ := by ring

/-- The spheroid has less surface than the sphere of the mean radius. -/
theorem surface_upper : surfaceArea < 4 * Real.pi * meanRadius ^ 2 := by
  obtain ⟨h0, h1⟩ := ecc_range
  have hpi := Real.pi_pos
  have hl := log_upper h0 h1
  have he2 : eccentricity ^ 2 = 2 * flattening - flattening ^ 2 := by
    unfold eccentricity
    rw [Real.sq_sqrt]; unfold flattening; norm_num
  have h2 : surfaceArea ≤ Real.pi * (2 * equatorialRadius ^ 2 +
      2 * polarRadius ^ 2 * (1 + eccentricity ^ 2 / 3 + eccentricity ^ 4 / (5 * (1 - eccentricity ^ 2)))) := by
    unfold surfaceArea
    have : 0 ≤ Real.pi * polarRadius ^ 2 / eccentricity := by positivity
    have h3 := mul_le_mul_of_nonneg_left hl this
    have h4 : Real.pi * polarRadius ^ 2 / eccentricity *
        (2 * eccentricity * (1 + eccentricity ^ 2 / 3 + eccentricity ^ 4 / (5 * (1 - eccentricity ^ 2)))) =
        Real.pi * (2 * polarRadius ^ 2 *
          (1 + eccentricity ^ 2 / 3 + eccentricity ^ 4 / (5 * (1 - eccentricity ^ 2)))) := by
      generalize (1 + eccentricity ^ 2 / 3 + eccentricity ^ 4 / (5 * (1 - eccentricity ^ 2))) = q
      field_simp
    rw [h4] at h3
    linarith
  have h5 : 2 * equatorialRadius ^ 2 +
      2 * polarRadius ^ 2 * (1 + eccentricity ^ 2 / 3 + eccentricity ^ 4 / (5 * (1 - eccentricity ^ 2))) <
      4 * meanRadius ^ 2 := by
    rw [show eccentricity ^ 4 = (eccentricity ^ 2) ^ 2 by ring, he2]
    unfold equatorialRadius polarRadius meanRadius flattening equatorialRadius polarRadius
    norm_num
  nlinarith

/-- C44, "at least one" and "for every distance": no sample at half way round the Earth, and a division by
zero at a full turn of two circumferences. -/
theorem C44_positive_false : numberSamples (2 * Real.pi * meanRadius) = .ok 0 ∧
    numberSamples (4 * Real.pi * meanRadius) = .error .zeroDivisionError := by
  have hR := meanRadius_gt
  have hpi := Real.pi_pos
  constructor
  · obtain ⟨n, hn, n1, n2⟩ := C44_area (2 * Real.pi * meanRadius) (by positivity) le_rfl
    have h3 : capArea meanRadius (2 * Real.pi * meanRadius) = 4 * Real.pi * meanRadius ^ 2 := by
      unfold capArea
      rw [show 2 * Real.pi * meanRadius / 2 / meanRadius = Real.pi by field_simp, Real.cos_pi]; ring
    have := surface_upper
    rw [h3] at n1
    have : n = 0 := by
      by_contra hne
      have : (1 : ℝ) ≤ n := by exact_mod_cast Nat.one_le_iff_ne_zero.mpr hne
      have h4 : 0 < 4 * Real.pi * meanRadius ^ 2 := by positivity
      nlinarith
    rw [hn, this]
  · have h3 : sampleArea (4 * Real.pi * meanRadius) = 0 := by
      rw [sampleArea_eq]; unfold capArea
      rw [show 4 * Real.pi * meanRadius / 2 / meanRadius = 2 * Real.pi by field_simp; norm_num, Real.cos_two_pi]; ring
    unfold numberSamples
    rw [h3]
    simp [require, bind, Except.bind]

/-- A number is returned and decreases: distances of 1 000 and 2 000 km. -/
example : (0 : ℝ) < 1000000 ∧ (1000000 : ℝ) ≤ 2000000 ∧ 2000000 ≤ 2 * Real.pi * meanRadius := by
  have hR := meanRadius_gt
  have hpi := Real.pi_gt_three
  refine ⟨by norm_num, by norm_num, by nlinarith⟩

end Tatc.Props
