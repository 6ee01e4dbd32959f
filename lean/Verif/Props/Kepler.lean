import Verif.Lemmas.Kepler
import Verif.Props.MeanAnomaly

/-!
# C103: the anomaly conversions and Kepler's equation
-/

namespace Tatc.Props
open Tatc.Orbit Tatc.Num Tatc.Spec Tatc.Lemmas

/-- The cube of the ratio of the axes, `(1 - e²)^(3/2)`, between the ends of its expansion. -/
theorem axisRatio_cube {e : ℝ} (he0 : 0 ≤ e) (he1 : e < 1) :
    1 - 3 / 2 * e ^ 2 + 3 / 8 * e ^ 4 ≤ axisRatio e ^ 3 ∧
    axisRatio e ^ 3 ≤ 1 - 3 / 2 * e ^ 2 + 3 / 8 * e ^ 4 + e ^ 6 / 8 := by
  have hk := axisRatio_sq he0 he1
  have hkp := axisRatio_pos he0 he1
  have hs : (axisRatio e ^ 3) ^ 2 = (1 - e ^ 2) ^ 3 := by rw [← hk]; ring
  have hs0 : 0 ≤ axisRatio e ^ 3 := by positivity
  obtain ⟨x, hx⟩ : ∃ x, x = e ^ 2 := ⟨_, rfl⟩
  have hx0 : 0 ≤ x := by rw [hx]; positivity
  have hx1 : x ≤ 1 := by rw [hx]; nlinarith
  have e4 : e ^ 4 = x ^ 2 := by rw [hx]; ring
  have e6 : e ^ 6 = x ^ 3 := by rw [hx]; ring
  rw [e4, e6, ← hx]
  rw [← hx] at hs
  constructor
  · by_cases hT : 1 - 3 / 2 * x + 3 / 8 * x ^ 2 ≤ 0
    · linarith
    · push Not at hT
      have hx8 : x ≤ 8 / 9 := by
        by_contra hcon
        push Not at hcon
        nlinarith
      refine (abs_le_of_sq_le_sq' ?_ hs0).2
      rw [hs]
      have : (1 - x) ^ 3 - (1 - 3 / 2 * x + 3 / 8 * x ^ 2) ^ 2 = x ^ 3 * (1 / 8 - 9 / 64 * x) := by ring
      have h3 : 0 ≤ x ^ 3 * (1 / 8 - 9 / 64 * x) := mul_nonneg (by positivity) (by linarith)
      linarith
  · apply abs_le_of_sq_le_sq' _ _ |>.2
    · rw [hs]
      have : (1 - 3 / 2 * x + 3 / 8 * x ^ 2 + x ^ 3 / 8) ^ 2 - (1 - x) ^ 3 =
        x ^ 3 * (1 / 8 - 15 / 64 * x + 3 / 32 * x ^ 2 + x ^ 3 / 64) := by ring
      have h3 : 0 ≤ 1 / 8 - 15 / 64 * x + 3 / 32 * x ^ 2 + x ^ 3 / 64 := by
        have : 1 / 8 - 15 / 64 * x + 3 / 32 * x ^ 2 + x ^ 3 / 64 = (1 - x) ^ 2 * (8 + x) / 64 := by ring
        rw [this]
        positivity
      have := mul_nonneg (pow_nonneg hx0 3) h3
      linarith
    · have : 1 - 3 / 2 * x + 3 / 8 * x ^ 2 + x ^ 3 / 8 = (1 - x) * (1 - x / 2 - x ^ 2 / 8) := by ring
      rw [this]
      apply mul_nonneg (by linarith)
      nlinarith

theorem mon_le {e c : ℝ} (he0 : 0 ≤ e) (hc : |c| ≤ 1) (n m : ℕ) : -e ^ n ≤ e ^ n * c ^ m ∧ e ^ n * c ^ m ≤ e ^ n := by
  have h1 : |e ^ n * c ^ m| ≤ e ^ n := by
    rw [abs_mul, abs_of_nonneg (pow_nonneg he0 n), abs_pow]
    exact mul_le_of_le_one_right (pow_nonneg he0 n) (pow_le_one₀ (abs_nonneg c) hc)
  exact abs_le.mp h1

/-- The derivative of the series of the mean anomaly. -/
theorem hasDerivAt_meanSeries (e t : ℝ) : HasDerivAt (meanSeries e)
    (1 - 3 / 2 * e ^ 2 + 3 / 8 * e ^ 4 - 2 * (1 - 3 / 2 * e ^ 2) * (e * Real.cos t) +
      3 * (1 - 3 / 2 * e ^ 2) * (e * Real.cos t) ^ 2 - 4 * (e * Real.cos t) ^ 3 + 5 * (e * Real.cos t) ^ 4) t := by
  have h1 : HasDerivAt (fun t => Real.sin (2 * t)) (Real.cos (2 * t) * 2) t := by
    simpa using ((hasDerivAt_id t).const_mul 2).sin
  have h2 : HasDerivAt (fun t => Real.sin (3 * t)) (Real.cos (3 * t) * 3) t := by
    simpa using ((hasDerivAt_id t).const_mul 3).sin
  have h3 : HasDerivAt (fun t => Real.sin (4 * t)) (Real.cos (4 * t) * 4) t := by
    simpa using ((hasDerivAt_id t).const_mul 4).sin
  have h : HasDerivAt (meanSeries e) _ t :=
    ((((hasDerivAt_id t).sub ((Real.hasDerivAt_sin t).const_mul (2 * e))).add
      (h1.const_mul (3 / 4 * e ^ 2 + 1 / 8 * e ^ 4))).sub (h2.const_mul (1 / 3 * e ^ 3))).add
      (h3.const_mul (5 / 32 * e ^ 4))
  refine h.congr_deriv ?_
  have c4 : Real.cos (4 * t) = 2 * (2 * Real.cos t ^ 2 - 1) ^ 2 - 1 := by
    rw [show 4 * t = 2 * (2 * t) by ring, Real.cos_two_mul, Real.cos_two_mul]
  rw [c4, Real.cos_two_mul, Real.cos_three_mul]
  ring

/-- The derivative of the series is that of the mean anomaly up to the fifth order of the eccentricity. -/
theorem meanSeries_deriv_close {e : ℝ} (he0 : 0 ≤ e) (he1 : e < 1) (c : ℝ) (hc : |c| ≤ 1) :
    |1 - 3 / 2 * e ^ 2 + 3 / 8 * e ^ 4 - 2 * (1 - 3 / 2 * e ^ 2) * (e * c) +
      3 * (1 - 3 / 2 * e ^ 2) * (e * c) ^ 2 - 4 * (e * c) ^ 3 + 5 * (e * c) ^ 4 -
      axisRatio e ^ 3 / (1 + e * c) ^ 2| ≤ 23 * e ^ 5 / (1 - e) ^ 2 := by
  obtain ⟨k1, k2⟩ := axisRatio_cube he0 he1
  have hc' := abs_le.mp hc
  have hP : 1 - e ≤ 1 + e * c := by nlinarith
  have h1e : 0 < 1 - e := by linarith
  have hP0 : 0 < 1 + e * c := by linarith
  set P := 1 - 3 / 2 * e ^ 2 + 3 / 8 * e ^ 4 - 2 * (1 - 3 / 2 * e ^ 2) * (e * c) +
      3 * (1 - 3 / 2 * e ^ 2) * (e * c) ^ 2 - 4 * (e * c) ^ 3 + 5 * (e * c) ^ 4 with hPdef
  have hnum : |P * (1 + e * c) ^ 2 - axisRatio e ^ 3| ≤ 23 * e ^ 5 := by
    have hid : P * (1 + e * c) ^ 2 - axisRatio e ^ 3 =
        (1 - 3 / 2 * e ^ 2 + 3 / 8 * e ^ 4 - axisRatio e ^ 3) - 6 * (e ^ 5 * c ^ 3) - 9 / 2 * (e ^ 6 * c ^ 4) +
        3 / 4 * (e ^ 5 * c ^ 1) + 3 / 8 * (e ^ 6 * c ^ 2) + 6 * (e ^ 5 * c ^ 5) + 5 * (e ^ 6 * c ^ 6) := by
      rw [hPdef]; ring
    rw [hid]
    have m1 := mon_le he0 hc 5 3
    have m2 := mon_le he0 hc 6 4
    have m3 := mon_le he0 hc 5 1
    have m4 := mon_le he0 hc 6 2
    have m5 := mon_le he0 hc 5 5
    have m6 := mon_le he0 hc 6 6
    have h65 : e ^ 6 ≤ e ^ 5 := pow_le_pow_of_le_one he0 he1.le (by norm_num)
    have h6 : 0 ≤ e ^ 6 := by positivity
    rw [abs_le]
    constructor <;> linarith [m1.1, m1.2, m2.1, m2.2, m3.1, m3.2, m4.1, m4.2, m5.1, m5.2, m6.1, m6.2]
  have heq : P - axisRatio e ^ 3 / (1 + e * c) ^ 2 = (P * (1 + e * c) ^ 2 - axisRatio e ^ 3) / (1 + e * c) ^ 2 := by
    field_simp
  rw [heq, abs_div, abs_of_pos (pow_pos hP0 2)]
  exact div_le_div₀ (by positivity) hnum (pow_pos h1e 2) (pow_le_pow_left₀ h1e.le hP 2)

theorem abs_cos_le (t : ℝ) : |Real.cos t| ≤ 1 := abs_le.mpr ⟨Real.neg_one_le_cos t, Real.cos_le_one t⟩

/-- The series of the mean anomaly is the mean anomaly up to the fifth order of the eccentricity. -/
theorem meanSeries_close {e : ℝ} (he0 : 0 ≤ e) (he1 : e < 1) (t : ℝ) :
    |meanSeries e t - meanOf e t| ≤ 23 * e ^ 5 / (1 - e) ^ 2 * |t| := by
  refine abs_le_of_deriv (f := fun t => meanSeries e t - meanOf e t)
    (fun x => (hasDerivAt_meanSeries e x).sub (hasDerivAt_meanOf he0 he1 x)) ?_ ?_ t
  · intro x
    exact meanSeries_deriv_close he0 he1 (Real.cos x) (abs_cos_le x)
  · simp [meanSeries, meanOf_zero]

theorem degrees_mul (a b : ℝ) : degrees a - degrees b = degrees (a - b) := by unfold degrees; ring

theorem abs_degrees (a : ℝ) : |degrees a| = degrees |a| := by
  unfold degrees
  rw [abs_mul, abs_of_pos (div_pos (by norm_num) Real.pi_pos)]

theorem degrees_le {a b : ℝ} (h : a ≤ b) : degrees a ≤ degrees b := by
  unfold degrees
  have := Real.pi_pos
  gcongr

theorem degrees_mul_radians (k x : ℝ) : degrees (k * |radians x|) = k * |x| := by
  unfold degrees radians
  have := Real.pi_pos
  rw [abs_mul, abs_of_pos (div_pos Real.pi_pos (by norm_num))]
  field_simp

/-- **C103, mean anomaly.** The reported mean anomaly of a true anomaly is the one of Kepler's equation up to the
fifth order of the eccentricity. -/
theorem C103_mean_anomaly_partial {e : ℝ} (he0 : 0 ≤ e) (he1 : e < 1) (trueAnomaly E M : ℝ)
    (h : KeplerAnomalies e (radians trueAnomaly) E M) :
    |trueToMean trueAnomaly e - degrees M| ≤ 23 * e ^ 5 / (1 - e) ^ 2 * |trueAnomaly| := by
  rw [(kepler_unique he0 he1 h).2, trueToMean_series, degrees_mul, abs_degrees, ← degrees_mul_radians]
  exact degrees_le (meanSeries_close he0 he1 _)

theorem hasDerivAt_trueSeries (e m : ℝ) : HasDerivAt (series e)
    (1 + 2 * e * Real.cos m + e ^ 2 * (5 * Real.cos m ^ 2 - 5 / 2) + e ^ 3 * (13 * Real.cos m ^ 3 - 10 * Real.cos m))
    m := by
  have h1 : HasDerivAt (fun t => Real.sin (2 * t)) (Real.cos (2 * m) * 2) m := by
    simpa using ((hasDerivAt_id m).const_mul 2).sin
  have h2 : HasDerivAt (fun t => Real.sin (3 * t)) (Real.cos (3 * m) * 3) m := by
    simpa using ((hasDerivAt_id m).const_mul 3).sin
  have h : HasDerivAt (series e) _ m :=
    (((hasDerivAt_id m).add ((Real.hasDerivAt_sin m).const_mul (2 * e - 1 / 4 * e ^ 3))).add
      (h1.const_mul (5 / 4 * e ^ 2))).add (h2.const_mul (13 / 12 * e ^ 3))
  refine h.congr_deriv ?_
  rw [Real.cos_two_mul, Real.cos_three_mul]
  ring

theorem sin_close (x : ℝ) : |Real.sin x - x| ≤ |x| ^ 3 / 6 := by
  rcases le_total 0 x with hx | hx
  · have h1 := Real.sin_ge_sub_cube hx
    have h2 := Real.sin_le hx
    rw [abs_of_nonneg hx, abs_le]
    constructor
    · linarith
    · have : 0 ≤ x ^ 3 := by positivity
      linarith
  · have h1 := Real.sin_ge_sub_cube (by linarith : 0 ≤ -x)
    have h2 := Real.sin_le (by linarith : 0 ≤ -x)
    rw [Real.sin_neg] at h1 h2
    rw [abs_of_nonpos hx, abs_le]
    have : 0 ≤ (-x) ^ 3 := pow_nonneg (by linarith) 3
    constructor <;> linarith

theorem cos_upper (x : ℝ) : Real.cos x ≤ 1 - x ^ 2 / 2 + x ^ 4 / 24 := by
  wlog hx : 0 ≤ x with H
  · have := H (-x) (by linarith)
    rw [Real.cos_neg] at this
    calc Real.cos x ≤ _ := this
      _ = _ := by ring
  · by_cases h : x ^ 2 ≤ 24
    · have h1 := Real.sin_ge_sub_cube (by linarith : 0 ≤ x / 2)
      have h2 : Real.cos x = 1 - 2 * Real.sin (x / 2) ^ 2 := by
        have : x = 2 * (x / 2) := by ring
        conv_lhs => rw [this]
        rw [Real.cos_two_mul]
        have := Real.sin_sq_add_cos_sq (x / 2)
        linarith
      have h3 : 0 ≤ x / 2 - (x / 2) ^ 3 / 6 := by
        have : x / 2 - (x / 2) ^ 3 / 6 = x / 2 * (1 - x ^ 2 / 24) := by ring
        rw [this]
        exact mul_nonneg (by linarith) (by linarith)
      have h4 : (x / 2 - (x / 2) ^ 3 / 6) ^ 2 ≤ Real.sin (x / 2) ^ 2 := pow_le_pow_left₀ h3 h1 2
      rw [h2]
      have h5 : 0 ≤ x ^ 6 := by positivity
      have h6 : (x / 2 - (x / 2) ^ 3 / 6) ^ 2 = x ^ 2 / 4 - x ^ 4 / 48 + x ^ 6 / 2304 := by ring
      linarith
    · push Not at h
      have := Real.cos_le_one x
      nlinarith

theorem cos_close (x : ℝ) : |Real.cos x - (1 - x ^ 2 / 2)| ≤ x ^ 4 / 24 := by
  have h1 := Real.one_sub_sq_div_two_le_cos (x := x)
  have h2 := cos_upper x
  have : 0 ≤ x ^ 4 := by positivity
  rw [abs_le]
  constructor <;> linarith

/-- The cosine of the series of the true anomaly, to the second order of the eccentricity. -/
theorem cos_trueSeries_close {e : ℝ} (he0 : 0 ≤ e) (he1 : e < 1) (m : ℝ) :
    |Real.cos (series e m) - (Real.cos m - 2 * e * (1 - Real.cos m ^ 2) -
      9 / 2 * e ^ 2 * (Real.cos m * (1 - Real.cos m ^ 2)))| ≤ 65 * e ^ 3 := by
  obtain ⟨d, hd⟩ : ∃ d, d = series e m - m := ⟨_, rfl⟩
  have hS : series e m = m + d := by rw [hd]; ring
  have hc := abs_cos_le m
  have hs : |Real.sin m| ≤ 1 := abs_le.mpr ⟨Real.neg_one_le_sin m, Real.sin_le_one m⟩
  have hsc := Real.sin_sq_add_cos_sq m
  have e2 : e ^ 2 ≤ e := by nlinarith
  have e3 : e ^ 3 ≤ e := by nlinarith [sq_nonneg e]
  have e3' : 0 ≤ e ^ 3 := by positivity
  -- the size of `d`
  have hd1 : |d| ≤ 9 / 2 * e := by
    have t1 := mon_le he0 hs 1 1
    have hs2 : |Real.sin (2 * m)| ≤ 1 := abs_le.mpr ⟨Real.neg_one_le_sin _, Real.sin_le_one _⟩
    have hs3 : |Real.sin (3 * m)| ≤ 1 := abs_le.mpr ⟨Real.neg_one_le_sin _, Real.sin_le_one _⟩
    have t2 := mon_le he0 hs2 2 1
    have t3 := mon_le he0 hs3 3 1
    have t4 : |(2 * e - 1 / 4 * e ^ 3) * Real.sin m| ≤ 2 * e := by
      rw [abs_mul, abs_of_nonneg (by nlinarith : 0 ≤ 2 * e - 1 / 4 * e ^ 3)]
      calc (2 * e - 1 / 4 * e ^ 3) * |Real.sin m| ≤ (2 * e - 1 / 4 * e ^ 3) * 1 :=
            mul_le_mul_of_nonneg_left hs (by nlinarith)
        _ ≤ 2 * e := by linarith
    have hde : d = (2 * e - 1 / 4 * e ^ 3) * Real.sin m + 5 / 4 * (e ^ 2 * Real.sin (2 * m) ^ 1) +
        13 / 12 * (e ^ 3 * Real.sin (3 * m) ^ 1) := by rw [hd]; unfold series; ring
    rw [hde]
    have t4' := abs_le.mp t4
    rw [abs_le]
    constructor <;> linarith [t2.1, t2.2, t3.1, t3.2, t4'.1, t4'.2]
  -- the remainders of sine and cosine
  have hr1 := sin_close d
  have hr2 := cos_close d
  have hd3 : |d| ^ 3 / 6 ≤ 92 / 6 * e ^ 3 := by
    have := pow_le_pow_left₀ (abs_nonneg d) hd1 3
    have h : (9 / 2 * e) ^ 3 = 729 / 8 * e ^ 3 := by ring
    rw [h] at this
    linarith
  have hd4 : d ^ 4 / 24 ≤ 411 / 24 * e ^ 3 := by
    have := pow_le_pow_left₀ (abs_nonneg d) hd1 4
    have h : (9 / 2 * e) ^ 4 = 6561 / 16 * e ^ 4 := by ring
    rw [h, ← abs_pow, abs_of_nonneg (by positivity : 0 ≤ d ^ 4)] at this
    have : e ^ 4 ≤ e ^ 3 := pow_le_pow_of_le_one he0 he1.le (by norm_num)
    linarith
  set c := Real.cos m with hcdef
  set σ := Real.sin m with hσdef
  have hcos : Real.cos (series e m) = c * Real.cos d - σ * Real.sin d := by rw [hS, Real.cos_add]
  have q1 : |c * (Real.cos d - (1 - d ^ 2 / 2))| ≤ 411 / 24 * e ^ 3 := by
    rw [abs_mul]
    calc |c| * |Real.cos d - (1 - d ^ 2 / 2)| ≤ 1 * |Real.cos d - (1 - d ^ 2 / 2)| :=
          mul_le_mul_of_nonneg_right hc (abs_nonneg _)
      _ ≤ 411 / 24 * e ^ 3 := by linarith
  have q2 : |σ * (Real.sin d - d)| ≤ 92 / 6 * e ^ 3 := by
    rw [abs_mul]
    calc |σ| * |Real.sin d - d| ≤ 1 * |Real.sin d - d| := mul_le_mul_of_nonneg_right hs (abs_nonneg _)
      _ ≤ 92 / 6 * e ^ 3 := by linarith
  have hg : d = σ * (2 * e + 5 / 2 * e ^ 2 * c + e ^ 3 * (13 / 3 * c ^ 2 - 4 / 3)) := by
    have h3 : Real.sin (3 * m) = σ * (4 * c ^ 2 - 1) := by
      rw [Real.sin_three_mul]
      linear_combination (-4 * σ) * hsc
    rw [hd]; unfold series
    rw [Real.sin_two_mul, h3]
    ring
  have hσ2 : σ ^ 2 = 1 - c ^ 2 := by linarith
  have hid : Real.cos (series e m) - (c - 2 * e * (1 - c ^ 2) - 9 / 2 * e ^ 2 * (c * (1 - c ^ 2))) =
      c * (Real.cos d - (1 - d ^ 2 / 2)) - σ * (Real.sin d - d) -
      (1 - c ^ 2) * (e ^ 3 * (13 / 3 * c ^ 2 - 4 / 3)) -
      c / 2 * (1 - c ^ 2) * ((5 / 2 * e ^ 2 * c + e ^ 3 * (13 / 3 * c ^ 2 - 4 / 3)) *
        (4 * e + 5 / 2 * e ^ 2 * c + e ^ 3 * (13 / 3 * c ^ 2 - 4 / 3))) := by
    have hd2 : d ^ 2 = (1 - c ^ 2) * (2 * e + 5 / 2 * e ^ 2 * c + e ^ 3 * (13 / 3 * c ^ 2 - 4 / 3)) ^ 2 := by
      rw [hg, mul_pow, hσ2]
    have hsd : σ * d = (1 - c ^ 2) * (2 * e + 5 / 2 * e ^ 2 * c + e ^ 3 * (13 / 3 * c ^ 2 - 4 / 3)) := by
      rw [← hσ2, hg]; ring
    rw [hcos]
    linear_combination (-c / 2) * hd2 - hsd
  rw [hid]
  have hc' := abs_le.mp hc
  have hc2 : c ^ 2 ≤ 1 := by nlinarith
  have hc20 : 0 ≤ c ^ 2 := sq_nonneg c
  have hh : |13 / 3 * c ^ 2 - 4 / 3| ≤ 3 := by rw [abs_le]; constructor <;> linarith
  have hz : |1 - c ^ 2| ≤ 1 := by rw [abs_le]; constructor <;> linarith
  have q3 : |(1 - c ^ 2) * (e ^ 3 * (13 / 3 * c ^ 2 - 4 / 3))| ≤ 3 * e ^ 3 := by
    rw [abs_mul, abs_mul, abs_of_nonneg e3']
    calc |1 - c ^ 2| * (e ^ 3 * |13 / 3 * c ^ 2 - 4 / 3|) ≤ 1 * (e ^ 3 * 3) := by gcongr
      _ = 3 * e ^ 3 := by ring
  have f1 : |5 / 2 * e ^ 2 * c + e ^ 3 * (13 / 3 * c ^ 2 - 4 / 3)| ≤ 11 / 2 * e ^ 2 := by
    have a1 : |5 / 2 * e ^ 2 * c| ≤ 5 / 2 * e ^ 2 := by
      rw [abs_mul, abs_of_nonneg (by positivity)]
      exact mul_le_of_le_one_right (by positivity) hc
    have a2 : |e ^ 3 * (13 / 3 * c ^ 2 - 4 / 3)| ≤ 3 * e ^ 2 := by
      rw [abs_mul, abs_of_nonneg e3']
      calc e ^ 3 * |13 / 3 * c ^ 2 - 4 / 3| ≤ e ^ 2 * 3 := by
            gcongr ?_ * ?_
            exact pow_le_pow_of_le_one he0 he1.le (by norm_num)
        _ = 3 * e ^ 2 := by ring
    calc _ ≤ _ := abs_add_le _ _
      _ ≤ 11 / 2 * e ^ 2 := by linarith
  have f2 : |4 * e + 5 / 2 * e ^ 2 * c + e ^ 3 * (13 / 3 * c ^ 2 - 4 / 3)| ≤ 19 / 2 * e := by
    have : 4 * e + 5 / 2 * e ^ 2 * c + e ^ 3 * (13 / 3 * c ^ 2 - 4 / 3) =
      4 * e + (5 / 2 * e ^ 2 * c + e ^ 3 * (13 / 3 * c ^ 2 - 4 / 3)) := by ring
    rw [this]
    calc _ ≤ |4 * e| + _ := abs_add_le _ _
      _ ≤ 4 * e + 11 / 2 * e ^ 2 := by
        rw [abs_of_nonneg (by linarith : 0 ≤ 4 * e)]; linarith
      _ ≤ 19 / 2 * e := by linarith
  have q4 : |c / 2 * (1 - c ^ 2) * ((5 / 2 * e ^ 2 * c + e ^ 3 * (13 / 3 * c ^ 2 - 4 / 3)) *
        (4 * e + 5 / 2 * e ^ 2 * c + e ^ 3 * (13 / 3 * c ^ 2 - 4 / 3)))| ≤ 209 / 8 * e ^ 3 := by
    rw [abs_mul, abs_mul, abs_mul (5 / 2 * e ^ 2 * c + _)]
    have hc2' : |c / 2| ≤ 1 / 2 := by
      rw [abs_div, abs_of_pos (by norm_num : (0 : ℝ) < 2)]; linarith
    calc _ ≤ 1 / 2 * 1 * (11 / 2 * e ^ 2 * (19 / 2 * e)) := by gcongr
      _ = 209 / 8 * e ^ 3 := by ring
  have b1 := abs_le.mp q1
  have b2 := abs_le.mp q2
  have b3 := abs_le.mp q3
  have b4 := abs_le.mp q4
  rw [abs_le]
  constructor <;> linarith [b1.1, b1.2, b2.1, b2.2, b3.1, b3.2, b4.1, b4.2]

theorem series_factor_le {e C c : ℝ} (he0 : 0 ≤ e) (he1 : e < 1) (hC : |C| ≤ 1) (hc : |c| ≤ 1) :
    |2 + e * C + e * (c - 2 * e * (1 - c ^ 2) - 9 / 2 * e ^ 2 * (c * (1 - c ^ 2)))| ≤ 21 / 2 := by
  have m0 := mon_le he0 hC 1 1
  have m1 := mon_le he0 hc 1 1
  have hc2 : c ^ 2 ≤ 1 := by have := abs_le.mp hc; nlinarith
  have p1 : e ^ 1 ≤ 1 := by simpa using he1.le
  have p2 : e ^ 2 ≤ 1 := pow_le_one₀ he0 he1.le
  have p20 : 0 ≤ e ^ 2 := by positivity
  have p3 : e ^ 3 ≤ 1 := pow_le_one₀ he0 he1.le
  have hz : |1 - c ^ 2| ≤ 1 := by rw [abs_le]; constructor <;> nlinarith [sq_nonneg c]
  have hcz : |c * (1 - c ^ 2)| ≤ 1 := by
    rw [abs_mul]
    exact mul_le_one₀ hc (abs_nonneg _) hz
  have m3 := mon_le he0 hz 2 1
  have m4 := mon_le he0 hcz 3 1
  have : 2 + e * C + e * (c - 2 * e * (1 - c ^ 2) - 9 / 2 * e ^ 2 * (c * (1 - c ^ 2))) =
    2 + e ^ 1 * C ^ 1 + e ^ 1 * c ^ 1 - 2 * (e ^ 2 * (1 - c ^ 2) ^ 1) -
      9 / 2 * (e ^ 3 * (c * (1 - c ^ 2)) ^ 1) := by ring
  rw [this]
  generalize e ^ 1 * C ^ 1 = x1 at *
  generalize e ^ 1 * c ^ 1 = x2 at *
  generalize e ^ 2 * (1 - c ^ 2) ^ 1 = x3 at *
  generalize e ^ 3 * (c * (1 - c ^ 2)) ^ 1 = x4 at *
  generalize e ^ 1 = y1 at *
  generalize e ^ 2 = y2 at *
  generalize e ^ 3 = y3 at *
  clear this hc hC hz hcz hc2 p20
  rw [abs_le]
  constructor <;> linarith [m0.1, m0.2, m1.1, m1.2, m3.1, m3.2, m4.1, m4.2]

theorem series_rest_le {e c : ℝ} (he0 : 0 ≤ e) (he1 : e < 1) (hc : |c| ≤ 1) :
    |-(3 / 2) * (e ^ 4 * (5 * c ^ 2 - 5 / 2) + e ^ 5 * (13 * c ^ 3 - 10 * c)) - 4 * e ^ 4 * (1 - c ^ 2) ^ 2 +
          9 * e ^ 4 * (c ^ 2 * (1 - c ^ 2)) - 18 * e ^ 5 * (c * (1 - c ^ 2) ^ 2) -
          81 / 4 * e ^ 6 * (c * (1 - c ^ 2)) ^ 2| ≤ 297 * e ^ 4 := by
  have hc2 : c ^ 2 ≤ 1 := by have := abs_le.mp hc; nlinarith
  have hz : |1 - c ^ 2| ≤ 1 := by rw [abs_le]; constructor <;> nlinarith [sq_nonneg c]
  have hcz : |c * (1 - c ^ 2)| ≤ 1 := by
    rw [abs_mul]
    exact mul_le_one₀ hc (abs_nonneg _) hz
  have hccz : |c * (c * (1 - c ^ 2))| ≤ 1 := by
    rw [abs_mul]
    exact mul_le_one₀ hc (abs_nonneg _) hcz
  have hczz : |c * (1 - c ^ 2) * (1 - c ^ 2)| ≤ 1 := by
    rw [abs_mul]
    exact mul_le_one₀ hcz (abs_nonneg _) hz
  have m1 := mon_le he0 hc 4 2
  have m2 := mon_le he0 hc 5 3
  have m3 := mon_le he0 hc 5 1
  have m4 := mon_le he0 hz 4 2
  have m5 := mon_le he0 hccz 4 1
  have m6 := mon_le he0 hczz 5 1
  have m7 := mon_le he0 hcz 6 2
  have e5 : e ^ 5 ≤ e ^ 4 := pow_le_pow_of_le_one he0 he1.le (by norm_num)
  have e6 : e ^ 6 ≤ e ^ 4 := pow_le_pow_of_le_one he0 he1.le (by norm_num)
  have e40 : 0 ≤ e ^ 4 := by positivity
  have : -(3 / 2) * (e ^ 4 * (5 * c ^ 2 - 5 / 2) + e ^ 5 * (13 * c ^ 3 - 10 * c)) - 4 * e ^ 4 * (1 - c ^ 2) ^ 2 +
          9 * e ^ 4 * (c ^ 2 * (1 - c ^ 2)) - 18 * e ^ 5 * (c * (1 - c ^ 2) ^ 2) -
          81 / 4 * e ^ 6 * (c * (1 - c ^ 2)) ^ 2 =
      -(15 / 2) * (e ^ 4 * c ^ 2) + 15 / 4 * e ^ 4 - 39 / 2 * (e ^ 5 * c ^ 3) + 15 * (e ^ 5 * c ^ 1) -
      4 * (e ^ 4 * (1 - c ^ 2) ^ 2) + 9 * (e ^ 4 * (c * (c * (1 - c ^ 2))) ^ 1) -
      18 * (e ^ 5 * (c * (1 - c ^ 2) * (1 - c ^ 2)) ^ 1) - 81 / 4 * (e ^ 6 * (c * (1 - c ^ 2)) ^ 2) := by ring
  rw [this]
  generalize e ^ 4 * c ^ 2 = x1 at *
  generalize e ^ 5 * c ^ 3 = x2 at *
  generalize e ^ 5 * c ^ 1 = x3 at *
  generalize e ^ 4 * (1 - c ^ 2) ^ 2 = x4 at *
  generalize e ^ 4 * (c * (c * (1 - c ^ 2))) ^ 1 = x5 at *
  generalize e ^ 5 * (c * (1 - c ^ 2) * (1 - c ^ 2)) ^ 1 = x6 at *
  generalize e ^ 6 * (c * (1 - c ^ 2)) ^ 2 = x7 at *
  generalize e ^ 4 = y4 at *
  generalize e ^ 5 = y5 at *
  generalize e ^ 6 = y6 at *
  clear this hc hz hcz hccz hczz hc2 he0 he1
  rw [abs_le]
  constructor <;> linarith [m1.1, m1.2, m2.1, m2.2, m3.1, m3.2, m4.1, m4.2, m5.1, m5.2, m6.1, m6.2, m7.1, m7.2]

/-- The series of the true anomaly solves the differential equation of the true anomaly up to the fourth order of the
eccentricity. -/
theorem trueSeries_deriv_close {e : ℝ} (he0 : 0 ≤ e) (he1 : e < 1) (m : ℝ) :
    |axisRatio e ^ 3 / (1 + e * Real.cos (series e m)) ^ 2 * (1 + 2 * e * Real.cos m +
      e ^ 2 * (5 * Real.cos m ^ 2 - 5 / 2) + e ^ 3 * (13 * Real.cos m ^ 3 - 10 * Real.cos m)) - 1| ≤
      1000 * e ^ 4 / (1 - e) ^ 2 := by
  obtain ⟨k1, k2⟩ := axisRatio_cube he0 he1
  have hC := abs_cos_le (series e m)
  have hw := cos_trueSeries_close he0 he1 m
  have hc := abs_cos_le m
  set C := Real.cos (series e m) with hCdef
  set c := Real.cos m with hcdef
  set s := axisRatio e ^ 3 with hsdef
  have hC' := abs_le.mp hC
  have hP : 1 - e ≤ 1 + e * C := by nlinarith
  have h1e : 0 < 1 - e := by linarith
  have hP0 : 0 < 1 + e * C := by linarith
  have e4 : 0 ≤ e ^ 4 := by positivity
  have e5 : e ^ 5 ≤ e ^ 4 := pow_le_pow_of_le_one he0 he1.le (by norm_num)
  have e6 : e ^ 6 ≤ e ^ 4 := pow_le_pow_of_le_one he0 he1.le (by norm_num)
  have e50 : 0 ≤ e ^ 5 := by positivity
  have e60 : 0 ≤ e ^ 6 := by positivity
  obtain ⟨w, hwdef⟩ : ∃ w, w = C - (c - 2 * e * (1 - c ^ 2) - 9 / 2 * e ^ 2 * (c * (1 - c ^ 2))) := ⟨_, rfl⟩
  rw [← hwdef] at hw
  have hCw : C = (c - 2 * e * (1 - c ^ 2) - 9 / 2 * e ^ 2 * (c * (1 - c ^ 2))) + w := by rw [hwdef]; ring
  obtain ⟨η, hη⟩ : ∃ η, η = s - (1 - 3 / 2 * e ^ 2) := ⟨_, rfl⟩
  have hsη : s = 1 - 3 / 2 * e ^ 2 + η := by rw [hη]; ring
  have hη0 : 0 ≤ η := by rw [hη]; linarith
  have hη1 : η ≤ e ^ 4 / 2 := by rw [hη]; linarith
  obtain ⟨D, hD⟩ : ∃ D, D = 1 + 2 * e * c + e ^ 2 * (5 * c ^ 2 - 5 / 2) + e ^ 3 * (13 * c ^ 3 - 10 * c) := ⟨_, rfl⟩
  rw [← hD]
  have hDb : |D| ≤ 40 := by
    have m1 := mon_le he0 hc 1 1
    have m2 := mon_le he0 hc 2 2
    have m3 := mon_le he0 hc 3 3
    have m4 := mon_le he0 hc 3 1
    have p1 : e ^ 1 ≤ 1 := by simpa using he1.le
    have p2 : e ^ 2 ≤ 1 := by nlinarith
    have p3 : e ^ 3 ≤ 1 := pow_le_one₀ he0 he1.le
    have p20 : 0 ≤ e ^ 2 := by positivity
    have hD' : D = 1 + 2 * (e ^ 1 * c ^ 1) + 5 * (e ^ 2 * c ^ 2) - 5 / 2 * e ^ 2 + 13 * (e ^ 3 * c ^ 3) -
      10 * (e ^ 3 * c ^ 1) := by rw [hD]; ring
    rw [hD', abs_le]
    constructor <;> linarith [m1.1, m1.2, m2.1, m2.2, m3.1, m3.2, m4.1, m4.2]
  have hnum : |s * D - (1 + e * C) ^ 2| ≤ 1000 * e ^ 4 := by
    have hid : s * D - (1 + e * C) ^ 2 = η * D - e * w * (2 + e * C +
        e * (c - 2 * e * (1 - c ^ 2) - 9 / 2 * e ^ 2 * (c * (1 - c ^ 2)))) +
        (-(3 / 2) * (e ^ 4 * (5 * c ^ 2 - 5 / 2) + e ^ 5 * (13 * c ^ 3 - 10 * c)) - 4 * e ^ 4 * (1 - c ^ 2) ^ 2 +
          9 * e ^ 4 * (c ^ 2 * (1 - c ^ 2)) - 18 * e ^ 5 * (c * (1 - c ^ 2) ^ 2) -
          81 / 4 * e ^ 6 * (c * (1 - c ^ 2)) ^ 2) := by
      rw [hsη, hD, hCw]; ring
    rw [hid]
    have g1 : |η * D| ≤ 20 * e ^ 4 := by
      rw [abs_mul, abs_of_nonneg hη0]
      calc η * |D| ≤ e ^ 4 / 2 * 40 := by gcongr
        _ = 20 * e ^ 4 := by ring
    have hf := series_factor_le he0 he1 hC hc
    have g2 : |e * w * (2 + e * C + e * (c - 2 * e * (1 - c ^ 2) - 9 / 2 * e ^ 2 * (c * (1 - c ^ 2))))| ≤
        1365 / 2 * e ^ 4 := by
      rw [abs_mul, abs_mul, abs_of_nonneg he0]
      calc e * |w| * _ ≤ e * (65 * e ^ 3) * (21 / 2) := by gcongr
        _ = 1365 / 2 * e ^ 4 := by ring
    have g3 := series_rest_le he0 he1 hc
    calc _ ≤ |η * D - e * w * (2 + e * C +
        e * (c - 2 * e * (1 - c ^ 2) - 9 / 2 * e ^ 2 * (c * (1 - c ^ 2))))| + _ := abs_add_le _ _
      _ ≤ (|η * D| + |e * w * (2 + e * C +
        e * (c - 2 * e * (1 - c ^ 2) - 9 / 2 * e ^ 2 * (c * (1 - c ^ 2))))|) + _ := by gcongr; exact abs_sub _ _
      _ ≤ 1000 * e ^ 4 := by linarith
  have heq : s / (1 + e * C) ^ 2 * D - 1 = (s * D - (1 + e * C) ^ 2) / (1 + e * C) ^ 2 := by
    field_simp
  rw [heq, abs_div, abs_of_pos (pow_pos hP0 2)]
  exact div_le_div₀ (by positivity) hnum (pow_pos h1e 2) (pow_le_pow_left₀ h1e.le hP 2)

theorem series_zero (e : ℝ) : series e 0 = 0 := by simp [series]

/-- The mean anomaly of the series of the true anomaly. -/
theorem meanOf_series_close {e : ℝ} (he0 : 0 ≤ e) (he1 : e < 1) (m : ℝ) :
    |meanOf e (series e m) - m| ≤ 1000 * e ^ 4 / (1 - e) ^ 2 * |m| := by
  refine abs_le_of_deriv (f := fun m => meanOf e (series e m) - m)
    (fun x => ((hasDerivAt_meanOf he0 he1 (series e x)).comp x (hasDerivAt_trueSeries e x)).sub
      (hasDerivAt_id x)) ?_ ?_ m
  · intro x
    exact trueSeries_deriv_close he0 he1 x
  · simp [series_zero, meanOf_zero]

/-- The mean anomaly grows with the true anomaly at least at this rate. -/
theorem meanOf_rate {e : ℝ} (he0 : 0 ≤ e) (he1 : e < 1) (a b : ℝ) :
    (1 - e) ^ 2 * |a - b| ≤ |meanOf e a - meanOf e b| := by
  have hd : ∀ x, (1 - e) ^ 2 ≤ deriv (meanOf e) x := by
    intro x
    rw [(hasDerivAt_meanOf he0 he1 x).deriv]
    have hP := one_add_cos_pos he0 he1 x
    have hP1 : 1 + e * Real.cos x ≤ 1 + e := by
      have := Real.cos_le_one x
      nlinarith
    have hk := axisRatio_sq he0 he1
    have hk1 := axisRatio_le_one he0 he1
    have hk0 := axisRatio_pos he0 he1
    rw [le_div_iff₀ (pow_pos hP 2)]
    have h1 : (1 + e * Real.cos x) ^ 2 ≤ (1 + e) ^ 2 := pow_le_pow_left₀ hP.le hP1 2
    have h2 : axisRatio e ^ 4 ≤ axisRatio e ^ 3 := pow_le_pow_of_le_one hk0.le hk1 (by norm_num)
    have h3 : axisRatio e ^ 4 = (1 - e) ^ 2 * (1 + e) ^ 2 := by
      rw [show axisRatio e ^ 4 = (axisRatio e ^ 2) ^ 2 by ring, hk]; ring
    calc (1 - e) ^ 2 * (1 + e * Real.cos x) ^ 2 ≤ (1 - e) ^ 2 * (1 + e) ^ 2 := by gcongr
      _ ≤ axisRatio e ^ 3 := by linarith
  have hdiff : Differentiable ℝ (meanOf e) := fun x => (hasDerivAt_meanOf he0 he1 x).differentiableAt
  rcases le_total a b with h | h
  · have := mul_sub_le_image_sub_of_le_deriv hdiff hd h
    rw [abs_sub_comm, abs_of_nonneg (by linarith : 0 ≤ b - a), abs_sub_comm]
    exact this.trans (le_abs_self _)
  · have := mul_sub_le_image_sub_of_le_deriv hdiff hd h
    rw [abs_of_nonneg (by linarith : 0 ≤ a - b)]
    exact this.trans (le_abs_self _)

/-- **C103, true anomaly.** The reported true anomaly of a mean anomaly is the one of Kepler's equation up to the
fourth order of the eccentricity. -/
theorem C103_true_anomaly_partial {e : ℝ} (he0 : 0 ≤ e) (he1 : e < 1) (meanAnomaly E ν : ℝ)
    (h : KeplerAnomalies e ν E (radians meanAnomaly)) :
    |meanToTrue meanAnomaly e - degrees ν| ≤ 1000 * e ^ 4 / (1 - e) ^ 4 * |meanAnomaly| := by
  have hM := (kepler_unique he0 he1 h).2
  rw [meanToTrue_series, degrees_mul, abs_degrees, ← degrees_mul_radians]
  apply degrees_le
  have h1 := meanOf_series_close he0 he1 (radians meanAnomaly)
  have h2 := meanOf_rate he0 he1 (series e (radians meanAnomaly)) ν
  rw [← hM] at h2
  have hp : 0 < (1 - e) ^ 2 := pow_pos (by linarith) 2
  have h3 : |series e (radians meanAnomaly) - ν| ≤
      1000 * e ^ 4 / (1 - e) ^ 2 * |radians meanAnomaly| / (1 - e) ^ 2 := by
    rw [le_div_iff₀ hp]; linarith
  calc _ ≤ _ := h3
    _ = _ := by
      rw [show (1 - e) ^ 4 = (1 - e) ^ 2 * (1 - e) ^ 2 by ring]
      field_simp

/-- **C103, back and forth.** A mean anomaly turned into a true anomaly and back is the same up to the fourth order of
the eccentricity. -/
theorem C103_round_trip_partial {e : ℝ} (he0 : 0 ≤ e) (he1 : e < 1) (meanAnomaly : ℝ) :
    |trueToMean (meanToTrue meanAnomaly e) e - meanAnomaly| ≤ 1202 * e ^ 4 / (1 - e) ^ 2 * |meanAnomaly| := by
  have hr : ∀ x, radians (degrees x) = x := by
    intro x; unfold radians degrees
    have := Real.pi_pos
    field_simp
  have hr' : ∀ x, degrees (radians x) = x := by
    intro x; unfold radians degrees
    have := Real.pi_pos
    field_simp
  rw [trueToMean_series, meanToTrue_series, hr, ← degrees_mul_radians]
  have hm : ∀ y, y - meanAnomaly = y - degrees (radians meanAnomaly) := by intro y; rw [hr']
  rw [hm, degrees_mul, abs_degrees]
  apply degrees_le
  generalize radians meanAnomaly = m
  have h1 := meanSeries_close he0 he1 (series e m)
  have h2 := meanOf_series_close he0 he1 m
  have hS : |series e m| ≤ 35 / 4 * |m| := by
    have hs := fun x : ℝ => Real.abs_sin_le_abs (x := x)
    have a1 : |(2 * e - 1 / 4 * e ^ 3) * Real.sin m| ≤ 2 * |m| := by
      rw [abs_mul]
      have p3 : e ^ 3 ≤ e := by nlinarith [sq_nonneg e]
      have p30 : 0 ≤ e ^ 3 := by positivity
      have : |2 * e - 1 / 4 * e ^ 3| ≤ 2 := by rw [abs_le]; constructor <;> linarith
      exact mul_le_mul this (hs m) (abs_nonneg _) (by norm_num)
    have a2 : |5 / 4 * e ^ 2 * Real.sin (2 * m)| ≤ 5 / 2 * |m| := by
      rw [abs_mul]
      have p2 : e ^ 2 ≤ 1 := pow_le_one₀ he0 he1.le
      have : |5 / 4 * e ^ 2| ≤ 5 / 4 := by rw [abs_of_nonneg (by positivity)]; linarith
      calc _ ≤ 5 / 4 * |2 * m| := mul_le_mul this (hs _) (abs_nonneg _) (by norm_num)
        _ = 5 / 2 * |m| := by rw [abs_mul, abs_of_pos (by norm_num : (0 : ℝ) < 2)]; ring
    have a3 : |13 / 12 * e ^ 3 * Real.sin (3 * m)| ≤ 13 / 4 * |m| := by
      rw [abs_mul]
      have p3 : e ^ 3 ≤ 1 := pow_le_one₀ he0 he1.le
      have : |13 / 12 * e ^ 3| ≤ 13 / 12 := by rw [abs_of_nonneg (by positivity)]; linarith
      calc _ ≤ 13 / 12 * |3 * m| := mul_le_mul this (hs _) (abs_nonneg _) (by norm_num)
        _ = 13 / 4 * |m| := by rw [abs_mul, abs_of_pos (by norm_num : (0 : ℝ) < 3)]; ring
    unfold series
    have b1 := abs_add_le (m + (2 * e - 1 / 4 * e ^ 3) * Real.sin m + 5 / 4 * e ^ 2 * Real.sin (2 * m))
      (13 / 12 * e ^ 3 * Real.sin (3 * m))
    have b2 := abs_add_le (m + (2 * e - 1 / 4 * e ^ 3) * Real.sin m) (5 / 4 * e ^ 2 * Real.sin (2 * m))
    have b3 := abs_add_le m ((2 * e - 1 / 4 * e ^ 3) * Real.sin m)
    linarith
  have hp : 0 < (1 - e) ^ 2 := pow_pos (by linarith) 2
  have h3 : 23 * e ^ 5 / (1 - e) ^ 2 * |series e m| ≤ 202 * e ^ 4 / (1 - e) ^ 2 * |m| := by
    have e5 : e ^ 5 ≤ e ^ 4 := pow_le_pow_of_le_one he0 he1.le (by norm_num)
    have e4 : 0 ≤ e ^ 4 := by positivity
    calc 23 * e ^ 5 / (1 - e) ^ 2 * |series e m| ≤ 23 * e ^ 4 / (1 - e) ^ 2 * (35 / 4 * |m|) := by gcongr
      _ = 805 / 4 * (e ^ 4 / (1 - e) ^ 2 * |m|) := by ring
      _ ≤ 202 * (e ^ 4 / (1 - e) ^ 2 * |m|) := by
        have : 0 ≤ e ^ 4 / (1 - e) ^ 2 * |m| := by positivity
        linarith
      _ = _ := by ring
  calc |meanSeries e (series e m) - m| = |(meanSeries e (series e m) - meanOf e (series e m)) +
        (meanOf e (series e m) - m)| := by ring_nf
    _ ≤ _ := abs_add_le _ _
    _ ≤ 202 * e ^ 4 / (1 - e) ^ 2 * |m| + 1000 * e ^ 4 / (1 - e) ^ 2 * |m| := by linarith
    _ = _ := by ring

/-- A point of an orbit of eccentricity `e` with eccentric anomaly 90 degrees. -/
theorem kepler_quarter {e : ℝ} (he0 : 0 ≤ e) (he1 : e < 1) :
    KeplerAnomalies e (Real.pi / 2 + Real.arcsin e) (Real.pi / 2) (Real.pi / 2 - e) := by
  have hs : Real.sin (Real.arcsin e) = e := Real.sin_arcsin (by linarith) he1.le
  have hc : Real.cos (Real.arcsin e) = Real.sqrt (1 - e ^ 2) := Real.cos_arcsin e
  refine ⟨by rw [Real.sin_pi_div_two]; ring, ?_, ?_, ?_⟩
  · rw [Real.cos_add, Real.cos_pi_div_two, Real.sin_pi_div_two, hs]; ring
  · rw [Real.sin_add, Real.cos_pi_div_two, Real.sin_pi_div_two, hc]; ring
  · have h1 := Real.neg_pi_div_two_le_arcsin e
    have h2 := Real.arcsin_le_pi_div_two e
    have hpi := Real.pi_pos
    rw [show Real.pi / 2 + Real.arcsin e - Real.pi / 2 = Real.arcsin e by ring, abs_lt]
    constructor <;> linarith

/-- The hypotheses of C103 hold, for every eccentricity below one and every true anomaly. -/
example {e : ℝ} (he0 : 0 ≤ e) (he1 : e < 1) (x : ℝ) :
    ∃ E M, KeplerAnomalies e (radians x) E M := ⟨_, _, kepler_eccOf he0 he1 (radians x)⟩

/-- **C103 is false as it stands**: at eccentricity 0.6 the reported true anomaly is off by more than 8 degrees. -/
theorem C103_true_anomaly_false : ∃ x E ν : ℝ, KeplerAnomalies 0.6 ν E (radians x) ∧
    8 < meanToTrue x 0.6 - degrees ν := by
  have hr : ∀ x, radians (degrees x) = x := by
    intro x; unfold radians degrees
    have := Real.pi_pos
    field_simp
  refine ⟨degrees (Real.pi / 2 - 0.6), Real.pi / 2, Real.pi / 2 + Real.arcsin 0.6, ?_, ?_⟩
  · rw [hr]; exact kepler_quarter (by norm_num) (by norm_num)
  · rw [meanToTrue_series, hr, degrees_mul]
    have hpi := Real.pi_gt_d2
    have hpi2 := Real.pi_lt_d2
    have ha : Real.arcsin 0.6 ≤ 0.65 := by
      rw [Real.arcsin_le_iff_le_sin' ⟨by linarith, by linarith⟩]
      have := Real.sin_ge_sub_cube (by norm_num : (0 : ℝ) ≤ 0.65)
      norm_num at this ⊢
      linarith
    have h1 : Real.sin (Real.pi / 2 - 0.6) = Real.cos 0.6 := Real.sin_pi_div_two_sub _
    have h2 : Real.sin (2 * (Real.pi / 2 - 0.6)) = Real.sin 1.2 := by
      rw [show 2 * (Real.pi / 2 - 0.6) = Real.pi - 1.2 by ring, Real.sin_pi_sub]
    have h3 : Real.sin (3 * (Real.pi / 2 - 0.6)) = -Real.cos 1.8 := by
      rw [show 3 * (Real.pi / 2 - 0.6) = Real.pi / 2 - 1.8 + Real.pi by ring, Real.sin_add_pi,
        Real.sin_pi_div_two_sub]
    have c1 := Real.one_sub_sq_div_two_le_cos (x := 0.6)
    have s1 := Real.sin_ge_sub_cube (by norm_num : (0 : ℝ) ≤ 1.2)
    have c2 := cos_upper 1.8
    have hS : 0.1428 ≤ series 0.6 (Real.pi / 2 - 0.6) - (Real.pi / 2 + Real.arcsin 0.6) := by
      unfold series
      rw [h1, h2, h3]
      norm_num at c1 s1 c2 ha ⊢
      linarith
    have h180 : degrees 0.1428 ≤ _ := degrees_le hS
    refine lt_of_lt_of_le ?_ h180
    unfold degrees
    rw [mul_div_assoc', lt_div_iff₀ (by linarith)]
    linarith

/-- **C103 is false as it stands**: at eccentricity 0.6 the reported mean anomaly of a true anomaly of 90 degrees is off
by more than a tenth of a degree. -/
theorem C103_mean_anomaly_false : ∃ E M : ℝ, KeplerAnomalies 0.6 (radians 90) E M ∧
    0.1 < degrees M - trueToMean 90 0.6 := by
  have hk : axisRatio 0.6 = 0.8 := by
    unfold axisRatio
    rw [show (1 : ℝ) - 0.6 ^ 2 = 0.8 ^ 2 by norm_num]
    exact Real.sqrt_sq (by norm_num)
  have hx : radians 90 = Real.pi / 2 := by unfold radians; ring
  refine ⟨_, _, kepler_eccOf (by norm_num) (by norm_num) (radians 90), ?_⟩
  have hc := cos_eccOf (e := 0.6) (by norm_num) (by norm_num) (Real.pi / 2)
  have hs := sin_eccOf (e := 0.6) (by norm_num) (by norm_num) (Real.pi / 2)
  rw [Real.cos_pi_div_two] at hc hs
  rw [Real.sin_pi_div_two, hk] at hs
  norm_num at hc hs
  have hpi := Real.pi_gt_d2
  have hpi2 : Real.pi < 3.1416 := Real.pi_lt_d4
  have hE : 0.925 ≤ eccOf 0.6 (Real.pi / 2) := by
    by_contra hcon
    push Not at hcon
    have hE0 : 0 ≤ eccOf 0.6 (Real.pi / 2) := by
      by_contra hneg
      push Not at hneg
      have h1 := (abs_lt.mp (eccOf_near (e := 0.6) (Real.pi / 2))).2
      have := Real.sin_neg_of_neg_of_neg_pi_lt hneg (by linarith)
      norm_num at this
      linarith
    have hlt := Real.cos_lt_cos_of_nonneg_of_le_pi hE0 (by linarith) hcon
    norm_num at hlt
    rw [hc] at hlt
    have q := Real.one_sub_sq_div_two_le_cos (x := 0.23125)
    have d1 : Real.cos 0.4625 = 2 * Real.cos 0.23125 ^ 2 - 1 := by rw [← Real.cos_two_mul]; norm_num
    have d2 : Real.cos 0.925 = 2 * Real.cos 0.4625 ^ 2 - 1 := by rw [← Real.cos_two_mul]; norm_num
    have q1 : 0.97326 ≤ Real.cos 0.23125 := by norm_num at q ⊢; linarith
    have q2 : 0.89446 ≤ Real.cos 0.4625 := by
      rw [d1]
      have := pow_le_pow_left₀ (by norm_num) q1 2
      norm_num at this ⊢
      linarith
    have q3 : 0.6 < Real.cos 0.925 := by
      rw [d2]
      have := pow_le_pow_left₀ (by norm_num) q2 2
      norm_num at this ⊢
      linarith
    norm_num at q3
    linarith
  rw [trueToMean_series, degrees_mul, hx]
  have hd : 0.0022 ≤ meanOf 0.6 (Real.pi / 2) - meanSeries 0.6 (Real.pi / 2) := by
    unfold meanOf meanSeries
    rw [show 2 * (Real.pi / 2) = Real.pi by ring, Real.sin_pi, Real.sin_pi_div_two,
      show 3 * (Real.pi / 2) = Real.pi / 2 + Real.pi by ring, Real.sin_add_pi, Real.sin_pi_div_two,
      show 4 * (Real.pi / 2) = 2 * Real.pi by ring, Real.sin_two_pi]
    norm_num at hE ⊢
    rw [hs]
    linarith
  refine lt_of_lt_of_le ?_ (degrees_le hd)
  unfold degrees
  rw [mul_div_assoc', lt_div_iff₀ (by linarith)]
  linarith

end Tatc.Props
