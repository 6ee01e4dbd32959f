import Verif.Model.Anomaly
import Verif.Props.Convert
import Verif.Props.Kepler

/-!
# C149: the true anomaly of an orbit survives the conversion to an element set

The element set stores the mean anomaly with four decimals and the eccentricity with seven; the true anomaly is computed
from them again, with a series in the eccentricity.
-/

namespace Tatc.Props
open Tatc.Orbit Tatc.Num Tatc.Spec Tatc.Tle Tatc.Text

theorem mul_sin_diff {a b k x y : ℝ} {n : ℝ} (hn : 0 ≤ n) (hb : |b| ≤ k) :
    |a * Real.sin (n * x) - b * Real.sin (n * y)| ≤ |a - b| + k * n * |x - y| := by
  have e : a * Real.sin (n * x) - b * Real.sin (n * y) =
      (a - b) * Real.sin (n * x) + b * (Real.sin (n * x) - Real.sin (n * y)) := by ring
  rw [e]
  refine (abs_add_le _ _).trans ?_
  rw [abs_mul, abs_mul]
  have h1 := mul_le_mul_of_nonneg_left (Real.abs_sin_le_one (n * x)) (abs_nonneg (a - b))
  have h2 : |Real.sin (n * x) - Real.sin (n * y)| ≤ n * |x - y| := by
    have := Real.abs_sin_sub_sin_le (n * x) (n * y)
    rwa [← mul_sub, abs_mul, abs_of_nonneg hn] at this
  have h3 := mul_le_mul hb h2 (abs_nonneg _) ((abs_nonneg _).trans hb)
  linarith

/-- The series depends continuously on both of its arguments. -/
theorem series_diff {d e b x y : ℝ} (hd : |d| ≤ b) (he : |e| ≤ b) :
    |series d x - series e y| ≤ |x - y| * (1 + 2 * b + 5 / 2 * b ^ 2 + 7 / 2 * b ^ 3) +
      |d - e| * (2 + 5 / 2 * b + 4 * b ^ 2) := by
  have b0 : 0 ≤ b := (abs_nonneg _).trans hd
  have e2 : |e ^ 2| ≤ b ^ 2 := by rw [abs_pow]; exact pow_le_pow_left₀ (abs_nonneg _) he 2
  have e3 : |e ^ 3| ≤ b ^ 3 := by rw [abs_pow]; exact pow_le_pow_left₀ (abs_nonneg _) he 3
  have q2 : |d ^ 2 - e ^ 2| ≤ |d - e| * (2 * b) := by
    rw [show d ^ 2 - e ^ 2 = (d - e) * (d + e) by ring, abs_mul]
    exact mul_le_mul_of_nonneg_left ((abs_add_le _ _).trans (by linarith)) (abs_nonneg _)
  have q3 : |d ^ 3 - e ^ 3| ≤ |d - e| * (3 * b ^ 2) := by
    rw [show d ^ 3 - e ^ 3 = (d - e) * (d * d + d * e + e * e) by ring, abs_mul]
    refine mul_le_mul_of_nonneg_left ?_ (abs_nonneg _)
    refine (abs_add_le _ _).trans ?_
    have h1 := abs_add_le (d * d) (d * e)
    rw [abs_mul, abs_mul] at h1
    rw [abs_mul e e]
    have h2 := mul_le_mul hd hd (abs_nonneg _) b0
    have h3 := mul_le_mul hd he (abs_nonneg _) b0
    have h4 := mul_le_mul he he (abs_nonneg _) b0
    nlinarith
  have s1 := mul_sin_diff (a := 2 * d - 1 / 4 * d ^ 3) (b := 2 * e - 1 / 4 * e ^ 3) (k := 2 * b + 1 / 4 * b ^ 3) (x := x) (y := y)
    (n := 1) (by norm_num) (by
      refine (abs_sub _ _).trans ?_
      rw [abs_mul, abs_mul, abs_two, abs_of_pos (by norm_num : (0 : ℝ) < 1 / 4)]; linarith)
  have s2 := mul_sin_diff (a := 5 / 4 * d ^ 2) (b := 5 / 4 * e ^ 2) (k := 5 / 4 * b ^ 2) (x := x) (y := y)
    (n := 2) (by norm_num) (by rw [abs_mul, abs_of_pos (by norm_num : (0 : ℝ) < 5 / 4)]; linarith)
  have s3 := mul_sin_diff (a := 13 / 12 * d ^ 3) (b := 13 / 12 * e ^ 3) (k := 13 / 12 * b ^ 3) (x := x) (y := y)
    (n := 3) (by norm_num) (by rw [abs_mul, abs_of_pos (by norm_num : (0 : ℝ) < 13 / 12)]; linarith)
  have t1 : |2 * d - 1 / 4 * d ^ 3 - (2 * e - 1 / 4 * e ^ 3)| ≤ 2 * |d - e| + 1 / 4 * |d ^ 3 - e ^ 3| := by
    rw [show 2 * d - 1 / 4 * d ^ 3 - (2 * e - 1 / 4 * e ^ 3) = 2 * (d - e) - 1 / 4 * (d ^ 3 - e ^ 3) by ring]
    refine (abs_sub _ _).trans ?_
    rw [abs_mul, abs_mul, abs_two, abs_of_pos (by norm_num : (0 : ℝ) < 1 / 4)]
  have t2 : |5 / 4 * d ^ 2 - 5 / 4 * e ^ 2| = 5 / 4 * |d ^ 2 - e ^ 2| := by
    rw [← mul_sub, abs_mul, abs_of_pos (by norm_num : (0 : ℝ) < 5 / 4)]
  have t3 : |13 / 12 * d ^ 3 - 13 / 12 * e ^ 3| = 13 / 12 * |d ^ 3 - e ^ 3| := by
    rw [← mul_sub, abs_mul, abs_of_pos (by norm_num : (0 : ℝ) < 13 / 12)]
  rw [t2] at s2
  rw [t3] at s3
  rw [one_mul, one_mul] at s1
  have e1 : series d x - series e y = (x - y) + ((2 * d - 1 / 4 * d ^ 3) * Real.sin x - (2 * e - 1 / 4 * e ^ 3) * Real.sin y) +
      (5 / 4 * d ^ 2 * Real.sin (2 * x) - 5 / 4 * e ^ 2 * Real.sin (2 * y)) +
      (13 / 12 * d ^ 3 * Real.sin (3 * x) - 13 / 12 * e ^ 3 * Real.sin (3 * y)) := by unfold series; ring
  rw [e1]
  refine (abs_add_le _ _).trans ?_
  have u1 := abs_add_le ((x - y) + ((2 * d - 1 / 4 * d ^ 3) * Real.sin x - (2 * e - 1 / 4 * e ^ 3) * Real.sin y))
      (5 / 4 * d ^ 2 * Real.sin (2 * x) - 5 / 4 * e ^ 2 * Real.sin (2 * y))
  have u2 := abs_add_le (x - y) ((2 * d - 1 / 4 * d ^ 3) * Real.sin x - (2 * e - 1 / 4 * e ^ 3) * Real.sin y)
  linarith

/-- The series of the true anomaly undoes the series of the mean anomaly up to the fourth order of the eccentricity. -/
theorem series_meanSeries_close {e : ℝ} (he0 : 0 ≤ e) (he1 : e < 1) (t : ℝ) :
    |series e (meanSeries e t) - t| ≤ (1000 * e ^ 4 * |meanSeries e t| + 23 * e ^ 5 * |t|) / (1 - e) ^ 4 := by
  have h1 := meanOf_series_close he0 he1 (meanSeries e t)
  have h2 := meanSeries_close he0 he1 t
  have h3 := meanOf_rate he0 he1 (series e (meanSeries e t)) t
  have h4 := abs_sub_le (Lemmas.meanOf e (series e (meanSeries e t))) (meanSeries e t) (Lemmas.meanOf e t)
  have hp : 0 < (1 - e) ^ 2 := pow_pos (by linarith) 2
  have h5 : (1 - e) ^ 2 * |series e (meanSeries e t) - t| ≤
      (1000 * e ^ 4 * |meanSeries e t| + 23 * e ^ 5 * |t|) / (1 - e) ^ 2 := by
    rw [add_div]
    have : 1000 * e ^ 4 / (1 - e) ^ 2 * |meanSeries e t| = 1000 * e ^ 4 * |meanSeries e t| / (1 - e) ^ 2 := by ring
    have : 23 * e ^ 5 / (1 - e) ^ 2 * |t| = 23 * e ^ 5 * |t| / (1 - e) ^ 2 := by ring
    linarith
  rw [show (1 - e) ^ 4 = (1 - e) ^ 2 * (1 - e) ^ 2 by ring, ← div_div, le_div_iff₀ hp]
  linarith

theorem true_mean_true {x e : ℝ} (he0 : 0 ≤ e) (he1 : e ≤ 3 / 4) (hx : InTurn x) :
    |meanToTrue (trueToMean x e) e - x| ≤ 370000 * e ^ 4 / (1 - e) ^ 4 := by
  have hr : ∀ x, radians (degrees x) = x := by
    intro x; unfold radians degrees
    have := Real.pi_pos
    field_simp
  have hM := trueToMean_inTurn he0 he1 hx
  have hs := series_meanSeries_close he0 (by linarith) (radians x)
  have hd := degrees_le hs
  rw [← abs_degrees, ← degrees_mul, degrees_radians] at hd
  rw [meanToTrue_series, trueToMean_series, hr]
  refine hd.trans ?_
  have hp : 0 < (1 - e) ^ 4 := pow_pos (by linarith) 4
  have e1 : degrees ((1000 * e ^ 4 * |meanSeries e (radians x)| + 23 * e ^ 5 * |radians x|) / (1 - e) ^ 4) =
      (1000 * e ^ 4 * |degrees (meanSeries e (radians x))| + 23 * e ^ 5 * |x|) / (1 - e) ^ 4 := by
    rw [abs_degrees]
    have : |x| = degrees |radians x| := by rw [← abs_degrees, degrees_radians]
    rw [this]
    unfold degrees; ring
  rw [e1, ← trueToMean_series, abs_of_nonneg hM.1, abs_of_nonneg hx.1]
  have e4 : 0 ≤ e ^ 4 := by positivity
  refine div_le_div_of_nonneg_right ?_ hp.le
  have a1 := mul_le_mul_of_nonneg_left hM.2.le e4
  have a2 : e ^ 5 * x ≤ e ^ 4 * 360 := by
    rw [show e ^ 5 = e ^ 4 * e by ring, mul_assoc]
    refine mul_le_mul_of_nonneg_left ?_ e4
    nlinarith [hx.1, hx.2]
  nlinarith

/-- What the element set gives as the true anomaly, from what it says about mean anomaly and eccentricity. -/
theorem read_true_anomaly {l2 : Line} {m e b : ℝ} (hm : ReadsAs (getMeanAnomaly l2) m (1 / 20000))
    (he : ReadsAs (getEccentricity l2) e (1 / 20000000)) (h0 : 0 ≤ e) (hb : e + 1 / 20000000 ≤ b) :
    ∃ x, getTrueAnomaly l2 = .ok x ∧ |x - meanToTrue m e| ≤ 1 / 20000 * (1 + 2 * b + 5 / 2 * b ^ 2 + 7 / 2 * b ^ 3) +
      1 / 300000 * (2 + 5 / 2 * b + 4 * b ^ 2) := by
  obtain ⟨q, hq, hq'⟩ := hm
  obtain ⟨r, hr, hr'⟩ := he
  refine ⟨meanToTrue q r, by unfold getTrueAnomaly; rw [hq, hr]; rfl, ?_⟩
  have b0 : 0 ≤ b := by linarith
  have hrb : |(r : ℝ)| ≤ b := by
    have := abs_le.1 hr'
    rw [abs_le]; constructor <;> linarith
  have heb : |e| ≤ b := by rw [abs_of_nonneg h0]; linarith
  have hs := degrees_le (series_diff (x := radians q) (y := radians m) hrb heb)
  rw [meanToTrue_series, meanToTrue_series, degrees_mul, abs_degrees]
  refine hs.trans ?_
  have e1 : radians (q : ℝ) - radians m = radians (q - m) := by unfold radians; ring
  have e2 : degrees (|radians (q : ℝ) - radians m| * (1 + 2 * b + 5 / 2 * b ^ 2 + 7 / 2 * b ^ 3) +
      |(r : ℝ) - e| * (2 + 5 / 2 * b + 4 * b ^ 2)) = |(q : ℝ) - m| * (1 + 2 * b + 5 / 2 * b ^ 2 + 7 / 2 * b ^ 3) +
      |(r : ℝ) - e| * (180 / Real.pi) * (2 + 5 / 2 * b + 4 * b ^ 2) := by
    have : |(q : ℝ) - m| = degrees |radians (q - m)| := by rw [← abs_degrees, degrees_radians]
    rw [e1, this]; unfold degrees; ring
  rw [e2]
  have hp := Real.pi_gt_three
  have h60 : 180 / Real.pi ≤ 60 := by rw [div_le_iff₀ Real.pi_pos]; linarith
  have k1 := mul_le_mul hr' h60 (by positivity) (by norm_num)
  refine add_le_add (mul_le_mul_of_nonneg_right hq' (by positivity)) (mul_le_mul_of_nonneg_right ?_ (by positivity))
  linarith

/-- C149 for circular orbits: the true anomaly of the element set is the orbit's to within a ten-thousandth of a degree. -/
theorem C149_circular {ex : Satrec → Line × Line} {epoch : Line → Line → Except PyErr Int}
    (hx : Exporter ex epoch) (o : Circular) (hv : Circular.Valid o) (ha : 0 ≤ o.altitude)
    (ht : TwoDigitYear o.epoch) :
    ∃ l1 l2 x, o.toTle ex epoch = .ok [l1, l2] ∧ getTrueAnomaly l2 = .ok x ∧ |x - o.trueAnomaly| ≤ 1 / 10000 := by
  obtain ⟨l1, l2, mm, h1, -, h3⟩ := C90_circular hx o hv ha ht
  obtain ⟨x, hx1, hx2⟩ := read_true_anomaly (b := 1 / 20000000) h3.meanAnomaly h3.eccentricity le_rfl (by norm_num)
  refine ⟨l1, l2, x, h1, hx1, ?_⟩
  have e : meanToTrue o.trueAnomaly 0 = o.trueAnomaly := by
    rw [meanToTrue_series]; simp [series, degrees_radians]
  rw [e] at hx2
  refine hx2.trans ?_
  norm_num

/-- C149 for sun-synchronous orbits. -/
theorem C149_sun_synchronous {ex : Satrec → Line × Line} {epoch : Line → Line → Except PyErr Int}
    (hx : Exporter ex epoch) (sun : Int → ℝ) (o : Sso) (hv : Sso.Valid o) (ht : TwoDigitYear o.epoch) :
    ∃ l1 l2 x, o.toTle ex epoch sun = .ok [l1, l2] ∧ getTrueAnomaly l2 = .ok x ∧ |x - o.trueAnomaly| ≤ 1 / 10000 := by
  obtain ⟨l1, l2, mm, h1, -, h3⟩ := C90_sun_synchronous hx sun o hv ht
  obtain ⟨x, hx1, hx2⟩ := read_true_anomaly (b := 1 / 20000000) h3.meanAnomaly h3.eccentricity le_rfl (by norm_num)
  refine ⟨l1, l2, x, h1, hx1, ?_⟩
  have e : meanToTrue o.trueAnomaly 0 = o.trueAnomaly := by
    rw [meanToTrue_series]; simp [series, degrees_radians]
  rw [e] at hx2
  refine hx2.trans ?_
  norm_num

/-- C149 for Keplerian orbits.  Full statement: the true anomaly of the element set is the orbit's to the digits of the
format.  Proved up to the fourth order of the eccentricity, for eccentricities up to 3/4; missing: the fourth order, where it
is false (`C149_eccentric_false`), and eccentricities above 3/4. -/
theorem C149_keplerian_partial {ex : Satrec → Line × Line} {epoch : Line → Line → Except PyErr Int}
    (hx : Exporter ex epoch) (o : Keplerian) (hv : Keplerian.Valid o) (he : o.eccentricity ≤ 3 / 4)
    (ha : 0 ≤ o.altitude) (ht : TwoDigitYear o.epoch) :
    ∃ l1 l2 x, o.toTle ex epoch = .ok [l1, l2] ∧ getTrueAnomaly l2 = .ok x ∧
      |x - o.trueAnomaly| ≤ 1 / 2000 + 370000 * o.eccentricity ^ 4 / (1 - o.eccentricity) ^ 4 := by
  obtain ⟨l1, l2, mm, h1, -, h3⟩ := C90_keplerian_partial hx o hv he ha ht
  have he0 : 0 ≤ o.eccentricity := hv.2.1
  obtain ⟨x, hx1, hx2⟩ := read_true_anomaly (b := 0.751) h3.meanAnomaly h3.eccentricity he0 (by norm_num; linarith)
  refine ⟨l1, l2, x, h1, hx1, ?_⟩
  have h4 := true_mean_true he0 he hv.1.1
  have h5 := abs_sub_le x (meanToTrue o.meanAnomaly o.eccentricity) o.trueAnomaly
  unfold Keplerian.meanAnomaly at *
  norm_num at hx2
  linarith

/-- At eccentricity 0.6 and a true anomaly of 90 degrees the two series do not undo each other. -/
theorem series_gap : meanToTrue (trueToMean 90 0.6) 0.6 ≤ 89.4 := by
  have hr : ∀ x, radians (degrees x) = x := by
    intro x; unfold radians degrees
    have := Real.pi_pos
    field_simp
  have h90 : radians 90 = Real.pi / 2 := by unfold radians; ring
  have hm : meanSeries 0.6 (Real.pi / 2) = Real.pi / 2 - 1.128 := by
    unfold meanSeries
    rw [show 2 * (Real.pi / 2) = Real.pi by ring, show 3 * (Real.pi / 2) = Real.pi / 2 + Real.pi by ring,
      show 4 * (Real.pi / 2) = 2 * Real.pi by ring, Real.sin_add_pi, Real.sin_pi, Real.sin_two_pi, Real.sin_pi_div_two]
    norm_num
    ring
  rw [meanToTrue_series, trueToMean_series, hr, h90, hm]
  have hc := cos_upper 1.128
  have hs := Real.sin_le_one 1.128
  have hc0 : 0 ≤ Real.cos 1.128 :=
    Real.cos_nonneg_of_neg_pi_div_two_le_of_le (by have := Real.pi_gt_three; linarith) (by have := Real.pi_gt_three; norm_num; linarith)
  have s1 : Real.sin (Real.pi / 2 - 1.128) = Real.cos 1.128 := Real.sin_pi_div_two_sub _
  have s2 : Real.sin (2 * (Real.pi / 2 - 1.128)) ≤ 2 * Real.cos 1.128 := by
    rw [Real.sin_two_mul, s1, Real.cos_pi_div_two_sub]
    nlinarith
  have s3 := Real.sin_le_one (3 * (Real.pi / 2 - 1.128))
  have hp := Real.pi_gt_d4
  have hp1 := Real.pi_lt_d4
  have : series 0.6 (Real.pi / 2 - 1.128) ≤ 1.56 := by
    unfold series
    rw [s1]
    norm_num at *
    linarith
  unfold degrees
  rw [← mul_div_assoc, div_le_iff₀ Real.pi_pos]
  norm_num at *
  linarith

/-- **C149 is false as it stands**: converting an orbit of eccentricity 0.6 changes its true anomaly by more than half a
degree. -/
theorem C149_eccentric_false {ex : Satrec → Line × Line} {epoch : Line → Line → Except PyErr Int} (hx : Exporter ex epoch) :
    ∃ o : Keplerian, Keplerian.Valid o ∧ TwoDigitYear o.epoch ∧ 0 ≤ o.altitude ∧ ∃ l1 l2 x, o.toTle ex epoch = .ok [l1, l2] ∧
      getTrueAnomaly l2 = .ok x ∧ x < o.trueAnomaly - 1 / 2 := by
  let o : Keplerian := ⟨⟨10000000, 90, 1640995200000000, 60, 0⟩, 0.6, 0⟩
  have hv : Keplerian.Valid o := by
    refine ⟨⟨⟨?_, ?_⟩, ⟨?_, ?_⟩, ⟨?_, ?_⟩⟩, ?_, ?_, ?_⟩ <;> norm_num [o]
  have ht : TwoDigitYear o.epoch := by unfold TwoDigitYear; norm_num [o]
  have ha : 0 ≤ o.altitude := by norm_num [o]
  obtain ⟨l1, l2, mm, h1, -, h3⟩ := C90_keplerian_partial hx o hv (by norm_num [o]) ha ht
  obtain ⟨x, hx1, hx2⟩ := read_true_anomaly (b := 0.601) h3.meanAnomaly h3.eccentricity hv.2.1 (by norm_num [o])
  refine ⟨o, hv, ht, ha, l1, l2, x, h1, hx1, ?_⟩
  have h4 := series_gap
  have h5 := (abs_le.1 hx2).2
  have e : meanToTrue o.meanAnomaly o.eccentricity = meanToTrue (trueToMean 90 0.6) 0.6 := rfl
  rw [e] at h5
  have e2 : o.trueAnomaly = 90 := rfl
  rw [e2]
  norm_num at *
  linarith

/-- Hypotheses are met: a Keplerian orbit of eccentricity 0.01, for which the bound is below five thousandths of a degree. -/
example : Keplerian.Valid ⟨⟨500000, 90, 1640995200000000, 60, 0⟩, 0.01, 0⟩ ∧ TwoDigitYear 1640995200000000 ∧
    (1 / 2000 + 370000 * (0.01 : ℝ) ^ 4 / (1 - 0.01) ^ 4) ≤ 5 / 1000 := by
  refine ⟨⟨⟨⟨?_, ?_⟩, ⟨?_, ?_⟩, ⟨?_, ?_⟩⟩, ?_, ?_, ?_⟩, ?_, ?_⟩
  on_goal 10 => unfold TwoDigitYear
  all_goals norm_num

end Tatc.Props
