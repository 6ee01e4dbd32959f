import Verif.Props.RoundedGround
import Verif.Props.Kepler
import Verif.Model.IeeeAnomaly

/-! C178: anomalies survive rounding. -/

namespace Tatc.Props
open Tatc Tatc.Num Tatc.Ieee Tatc.Spec Tatc.Orbit

/-- `x` is `y` up to `d`, and `y` is at most `b`. -/
structure Within (d b x y : ℝ) : Prop where
  close : |x - y| ≤ d
  size : |y| ≤ b

namespace Within

theorem exact {b x : ℝ} (h : |x| ≤ b) : Within 0 b x x := ⟨by simp, h⟩

theorem weaken {d d' b b' x y : ℝ} (h : Within d b x y) (hd : d ≤ d') (hb : b ≤ b') : Within d' b' x y :=
  ⟨h.close.trans hd, h.size.trans hb⟩

theorem pos {d b x y : ℝ} (h : Within d b x y) : 0 ≤ d := (abs_nonneg _).trans h.close

theorem bound {d b x y : ℝ} (h : Within d b x y) : |x| ≤ b + d := by
  have := abs_sub_abs_le_abs_sub x y
  linarith [h.close, h.size]

theorem fl {d b x y : ℝ} (h : Within d b x y) : Within (d + (b + d) / 2 ^ 53 + 1 / 2 ^ 100) b (Ieee.fl x) y := by
  refine ⟨?_, h.size⟩
  have a := fl_close' x
  have c := abs_sub_le (Ieee.fl x) x y
  have e : |x| / 2 ^ 53 ≤ (b + d) / 2 ^ 53 := by have := h.bound; gcongr
  linarith [h.close]

theorem mul {d b x y d' b' x' y' : ℝ} (h : Within d b x y) (h' : Within d' b' x' y') :
    Within (d * (b' + d') + b * d') (b * b') (x * x') (y * y') := by
  constructor
  · have e : x * x' - y * y' = (x - y) * x' + y * (x' - y') := by ring
    rw [e]
    refine (abs_add_le _ _).trans (add_le_add ?_ ?_)
    · rw [abs_mul]; exact mul_le_mul h.close h'.bound (abs_nonneg _) h.pos
    · rw [abs_mul]; exact mul_le_mul h.size h'.close (abs_nonneg _) ((abs_nonneg _).trans h.size)
  · rw [abs_mul]; exact mul_le_mul h.size h'.size (abs_nonneg _) ((abs_nonneg _).trans h.size)

theorem add {d b x y d' b' x' y' : ℝ} (h : Within d b x y) (h' : Within d' b' x' y') :
    Within (d + d') (b + b') (x + x') (y + y') := by
  constructor
  · rw [add_sub_add_comm]; exact (abs_add_le _ _).trans (add_le_add h.close h'.close)
  · exact (abs_add_le _ _).trans (add_le_add h.size h'.size)

theorem sub {d b x y d' b' x' y' : ℝ} (h : Within d b x y) (h' : Within d' b' x' y') :
    Within (d + d') (b + b') (x - x') (y - y') := by
  constructor
  · rw [sub_sub_sub_comm]; exact (abs_sub _ _).trans (add_le_add h.close h'.close)
  · exact (abs_sub _ _).trans (add_le_add h.size h'.size)

theorem sin {d b x y : ℝ} (h : Within d b x y) : Within d 1 (Real.sin x) (Real.sin y) :=
  ⟨(Real.abs_sin_sub_sin_le x y).trans h.close, Real.abs_sin_le_one y⟩

end Within

theorem within_radian : Within 1e-17 0.0175 radianFactor (Real.pi / 180) := by
  have p1 := Real.pi_gt_d20
  have p2 := Real.pi_lt_d20
  unfold radianFactor
  constructor <;> rw [abs_le] <;> norm_num at * <;> constructor <;> linarith

theorem within_degree : Within 1e-14 57.3 degreeFactor (180 / Real.pi) := by
  refine ⟨degree_approx, ?_⟩
  have p1 := Real.pi_gt_d6
  have hp := Real.pi_pos
  rw [abs_of_pos (by positivity), div_le_iff₀ hp]
  norm_num at *; linarith

/-- A whole number times a number. -/
theorem within_num {b : ℝ} (c : ℝ) (h : |c| ≤ b) : Within 0 b c c := Within.exact h

theorem within_square {e : ℝ} (h : |e| ≤ 1) : Within 1.2e-16 1 (fl (e * e)) (e ^ 2) := by
  rw [sq]
  exact ((Within.exact h).mul (Within.exact h)).fl.weaken (by norm_num) (by norm_num)

theorem within_cube {e : ℝ} (h : |e| ≤ 1) : Within 2.4e-16 1 (cube e) (e ^ 3) := by
  rw [pow_succ e 2]
  exact ((within_square h).mul (Within.exact h)).fl.weaken (by norm_num) (by norm_num)

theorem within_fourth {e : ℝ} (h : |e| ≤ 1) : Within 3.7e-16 1 (fourth e) (e ^ 4) := by
  rw [show e ^ 4 = e ^ 2 * e ^ 2 by ring]
  exact ((within_square h).mul (within_square h)).fl.weaken (by norm_num) (by norm_num)

/-- The true anomaly is computed to within `10⁻¹¹` degrees. -/
theorem true_close {M e : ℝ} (hM : |M| ≤ 720) (he : |e| ≤ 1) :
    Within 1e-11 1040 (Ieee.meanToTrue M e) (Orbit.meanToTrue M e) := by
  have m : Within 9e-15 12.6 (fl (M * radianFactor)) (radians M) := by
    have := ((Within.exact hM).mul within_radian).fl
    unfold radians
    exact this.weaken (by norm_num) (by norm_num)
  have e3 := within_cube he
  have k1 : Within 1e-15 3 (fl (fl (2 * e) - fl (1 / 4 * cube e))) (2 * e - 1 / 4 * e ^ 3) :=
    ((((within_num (b := 2) 2 (by norm_num)).mul (Within.exact he)).fl.sub
      ((within_num (b := 1 / 4) (1 / 4) (by norm_num)).mul e3).fl).fl).weaken (by norm_num) (by norm_num)
  have k2 : Within 1e-15 1.25 (fl (5 / 4 * fl (e * e))) (5 / 4 * e ^ 2) :=
    ((within_num (b := 5 / 4) (5 / 4) (by norm_num)).mul (within_square he)).fl.weaken (by norm_num) (by norm_num)
  have k3 : Within 1e-15 1.1 (fl (fl (13 / 12) * cube e)) (13 / 12 * e ^ 3) :=
    (((within_num (b := 13 / 12) (13 / 12) (by norm_num [abs_of_pos])).fl).mul e3).fl.weaken (by norm_num) (by norm_num)
  have t1 : Within 9.2e-15 1 (fl (Real.sin (fl (M * radianFactor)))) (Real.sin (radians M)) :=
    m.sin.fl.weaken (by norm_num) le_rfl
  have t2 : Within 2.2e-14 1 (fl (Real.sin (fl (2 * fl (M * radianFactor))))) (Real.sin (2 * radians M)) :=
    ((within_num (b := 2) 2 (by norm_num)).mul m).fl.sin.fl.weaken (by norm_num) le_rfl
  have t3 : Within 3.3e-14 1 (fl (Real.sin (fl (3 * fl (M * radianFactor))))) (Real.sin (3 * radians M)) :=
    ((within_num (b := 3) 3 (by norm_num)).mul m).fl.sin.fl.weaken (by norm_num) le_rfl
  have f1 : Within 3e-14 3 _ _ := (k1.mul t1).fl.weaken (by norm_num) (by norm_num)
  have f2 : Within 3e-14 1.25 _ _ := (k2.mul t2).fl.weaken (by norm_num) (by norm_num)
  have f3 : Within 4e-14 1.1 _ _ := (k3.mul t3).fl.weaken (by norm_num) (by norm_num)
  have s : Within 1.3e-13 18 _ _ := ((m.add f1).fl.add f2).fl.add f3 |>.fl.weaken (by norm_num) (by norm_num)
  exact (s.mul within_degree).fl.weaken (by norm_num) (by norm_num)

/-- The mean anomaly is computed to within `10⁻¹⁰` degrees, from a true anomaly that is right to `10⁻¹¹` degrees. -/
theorem mean_close {x' x e : ℝ} (hx : Within 1e-11 1040 x' x) (he : |e| ≤ 1) :
    Within 1e-10 2000 (Ieee.trueToMean x' e) (Orbit.trueToMean x e) := by
  have m : Within 1.9e-13 18.3 (fl (x' * radianFactor)) (radians x) := by
    have := (hx.mul within_radian).fl
    unfold radians
    exact this.weaken (by norm_num) (by norm_num)
  have e2 := within_square he
  have e3 := within_cube he
  have e4 := within_fourth he
  have k1 : Within 1e-15 2 (fl (2 * e)) (2 * e) :=
    ((within_num (b := 2) 2 (by norm_num)).mul (Within.exact he)).fl.weaken (by norm_num) (by norm_num)
  have k2 : Within 1e-15 0.875 (fl (fl (3 / 4 * fl (e * e)) + fl (1 / 8 * fourth e))) (3 / 4 * e ^ 2 + 1 / 8 * e ^ 4) :=
    ((((within_num (b := 3 / 4) (3 / 4) (by norm_num [abs_of_pos])).mul e2).fl.add
      ((within_num (b := 1 / 8) (1 / 8) (by norm_num)).mul e4).fl).fl).weaken (by norm_num) (by norm_num)
  have k3 : Within 1e-15 0.34 (fl (fl (1 / 3) * cube e)) (1 / 3 * e ^ 3) :=
    (((within_num (b := 1 / 3) (1 / 3) (by norm_num)).fl).mul e3).fl.weaken (by norm_num) (by norm_num)
  have k4 : Within 1e-15 0.16 (fl (5 / 32 * fourth e)) (5 / 32 * e ^ 4) :=
    ((within_num (b := 5 / 32) (5 / 32) (by norm_num [abs_of_pos])).mul e4).fl.weaken (by norm_num) (by norm_num)
  have t1 : Within 1.91e-13 1 (fl (Real.sin (fl (x' * radianFactor)))) (Real.sin (radians x)) :=
    m.sin.fl.weaken (by norm_num) le_rfl
  have t2 : Within 3.9e-13 1 (fl (Real.sin (fl (2 * fl (x' * radianFactor))))) (Real.sin (2 * radians x)) :=
    ((within_num (b := 2) 2 (by norm_num)).mul m).fl.sin.fl.weaken (by norm_num) le_rfl
  have t3 : Within 5.8e-13 1 (fl (Real.sin (fl (3 * fl (x' * radianFactor))))) (Real.sin (3 * radians x)) :=
    ((within_num (b := 3) 3 (by norm_num)).mul m).fl.sin.fl.weaken (by norm_num) le_rfl
  have t4 : Within 7.8e-13 1 (fl (Real.sin (fl (4 * fl (x' * radianFactor))))) (Real.sin (4 * radians x)) :=
    ((within_num (b := 4) 4 (by norm_num)).mul m).fl.sin.fl.weaken (by norm_num) le_rfl
  have f1 : Within 3.9e-13 2 _ _ := (k1.mul t1).fl.weaken (by norm_num) (by norm_num)
  have f2 : Within 3.5e-13 0.875 _ _ := (k2.mul t2).fl.weaken (by norm_num) (by norm_num)
  have f3 : Within 2e-13 0.34 _ _ := (k3.mul t3).fl.weaken (by norm_num) (by norm_num)
  have f4 : Within 1.3e-13 0.16 _ _ := (k4.mul t4).fl.weaken (by norm_num) (by norm_num)
  have s : Within 1.4e-12 22 _ _ := ((((m.sub f1).fl.add f2).fl.sub f3).fl.add f4).fl.weaken (by norm_num) (by norm_num)
  exact (s.mul within_degree).fl.weaken (by norm_num) (by norm_num)

/-- C178: in double precision the true anomaly of a mean anomaly is within `10⁻¹¹` degrees of the exact sum of the series. -/
theorem C178_true (meanAnomaly eccentricity : ℝ) (hM : |meanAnomaly| ≤ 720) (h0 : 0 ≤ eccentricity) (h1 : eccentricity ≤ 1) :
    |Ieee.meanToTrue meanAnomaly eccentricity - Orbit.meanToTrue meanAnomaly eccentricity| ≤ 1e-11 :=
  (true_close hM (abs_le.mpr ⟨by linarith, h1⟩)).close

/-- C178: in double precision the mean anomaly of a true anomaly is within `10⁻¹⁰` degrees of the exact sum of the series. -/
theorem C178_mean (trueAnomaly eccentricity : ℝ) (hM : |trueAnomaly| ≤ 720) (h0 : 0 ≤ eccentricity) (h1 : eccentricity ≤ 1) :
    |Ieee.trueToMean trueAnomaly eccentricity - Orbit.trueToMean trueAnomaly eccentricity| ≤ 1e-10 :=
  (mean_close ((Within.exact hM).weaken (by norm_num) (by norm_num)) (abs_le.mpr ⟨by linarith, h1⟩)).close

/-- C178: a mean anomaly turned into a true anomaly and back, all in double precision, is the same but for the terms of fourth
order that the series leave out and `10⁻¹⁰` degrees. -/
theorem C178_round_trip (meanAnomaly eccentricity : ℝ) (hM : |meanAnomaly| ≤ 720) (h0 : 0 ≤ eccentricity) (h1 : eccentricity < 1) :
    |Ieee.trueToMean (Ieee.meanToTrue meanAnomaly eccentricity) eccentricity - meanAnomaly| ≤
      1202 * eccentricity ^ 4 / (1 - eccentricity) ^ 2 * |meanAnomaly| + 1e-10 := by
  have he : |eccentricity| ≤ 1 := abs_le.mpr ⟨by linarith, h1.le⟩
  have a := (mean_close (true_close hM he) he).close
  have b := C103_round_trip_partial h0 h1 meanAnomaly
  have c := abs_sub_le (Ieee.trueToMean (Ieee.meanToTrue meanAnomaly eccentricity) eccentricity)
    (Orbit.trueToMean (Orbit.meanToTrue meanAnomaly eccentricity) eccentricity) meanAnomaly
  linarith

/-- C178: the double precision true anomaly is that of Kepler's equation up to the fourth order of the eccentricity and
`10⁻¹¹` degrees. -/
theorem C178_kepler (meanAnomaly eccentricity E ν : ℝ) (hM : |meanAnomaly| ≤ 720) (h0 : 0 ≤ eccentricity) (h1 : eccentricity < 1)
    (h : KeplerAnomalies eccentricity ν E (radians meanAnomaly)) :
    |Ieee.meanToTrue meanAnomaly eccentricity - degrees ν| ≤
      1000 * eccentricity ^ 4 / (1 - eccentricity) ^ 4 * |meanAnomaly| + 1e-11 := by
  have a := C178_true meanAnomaly eccentricity hM h0 h1.le
  have b := C103_true_anomaly_partial h0 h1 meanAnomaly E ν h
  have c := abs_sub_le (Ieee.meanToTrue meanAnomaly eccentricity) (Orbit.meanToTrue meanAnomaly eccentricity) (degrees ν)
  linarith

/-- On a circular orbit anomalies come back to within `10⁻¹⁰` degrees. -/
example : |Ieee.trueToMean (Ieee.meanToTrue 359 0) 0 - 359| ≤ 1e-10 := by
  have := C178_round_trip 359 0 (by norm_num) le_rfl (by norm_num)
  norm_num at *
  exact this

end Tatc.Props
