import Verif.Props.RoundedSoc
import Verif.Props.Access
import Verif.Model.IeeeGround

/-! C177: ground velocities, access times and distances along the track survive rounding. -/

namespace Tatc.Props
open Tatc Tatc.Num Tatc.Ieee Tatc.Spec Tatc.Orbit

/-- The altitudes in question: up to 30000 km, where a satellite gains on the ground. -/
structure Gaining (altitude : ℝ) : Prop where
  low : 0 ≤ altitude
  high : altitude ≤ 30000000

theorem Gaining.flying {h : ℝ} (g : Gaining h) : Flying h := ⟨by linarith [g.low], by linarith [g.high]⟩

theorem degree_approx : |degreeFactor - 180 / Real.pi| ≤ 1e-14 := by
  have p1 := Real.pi_gt_d20
  have p2 := Real.pi_lt_d20
  have hp := Real.pi_pos
  have e : 180 / Real.pi = degreeFactor + (180 - degreeFactor * Real.pi) / Real.pi := by field_simp; ring
  have h : |180 - degreeFactor * Real.pi| ≤ 2e-14 := by
    unfold degreeFactor; rw [abs_le]; constructor <;> norm_num at * <;> linarith
  rw [e, show degreeFactor - (degreeFactor + (180 - degreeFactor * Real.pi) / Real.pi) = -((180 - degreeFactor * Real.pi) / Real.pi) by ring,
    abs_neg, abs_div, abs_of_pos hp, div_le_iff₀ hp]
  norm_num at *
  linarith

theorem rate_near {h : ℝ} (g : Gaining h) : |angularRate h - Real.sqrt (mu / (meanRadius + h) ^ 3)| ≤ 8e-18 ∧
    9e-5 ≤ Real.sqrt (mu / (meanRadius + h) ^ 3) ∧ Real.sqrt (mu / (meanRadius + h) ^ 3) ≤ 0.002 := by
  have r := (rel_motion g.flying).1.close (by norm_num)
  have hR := meanRadius_lt
  have hR2 := radius_near.2
  have h0 := g.low
  have h1 := g.high
  have c1 : (meanRadius + h) ^ 3 ≤ 36371009 ^ 3 := pow_le_pow_left₀ (by linarith) (by linarith) 3
  have c0 : 6371008 ^ 3 ≤ (meanRadius + h) ^ 3 := pow_le_pow_left₀ (by norm_num) (by linarith) 3
  have cp : 0 < (meanRadius + h) ^ 3 := lt_of_lt_of_le (by norm_num) c0
  have lo : 9e-5 ≤ Real.sqrt (mu / (meanRadius + h) ^ 3) := by
    refine Real.le_sqrt_of_sq_le ?_
    rw [le_div_iff₀ cp]; unfold mu; norm_num at *; linarith
  have hi : Real.sqrt (mu / (meanRadius + h) ^ 3) ≤ 0.002 := by
    rw [Real.sqrt_le_left (by norm_num), div_le_iff₀ cp]; unfold mu; norm_num at *; linarith
  refine ⟨?_, lo, hi⟩
  unfold angularRate
  refine r.trans ?_
  norm_num at *
  linarith

theorem turn_near {i : ℝ} (h0 : 0 ≤ i) (h1 : i ≤ 180) :
    |fl (fl (fl (2 * Ieee.pi) * fl (Real.cos (fl (i * degreeFactor)))) / siderealSeconds) -
      2 * Real.pi * Real.cos (degrees i) / siderealDay| ≤ 2.4e-16 ∧
    |2 * Real.pi * Real.cos (degrees i) / siderealDay| ≤ 7.3e-5 := by
  have hp := abs_le.mp pi_approx
  have p1 := Real.pi_gt_d4
  have p2 := Real.pi_lt_d4
  have hF := degree_approx
  have hF1 : 0 < degreeFactor ∧ degreeFactor ≤ 57.3 := by unfold degreeFactor; norm_num
  have d1 : |i * degreeFactor - degrees i| ≤ 1.8e-12 := by
    unfold degrees
    rw [← mul_sub, abs_mul, abs_of_nonneg h0]
    calc _ ≤ (180 : ℝ) * 1e-14 := mul_le_mul h1 hF (abs_nonneg _) (by norm_num)
      _ = _ := by norm_num
  have d2 : |fl (i * degreeFactor) - i * degreeFactor| ≤ 1.2e-12 := by
    refine (fl_close' _).trans ?_
    have : |i * degreeFactor| ≤ 180 * 57.3 := by
      rw [abs_of_nonneg (mul_nonneg h0 hF1.1.le)]; exact mul_le_mul h1 hF1.2 hF1.1.le (by norm_num)
    norm_num at *; linarith
  have d3 := abs_sub_le (fl (i * degreeFactor)) (i * degreeFactor) (degrees i)
  have c1 := Real.abs_cos_sub_cos_le (fl (i * degreeFactor)) (degrees i)
  have c2 : |fl (Real.cos (fl (i * degreeFactor))) - Real.cos (fl (i * degreeFactor))| ≤ 1e-15 := by
    refine (fl_close' _).trans ?_
    have := Real.abs_cos_le_one (fl (i * degreeFactor))
    norm_num at *; linarith
  have c3 := abs_sub_le (fl (Real.cos (fl (i * degreeFactor)))) (Real.cos (fl (i * degreeFactor))) (Real.cos (degrees i))
  have c4 : |fl (Real.cos (fl (i * degreeFactor))) - Real.cos (degrees i)| ≤ 3.1e-12 := by norm_num at *; linarith
  have c5 := Real.abs_cos_le_one (degrees i)
  rw [fl_two_pi]
  generalize fl (Real.cos (fl (i * degreeFactor))) = c' at *
  generalize Real.cos (degrees i) = c at *
  have hc' : |c'| ≤ 1.1 := by
    have := abs_sub_abs_le_abs_sub c' c
    norm_num at *; linarith
  have m1 : |2 * Ieee.pi * c' - 2 * Real.pi * c| ≤ 1.96e-11 := by
    have e : 2 * Ieee.pi * c' - 2 * Real.pi * c = 2 * (Ieee.pi - Real.pi) * c' + 2 * Real.pi * (c' - c) := by ring
    rw [e]
    refine (abs_add_le _ _).trans ?_
    have x1 : |2 * (Ieee.pi - Real.pi) * c'| ≤ 2 * 2e-16 * 1.1 := by
      rw [abs_mul, abs_mul, abs_of_pos (by norm_num : (0 : ℝ) < 2)]
      exact mul_le_mul (mul_le_mul_of_nonneg_left pi_approx (by norm_num)) hc' (abs_nonneg _) (by norm_num)
    have x2 : |2 * Real.pi * (c' - c)| ≤ 2 * 3.1416 * 3.1e-12 := by
      rw [abs_mul, abs_of_pos (by positivity)]
      exact mul_le_mul (by linarith) c4 (abs_nonneg _) (by norm_num)
    norm_num at *; linarith
  have n1 : |2 * Real.pi * c| ≤ 6.2832 := by
    rw [abs_mul, abs_of_pos (by positivity)]
    calc _ ≤ 6.2832 * (1 : ℝ) := mul_le_mul (by norm_num at *; linarith) c5 (abs_nonneg _) (by norm_num)
      _ = _ := by norm_num
  have m2 : |fl (2 * Ieee.pi * c') - 2 * Ieee.pi * c'| ≤ 1e-15 := by
    refine (fl_close' _).trans ?_
    have := abs_sub_abs_le_abs_sub (2 * Ieee.pi * c') (2 * Real.pi * c)
    norm_num at *; linarith
  have m3 := abs_sub_le (fl (2 * Ieee.pi * c')) (2 * Ieee.pi * c') (2 * Real.pi * c)
  have m4 : |fl (2 * Ieee.pi * c') - 2 * Real.pi * c| ≤ 1.97e-11 := by norm_num at *; linarith
  have n2 := abs_sub_abs_le_abs_sub (fl (2 * Ieee.pi * c')) (2 * Real.pi * c)
  generalize fl (2 * Ieee.pi * c') = a' at *
  generalize 2 * Real.pi * c = a at *
  have s1 : |siderealSeconds - siderealDay| ≤ 1e-11 := by
    unfold siderealSeconds siderealDay; rw [abs_le]; constructor <;> norm_num
  have s2 : 86164 < siderealSeconds := by unfold siderealSeconds; norm_num
  have s3 : 86164 < siderealDay := by unfold siderealDay; norm_num
  have top : |a / siderealDay| ≤ 7.3e-5 := by
    rw [abs_div, abs_of_pos (by linarith : 0 < siderealDay), div_le_iff₀ (by linarith)]
    norm_num at *; linarith
  refine ⟨?_, top⟩
  have q : |a' / siderealSeconds - a / siderealDay| ≤ 2.3e-16 := by
    have e : a' / siderealSeconds - a / siderealDay = ((a' - a) - a / siderealDay * (siderealSeconds - siderealDay)) / siderealSeconds := by
      have : siderealSeconds ≠ 0 := by linarith
      have : siderealDay ≠ 0 := by linarith
      field_simp; ring
    rw [e, abs_div, abs_of_pos (by linarith : 0 < siderealSeconds), div_le_iff₀ (by linarith)]
    refine (abs_sub _ _).trans ?_
    have x : |a / siderealDay * (siderealSeconds - siderealDay)| ≤ 7.3e-5 * 1e-11 := by
      rw [abs_mul]; exact mul_le_mul top s1 (abs_nonneg _) (by norm_num)
    norm_num at *; linarith
  have q2 : |fl (a' / siderealSeconds) - a' / siderealSeconds| ≤ 1e-19 := by
    refine (fl_close' _).trans ?_
    have := abs_sub_abs_le_abs_sub (a' / siderealSeconds) (a / siderealDay)
    norm_num at *; linarith
  have q3 := abs_sub_le (fl (a' / siderealSeconds)) (a' / siderealSeconds) (a / siderealDay)
  norm_num at *; linarith

/-- C177: the ground velocity is computed to within two nanometres a second. -/
theorem C177_velocity (altitude inclination : ℝ) (g : Gaining altitude) (h0 : 0 ≤ inclination) (h1 : inclination ≤ 180) :
    |Ieee.groundVelocity altitude inclination - Geometry.groundVelocity altitude inclination| ≤ 2e-9 ∧
    100 ≤ Ieee.groundVelocity altitude inclination ∧ Ieee.groundVelocity altitude inclination ≤ 20000 := by
  obtain ⟨r1, r2, r3⟩ := rate_near g
  obtain ⟨t1, t2⟩ := turn_near h0 h1
  obtain ⟨k1, k2⟩ := radius_near
  have k3 := meanRadius_lt
  unfold Ieee.groundVelocity Geometry.groundVelocity
  simp only []
  generalize angularRate altitude = n' at *
  generalize Real.sqrt (mu / (meanRadius + altitude) ^ 3) = n at *
  generalize fl (fl (fl (2 * Ieee.pi) * fl (Real.cos (fl (inclination * degreeFactor)))) / siderealSeconds) = e' at *
  generalize 2 * Real.pi * Real.cos (degrees inclination) / siderealDay = e at *
  have a := abs_le.mp r1
  have b := abs_le.mp t1
  have b2 := abs_le.mp t2
  have c := abs_le.mp k1
  have d0 : |n' - e'| ≤ 0.0021 := by rw [abs_le]; norm_num at *; constructor <;> linarith
  have d1 : |fl (n' - e') - (n' - e')| ≤ 3e-19 := by
    refine (fl_close' _).trans ?_
    norm_num at *; linarith
  have d1' := abs_le.mp d1
  have d2 : |fl (n' - e') - (n - e)| ≤ 2.5e-16 := by rw [abs_le]; norm_num at *; constructor <;> linarith
  have d3 : |n - e| ≤ 0.0021 := by rw [abs_le]; norm_num at *; constructor <;> linarith
  have d4 : 1.69e-5 ≤ n - e := by norm_num at *; linarith
  generalize fl (n' - e') = w' at *
  generalize n - e = w at *
  have f1 : |earthMeanRadius * w' - meanRadius * w| ≤ 1.6e-9 := by
    have ee : earthMeanRadius * w' - meanRadius * w = earthMeanRadius * (w' - w) + (earthMeanRadius - meanRadius) * w := by ring
    rw [ee]
    refine (abs_add_le _ _).trans ?_
    have x1 : |earthMeanRadius * (w' - w)| ≤ 6371010 * 2.5e-16 := by
      rw [abs_mul, abs_of_pos (by norm_num at *; linarith)]
      exact mul_le_mul (by norm_num at *; linarith) d2 (abs_nonneg _) (by norm_num)
    have x2 : |(earthMeanRadius - meanRadius) * w| ≤ 1e-9 * 0.0021 := by
      rw [abs_mul]; exact mul_le_mul k1 d3 (abs_nonneg _) (by norm_num)
    norm_num at *; linarith
  have f2 : |meanRadius * w| ≤ 6371010 * 0.0021 := by
    rw [abs_mul, abs_of_pos (by linarith)]
    exact mul_le_mul (by linarith) d3 (abs_nonneg _) (by norm_num)
  have f3 : |fl (earthMeanRadius * w') - earthMeanRadius * w'| ≤ 2e-12 := by
    refine (fl_close' _).trans ?_
    have := abs_sub_abs_le_abs_sub (earthMeanRadius * w') (meanRadius * w)
    norm_num at *; linarith
  have f4 := abs_sub_le (fl (earthMeanRadius * w')) (earthMeanRadius * w') (meanRadius * w)
  have f5 : |fl (earthMeanRadius * w') - meanRadius * w| ≤ 2e-9 := by norm_num at *; linarith
  have f6 : 6371000 * 1.69e-5 ≤ meanRadius * w := mul_le_mul (by linarith) d4 (by norm_num) (by linarith)
  have f5' := abs_le.mp f5
  have f2' := abs_le.mp f2
  refine ⟨f5, ?_, ?_⟩ <;> norm_num at * <;> linarith

/-- C177: the access time of a distance of at least a micrometre, in double precision, is within a part in ten billions of the
exact one, and leads back to the distance but for two roundings. -/
theorem C177_distance (altitude inclination x : ℝ) (g : Gaining altitude) (h0 : 0 ≤ inclination) (h1 : inclination ≤ 180)
    (hx : 1e-6 ≤ x) :
    |Ieee.alongTrackToAccess altitude inclination x - Geometry.alongTrackToAccess altitude inclination x| ≤
      Geometry.alongTrackToAccess altitude inclination x * 1e-10 ∧
    |Ieee.accessToAlongTrack altitude inclination (Ieee.alongTrackToAccess altitude inclination x) - x| ≤ x * 1.2e-15 := by
  obtain ⟨c, v0, v1⟩ := C177_velocity altitude inclination g h0 h1
  have e1 : Ieee.alongTrackToAccess altitude inclination x = fl (x / Ieee.groundVelocity altitude inclination) := rfl
  have e2 : ∀ t, Ieee.accessToAlongTrack altitude inclination t = fl (Ieee.groundVelocity altitude inclination * t) := fun _ => rfl
  have e3 : Geometry.alongTrackToAccess altitude inclination x = x / Geometry.groundVelocity altitude inclination := rfl
  rw [e2, e1, e3]
  generalize Ieee.groundVelocity altitude inclination = v at *
  generalize Geometry.groundVelocity altitude inclination = V at *
  have hv : 0 < v := by linarith
  have hxp : 0 < x := lt_of_lt_of_le (by norm_num) hx
  have cc := abs_le.mp c
  have hV : 0 < V := by norm_num at *; linarith
  have q0 : 1e-20 ≤ x / v := by rw [le_div_iff₀ hv]; norm_num at *; linarith
  have rq : Rel 1 (fl (x / v)) (x / v) := ((Rel.refl hxp).div (Rel.refl hv)).fl' (by norm_num) q0
  constructor
  · have a := rq.few (by norm_num)
    have k : x / v = x / V * (V / v) := by field_simp
    have hxV : 0 < x / V := div_pos hxp hV
    have b : |V / v - 1| ≤ 3e-11 := by
      rw [div_sub_one hv.ne', abs_div, abs_of_pos hv, div_le_iff₀ hv, abs_sub_comm]
      norm_num at *; linarith
    have b' := abs_le.mp b
    have a' := abs_le.mp a
    rw [k] at a'
    have m1 : x / V * (V / v) ≤ x / V * (1 + 3e-11) := mul_le_mul_of_nonneg_left (by linarith) hxV.le
    have m2 : x / V * (1 - 3e-11) ≤ x / V * (V / v) := mul_le_mul_of_nonneg_left (by linarith) hxV.le
    rw [← k] at a' m1 m2
    rw [abs_le]
    norm_num at *
    constructor <;> linarith
  · have r2 : Rel 1 (v * fl (x / v)) x := by
      have := (Rel.refl hv).mul rq
      rwa [mul_div_cancel₀ x hv.ne'] at this
    exact (r2.fl' (by norm_num) (by norm_num at *; linarith)).few (by norm_num)

/-- C177: the distance of an access time of at least a microsecond, in double precision, leads back to the time but for two
roundings. -/
theorem C177_time (altitude inclination t : ℝ) (g : Gaining altitude) (h0 : 0 ≤ inclination) (h1 : inclination ≤ 180)
    (ht : 1e-6 ≤ t) :
    |Ieee.accessToAlongTrack altitude inclination t - Geometry.accessToAlongTrack altitude inclination t| ≤
      Geometry.accessToAlongTrack altitude inclination t * 1e-10 ∧
    |Ieee.alongTrackToAccess altitude inclination (Ieee.accessToAlongTrack altitude inclination t) - t| ≤ t * 1.2e-15 := by
  obtain ⟨c, v0, v1⟩ := C177_velocity altitude inclination g h0 h1
  have e1 : ∀ x, Ieee.alongTrackToAccess altitude inclination x = fl (x / Ieee.groundVelocity altitude inclination) := fun _ => rfl
  have e2 : Ieee.accessToAlongTrack altitude inclination t = fl (Ieee.groundVelocity altitude inclination * t) := rfl
  have e3 : Geometry.accessToAlongTrack altitude inclination t = Geometry.groundVelocity altitude inclination * t := rfl
  rw [e1, e2, e3]
  generalize Ieee.groundVelocity altitude inclination = v at *
  generalize Geometry.groundVelocity altitude inclination = V at *
  have hv : 0 < v := by linarith
  have htp : 0 < t := lt_of_lt_of_le (by norm_num) ht
  have cc := abs_le.mp c
  have hV : 99 < V := by norm_num at *; linarith
  have q0 : 1e-20 ≤ v * t := le_trans (by norm_num) (mul_le_mul v0 ht (by norm_num) hv.le)
  have rq : Rel 1 (fl (v * t)) (v * t) := ((Rel.refl hv).mul (Rel.refl htp)).fl' (by norm_num) q0
  constructor
  · have a' := abs_le.mp (rq.few (by norm_num))
    have m1 : v * t ≤ V * t * (1 + 3e-11) := by
      have : v ≤ V * (1 + 3e-11) := by norm_num at *; linarith
      calc v * t ≤ V * (1 + 3e-11) * t := mul_le_mul_of_nonneg_right this htp.le
        _ = _ := by ring
    have m2 : V * t * (1 - 3e-11) ≤ v * t := by
      have : V * (1 - 3e-11) ≤ v := by norm_num at *; linarith
      calc V * t * (1 - 3e-11) = V * (1 - 3e-11) * t := by ring
        _ ≤ _ := mul_le_mul_of_nonneg_right this htp.le
    have hVt : 0 < V * t := mul_pos (by linarith) htp
    rw [abs_le]
    norm_num at *
    constructor <;> linarith
  · have r2 : Rel 1 (fl (v * t) / v) t := by
      have := rq.div (Rel.refl hv)
      rwa [mul_div_cancel_left₀ t hv.ne'] at this
    exact (r2.fl' (by norm_num) (by norm_num at *; linarith)).few (by norm_num)

/-- C177: a higher satellite is, in double precision too, never faster over the ground. -/
theorem C177_mono (altitude higher inclination : ℝ) (g : Gaining altitude) (hle : altitude ≤ higher) :
    Ieee.groundVelocity higher inclination ≤ Ieee.groundVelocity altitude inclination := by
  obtain ⟨-, -, a, -⟩ := axis_bounds g.flying
  have ax : fl (earthMeanRadius + altitude) ≤ fl (earthMeanRadius + higher) := fl_mono (by linarith)
  have hc : cube (fl (earthMeanRadius + altitude)) ≤ cube (fl (earthMeanRadius + higher)) := by
    unfold cube
    have h0 : 0 ≤ fl (earthMeanRadius + altitude) := by linarith
    have h1 := fl_mono (mul_le_mul ax ax h0 (h0.trans ax))
    exact fl_mono (mul_le_mul h1 ax h0 ((le_fl double_zero (mul_nonneg h0 h0)).trans h1))
  have c0 := (rel_cube g.flying).1.pos'
  have hmu : 0 ≤ earthMu := by unfold earthMu; norm_num
  have hm := fl_mono (Real.sqrt_le_sqrt (fl_mono (div_le_div_of_nonneg_left hmu c0 hc)))
  unfold Ieee.groundVelocity
  simp only []
  refine fl_mono (mul_le_mul_of_nonneg_left (fl_mono (sub_le_sub_right hm _)) ?_)
  unfold earthMeanRadius; positivity

/-- C50, false in double precision too: at every altitude the ground velocity computed for a polar orbit, whose nadir point crosses
the turning Earth at right angles, is more than 80 m/s above the radius of the Earth times the mean motion. -/
theorem C50_polar_rounded_false (altitude : ℝ) (g : Gaining altitude) :
    meanRadius * Real.sqrt (mu / (meanRadius + altitude) ^ 3) + 80 < Ieee.groundVelocity altitude 90 := by
  obtain ⟨c, -, -⟩ := C177_velocity altitude 90 g (by norm_num) (by norm_num)
  have hR := radius_near.2
  have p1 := Real.pi_gt_d6
  have p2 := Real.pi_lt_d6
  have hp := Real.pi_pos
  have hcos : Real.cos (degrees 90) ≤ -0.18 := by
    have e : degrees 90 = (16200 / Real.pi - 1641 * Real.pi) + Real.pi + (820 : ℤ) * (2 * Real.pi) := by
      unfold degrees; push_cast; ring
    rw [e, Real.cos_add_int_mul_two_pi, Real.cos_add_pi]
    have u1 : 16200 / Real.pi ≤ 5156.623 := by rw [div_le_iff₀ hp]; norm_num at *; linarith
    have u0 : 5156.61 ≤ 16200 / Real.pi := by rw [le_div_iff₀ hp]; norm_num at *; linarith
    set y := 16200 / Real.pi - 1641 * Real.pi with hy
    have y1 : y ≤ 1.28 := by norm_num at *; linarith
    have y0 : 0 ≤ y := by norm_num at *; linarith
    have s := Real.mul_le_sin (x := Real.pi / 2 - y) (by norm_num at *; linarith) (by linarith)
    rw [Real.sin_pi_div_two_sub] at s
    have t : 0.18 ≤ 2 / Real.pi * (Real.pi / 2 - y) := by
      have e2 : 2 / Real.pi * (Real.pi / 2 - y) = 1 - 2 * y / Real.pi := by field_simp
      have e3 : 2 * y / Real.pi ≤ 0.82 := by rw [div_le_iff₀ hp]; norm_num at *; linarith
      rw [e2]; norm_num at *; linarith
    linarith
  have cc := abs_le.mp c
  unfold Geometry.groundVelocity at cc
  simp only [] at cc
  have hs : 0 < siderealDay := sidereal_pos
  have k : 2 * Real.pi * Real.cos (degrees 90) / siderealDay ≤ -1.31e-5 := by
    rw [div_le_iff₀ hs]
    have : 2 * Real.pi * Real.cos (degrees 90) ≤ 2 * Real.pi * (-0.18) := mul_le_mul_of_nonneg_left hcos (by positivity)
    unfold siderealDay
    norm_num at *; linarith
  generalize 2 * Real.pi * Real.cos (degrees 90) / siderealDay = q at *
  generalize Real.sqrt (mu / (meanRadius + altitude) ^ 3) = n at *
  have m : meanRadius * 1.31e-5 ≤ meanRadius * (-q) := mul_le_mul_of_nonneg_left (by linarith) (by linarith)
  have e4 : meanRadius * (n - q) = meanRadius * n + meanRadius * (-q) := by ring
  rw [e4] at cc
  norm_num at *
  linarith

/-- A satellite at 500 km and 51.6 degrees that observes 7 km along its track. -/
example : |Ieee.accessToAlongTrack 500000 51.6 (Ieee.alongTrackToAccess 500000 51.6 7000) - 7000| ≤ 7000 * 1.2e-15 :=
  (C177_distance _ _ _ ⟨by norm_num, by norm_num⟩ (by norm_num) (by norm_num) (by norm_num)).2

end Tatc.Props
