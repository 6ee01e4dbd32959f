import Verif.Props.RoundedTiny
import Verif.Props.RoundedGround
import Verif.Props.Rounded
import Verif.Props.Derived
import Verif.Model.IeeeSso

/-! C179: sun-synchronous orbits in double precision. -/

namespace Tatc.Props
open Tatc Tatc.Num Tatc.Ieee Tatc.Spec Tatc.Orbit

/-- A power of seven halves, relative errors at most four times as many. -/
theorem Rel.power {k : ℕ} {x y : ℝ} (h : Rel k x y) : Rel (4 * k) (x ^ (7 / 2 : ℝ)) (y ^ (7 / 2 : ℝ)) := by
  have hx := h.pos'
  have hy := h.pos
  have hr : 1 ≤ rounding ^ k := rounding_pow k
  have hp : (rounding ^ k) ^ (7 / 2 : ℝ) ≤ rounding ^ (4 * k) := by
    calc (rounding ^ k) ^ (7 / 2 : ℝ) ≤ (rounding ^ k) ^ (4 : ℝ) := Real.rpow_le_rpow_of_exponent_le hr (by norm_num)
      _ = (rounding ^ k) ^ (4 : ℕ) := by rw [← Real.rpow_natCast]; norm_num
      _ = rounding ^ (4 * k) := by rw [← pow_mul, mul_comm]
  refine ⟨Real.rpow_pos_of_pos hy _, ?_, ?_⟩
  · calc y ^ (7 / 2 : ℝ) ≤ (x * rounding ^ k) ^ (7 / 2 : ℝ) := Real.rpow_le_rpow hy.le h.low (by norm_num)
      _ = x ^ (7 / 2 : ℝ) * (rounding ^ k) ^ (7 / 2 : ℝ) := Real.mul_rpow hx.le (by linarith)
      _ ≤ _ := mul_le_mul_of_nonneg_left hp (Real.rpow_nonneg hx.le _)
  · calc x ^ (7 / 2 : ℝ) ≤ (y * rounding ^ k) ^ (7 / 2 : ℝ) := Real.rpow_le_rpow hx.le h.high (by norm_num)
      _ = y ^ (7 / 2 : ℝ) * (rounding ^ k) ^ (7 / 2 : ℝ) := Real.mul_rpow hy.le (by linarith)
      _ ≤ _ := mul_le_mul_of_nonneg_left hp (Real.rpow_nonneg hy.le _)

/-- The bound on the altitude is not rounded. -/
theorem ssoLimit_eq : ssoLimit = 12352000 - earthMeanRadius :=
  fl_of_double ⟨12352000 * 2 ^ 30 - 6840818578939205, -30, by norm_num, by norm_num, by unfold earthMeanRadius; norm_num⟩

/-- The argument of the power. -/
noncomputable def axisRatio7 (altitude : ℝ) : ℝ := fl (fl (earthMeanRadius + altitude) / 12352000)

theorem ratio7_range {a : ℝ} (h : ssoAccepted a) : 0.5 ≤ axisRatio7 a ∧ axisRatio7 a ≤ 1 := by
  obtain ⟨h0, h1⟩ := h
  rw [ssoLimit_eq] at h1
  have hs1 : fl (earthMeanRadius + a) ≤ 12352000 := by
    exact_mod_cast fl_le (double_int (n := 12352000) (by norm_num)) (by push_cast; linarith)
  have hs0 : 6371008 ≤ fl (earthMeanRadius + a) := by
    exact_mod_cast le_fl (double_int (n := 6371008) (by norm_num)) (by push_cast; unfold earthMeanRadius; norm_num; linarith)
  have d : IsDouble (0.5 : ℝ) := ⟨1, -1, by norm_num, by norm_num, by norm_num⟩
  constructor
  · exact le_fl d (by rw [le_div_iff₀ (by norm_num)]; norm_num; linarith)
  · exact fl_le double_one (by rw [div_le_iff₀ (by norm_num)]; linarith)

theorem power7_range {x : ℝ} (h0 : 0.5 ≤ x) (h1 : x ≤ 1) : 0 ≤ fl (x ^ (7 / 2 : ℝ)) ∧ fl (x ^ (7 / 2 : ℝ)) ≤ 1 := by
  have hx : 0 ≤ x := by norm_num at h0; linarith
  exact ⟨le_fl double_zero (Real.rpow_nonneg hx _), fl_le double_one (Real.rpow_le_one hx h1 (by norm_num))⟩

theorem inclination_some {a : ℝ} (h : ssoAccepted a) :
    ssoInclination a = some (fl (fl (Real.arccos (-fl (axisRatio7 a ^ (7 / 2 : ℝ)))) * degreeFactor)) := by
  obtain ⟨r0, r1⟩ := ratio7_range h
  obtain ⟨p0, p1⟩ := power7_range r0 r1
  unfold ssoInclination npArccos
  simp only []
  rw [show fl (fl (earthMeanRadius + a) / 12352000) = axisRatio7 a from rfl, if_pos ⟨by linarith, by linarith⟩]
  rfl

theorem fl_pi : fl Real.pi = 884279719003555 / 2 ^ 48 := by
  have p1 := Real.pi_gt_d20
  have p2 := Real.pi_lt_d20
  have hp := Real.pi_pos
  rw [fl_eq_of (n := 7074237752028440) (e := -51) (by norm_num)
      (by rw [abs_of_pos hp]; norm_num at *; linarith)
      (by rw [abs_of_pos hp]; norm_num at *; linarith)
      (by rw [abs_lt]; norm_num at *; constructor <;> linarith)]
  norm_num

theorem degrees_pi : fl (fl Real.pi * degreeFactor) = 180 := by
  have := half_product
  have e : fl (884279719003555 / 2 ^ 49 * 2) = fl Real.pi := by
    rw [fl_pi, show (884279719003555 / 2 ^ 49 * 2 : ℝ) = 884279719003555 / 2 ^ 48 by norm_num]
    exact fl_of_double double_pi
  rwa [e] at this

theorem degrees_right : fl (fl (Real.arccos 0) * degreeFactor) = 90 := tiny_right_angle le_rfl (by positivity)

theorem factor_pos : 0 ≤ degreeFactor := by unfold degreeFactor; positivity

/-- C179: for every accepted altitude the inclination that is computed is a number from 90 to 180 degrees and within `10⁻⁵`
degrees of the exact one. -/
theorem C179_inclination (altitude : ℝ) (h : ssoAccepted altitude) (o : Sso) (ho : o.altitude = altitude) :
    ∃ i, ssoInclination altitude = some i ∧ 90 ≤ i ∧ i ≤ 180 ∧ |i - o.inclination| ≤ 1e-5 := by
  obtain ⟨r0, r1⟩ := ratio7_range h
  obtain ⟨p0, p1⟩ := power7_range r0 r1
  refine ⟨_, inclination_some h, ?_, ?_, ?_⟩
  · rw [← degrees_right]
    exact fl_mono (mul_le_mul_of_nonneg_right (fl_mono (Real.arccos_le_arccos (by linarith))) factor_pos)
  · rw [← degrees_pi]
    exact fl_mono (mul_le_mul_of_nonneg_right (fl_mono (Real.arccos_le_pi _)) factor_pos)
  · have h0 := h.1
    have h1 := h.2
    rw [ssoLimit_eq] at h1
    have hR := radius_near
    have hRa := abs_le.mp hR.1
    have ra := rel_axis (h := altitude) (by linarith)
    have rq : Rel 3 (axisRatio7 altitude) ((meanRadius + altitude) / 12352000) :=
      ((ra.div (Rel.refl (show (0 : ℝ) < 12352000 by norm_num))).weaken (k := 2) (by norm_num)).fl' (by norm_num)
        (by rw [le_div_iff₀ (by norm_num)]; norm_num; linarith [hR.2])
    have xb : (meanRadius + altitude) / 12352000 ≤ 1 + 1e-15 := by
      rw [div_le_iff₀ (by norm_num)]; norm_num at *; linarith
    have x0 : 0.5 ≤ (meanRadius + altitude) / 12352000 := by
      rw [le_div_iff₀ (by norm_num)]; norm_num; linarith [hR.2]
    have hi : o.inclination = degrees (Real.arccos (-((meanRadius + altitude) / 12352000) ^ (7 / 2 : ℝ))) := by
      unfold Sso.inclination; rw [ho]
    rw [hi]
    set x := (meanRadius + altitude) / 12352000 with hx
    have xpos : 0 < x := by norm_num at x0; linarith
    have pb : x ^ (7 / 2 : ℝ) ≤ 1.001 := by
      calc x ^ (7 / 2 : ℝ) ≤ (1 + 1e-15 : ℝ) ^ (7 / 2 : ℝ) := Real.rpow_le_rpow xpos.le xb (by norm_num)
        _ ≤ (1 + 1e-15 : ℝ) ^ (4 : ℝ) := Real.rpow_le_rpow_of_exponent_le (by norm_num) (by norm_num)
        _ = (1 + 1e-15 : ℝ) ^ (4 : ℕ) := by rw [← Real.rpow_natCast]; norm_num
        _ ≤ 1.001 := by norm_num
    have pl : 1e-20 ≤ x ^ (7 / 2 : ℝ) := by
      calc (1e-20 : ℝ) ≤ (0.5 : ℝ) ^ (4 : ℕ) := by norm_num
        _ = (0.5 : ℝ) ^ (4 : ℝ) := by rw [← Real.rpow_natCast]; norm_num
        _ ≤ (0.5 : ℝ) ^ (7 / 2 : ℝ) := Real.rpow_le_rpow_of_exponent_ge (by norm_num) (by norm_num) (by norm_num)
        _ ≤ _ := Real.rpow_le_rpow (by norm_num) x0 (by norm_num)
    have rp : Rel 13 (fl (axisRatio7 altitude ^ (7 / 2 : ℝ))) (x ^ (7 / 2 : ℝ)) := rq.power.fl' (by norm_num) pl
    have pc := rp.close le_rfl
    generalize fl (axisRatio7 altitude ^ (7 / 2 : ℝ)) = p' at *
    generalize x ^ (7 / 2 : ℝ) = p at *
    have ac := arccos_small (a := -p') (b := -p) (by
      rw [neg_sub_neg, abs_sub_comm]; norm_num at *; linarith)
    have a0 := Real.arccos_nonneg (-p')
    have a1 := Real.arccos_le_pi (-p')
    have pi4 := Real.pi_lt_d4
    generalize Real.arccos (-p') = u at *
    generalize Real.arccos (-p) = v at *
    have f1 : |fl u - u| ≤ 1e-15 := by
      refine (fl_close' u).trans ?_
      rw [abs_of_nonneg a0]; norm_num at *; linarith
    have f2 := abs_sub_le (fl u) u v
    have f3 : |fl u - v| ≤ 1.7300001e-7 := by norm_num at *; linarith
    have u3 : |fl u| ≤ 4 := by
      have := abs_sub_abs_le_abs_sub (fl u) u
      rw [abs_of_nonneg a0] at this
      norm_num at *; linarith
    have g := degree_approx
    have G : |180 / Real.pi| ≤ 57.296 := by
      have := Real.pi_gt_d6
      rw [abs_of_pos (by positivity), div_le_iff₀ Real.pi_pos]; norm_num at *; linarith
    have F : |degreeFactor| ≤ 57.3 := by rw [abs_of_nonneg factor_pos]; unfold degreeFactor; norm_num
    unfold degrees
    generalize 180 / Real.pi = c at *
    generalize degreeFactor = d at *
    have k1 : |fl u * d| ≤ 4 * 57.3 := by rw [abs_mul]; exact mul_le_mul u3 F (abs_nonneg _) (by norm_num)
    have k2 := fl_close' (fl u * d)
    have k3 : |fl u * (d - c)| ≤ 4 * 1e-14 := by rw [abs_mul]; exact mul_le_mul u3 g (abs_nonneg _) (by norm_num)
    have k4 : |(fl u - v) * c| ≤ 1.7300001e-7 * 57.296 := by rw [abs_mul]; exact mul_le_mul f3 G (abs_nonneg _) (by norm_num)
    have key : fl (fl u * d) - v * c = (fl (fl u * d) - fl u * d) + (fl u * (d - c) + (fl u - v) * c) := by ring
    rw [key]
    refine (abs_add_le _ _).trans ?_
    have k5 := abs_add_le (fl u * (d - c)) ((fl u - v) * c)
    norm_num at *
    linarith

/-- C179: a higher sun-synchronous orbit never has a smaller inclination, in double precision too. -/
theorem C179_mono (altitude higher i j : ℝ) (h : ssoAccepted altitude) (h' : ssoAccepted higher) (hle : altitude ≤ higher)
    (hi : ssoInclination altitude = some i) (hj : ssoInclination higher = some j) : i ≤ j := by
  rw [inclination_some h] at hi
  rw [inclination_some h'] at hj
  rw [← Option.some.inj hi, ← Option.some.inj hj]
  have hr := (ratio7_range h).1
  have hr0 : 0 ≤ axisRatio7 altitude := by norm_num at hr; linarith
  have m : axisRatio7 altitude ≤ axisRatio7 higher :=
    fl_mono (div_le_div_of_nonneg_right (fl_mono (by linarith)) (by norm_num))
  have m2 := fl_mono (Real.rpow_le_rpow hr0 m (show (0 : ℝ) ≤ 7 / 2 by norm_num))
  exact fl_mono (mul_le_mul_of_nonneg_right (fl_mono (Real.arccos_le_arccos (by linarith))) factor_pos)

/-- C179: at least two nanometres below the bound the inclination is less than 180 degrees. -/
theorem C179_below (altitude i : ℝ) (h0 : 0 ≤ altitude) (h1 : altitude + 2 ^ (-29 : ℤ) ≤ ssoLimit)
    (hi : ssoInclination altitude = some i) : i < 180 := by
  have h : ssoAccepted altitude := ⟨h0, lt_of_lt_of_le (lt_add_of_pos_right _ (by positivity)) h1⟩
  obtain ⟨r0, r1⟩ := ratio7_range h
  rw [inclination_some h] at hi
  rw [← Option.some.inj hi]
  rw [ssoLimit_eq] at h1
  have hs : fl (earthMeanRadius + altitude) ≤ 12352000 - 2 ^ (-29 : ℤ) := by
    refine fl_le ⟨12352000 * 2 ^ 29 - 1, -29, by norm_num, by norm_num, by norm_num⟩ (by linarith)
  have dd : IsDouble (1 - 2 ^ (-53 : ℤ) : ℝ) := ⟨2 ^ 53 - 1, -53, by norm_num, by norm_num, by norm_num⟩
  have hq : axisRatio7 altitude ≤ 1 - 2 ^ (-53 : ℤ) := by
    refine fl_le dd ?_
    rw [div_le_iff₀ (by norm_num)]
    refine hs.trans ?_
    norm_num
  have hx : 0 ≤ axisRatio7 altitude := by norm_num at r0; linarith
  have hp : fl (axisRatio7 altitude ^ (7 / 2 : ℝ)) ≤ 1 - 2 ^ (-53 : ℤ) := by
    refine fl_le dd (le_trans ?_ hq)
    calc axisRatio7 altitude ^ (7 / 2 : ℝ) ≤ axisRatio7 altitude ^ (1 : ℝ) :=
          Real.rpow_le_rpow_of_exponent_ge (by norm_num at r0; linarith) r1 (by norm_num)
      _ = _ := Real.rpow_one _
  generalize fl (axisRatio7 altitude ^ (7 / 2 : ℝ)) = p at *
  have p1 := Real.pi_gt_d20
  have p2 := Real.pi_lt_d20
  have hpi := Real.pi_pos
  have hc : Real.arccos (-p) ≤ Real.pi - 1e-8 := by
    have e1 := Real.one_sub_sq_div_two_le_cos (x := 1e-8)
    have e2 : p ≤ Real.cos 1e-8 := by norm_num at *; linarith
    have e3 := Real.arccos_le_arccos e2
    rw [Real.arccos_cos (by norm_num) (by norm_num at *; linarith)] at e3
    rw [Real.arccos_neg]
    linarith
  have a0 := Real.arccos_nonneg (-p)
  generalize Real.arccos (-p) = u at *
  have f1 : |fl u - u| ≤ 1e-15 := by
    refine (fl_close' u).trans ?_
    rw [abs_of_nonneg a0]; norm_num at *; linarith
  have f2 := (abs_le.mp f1).2
  have f3 : fl u ≤ 3.141592644 := by norm_num at *; linarith
  have f4 : 0 ≤ fl u := le_fl double_zero a0
  have g : fl u * degreeFactor ≤ 179.9999999 := by
    calc fl u * degreeFactor ≤ 3.141592644 * degreeFactor := mul_le_mul_of_nonneg_right f3 factor_pos
      _ ≤ _ := by unfold degreeFactor; norm_num
  have k := (abs_le.mp (fl_close' (fl u * degreeFactor))).2
  rw [abs_of_nonneg (mul_nonneg f4 factor_pos)] at k
  norm_num at *
  linarith

/-- C179: the right ascension of the ascending node is in a turn, and on the circle within `10⁻¹²` degrees of the exact one. -/
theorem C179_raan (sun : ℝ) (microseconds : Nat) (ascending : Bool) (hs : 0 ≤ sun ∧ sun ≤ 360) (hm : microseconds < 86400000000) :
    InTurn (ssoRaan sun microseconds ascending) ∧
      ∃ turns : ℤ, |ssoRaan sun microseconds ascending -
        (sun + 360 * (microseconds / 86400000000) + (if ascending then 180 else 0) + 360 * turns)| ≤ 1e-12 := by
  obtain ⟨s0, s1⟩ := hs
  have m0 : (0 : ℝ) ≤ microseconds / 86400000000 := by positivity
  have m1 : (microseconds / 86400000000 : ℝ) ≤ 1 := by
    rw [div_le_one (by norm_num)]; exact_mod_cast hm.le
  unfold ssoRaan
  simp only []
  generalize (microseconds / 86400000000 : ℝ) = q at *
  have a0 : (0 : ℝ) ≤ (if ascending then 180 else 0) := by split_ifs <;> norm_num
  have a1 : (if ascending then 180 else 0 : ℝ) ≤ 180 := by split_ifs <;> norm_num
  generalize (if ascending then 180 else 0 : ℝ) = c at *
  have e0 : 0 ≤ fl q := le_fl double_zero m0
  have e1 : fl q ≤ 1 := fl_le double_one m1
  have c1 := fl_close' q
  rw [abs_of_nonneg m0] at c1
  have p0 : 0 ≤ fl (360 * fl q) := le_fl double_zero (by linarith)
  have c2 := fl_close' (360 * fl q)
  rw [abs_of_nonneg (show 0 ≤ 360 * fl q by linarith)] at c2
  have c2' : |fl (360 * fl q) - 360 * fl q| ≤ 4.1e-14 := c2.trans (by norm_num at *; linarith)
  have c1' : |fl q - q| ≤ 1.2e-16 := c1.trans (by norm_num at *; linarith)
  have d1 := abs_le.mp c1'
  have d2 := abs_le.mp c2'
  have t0 : 0 ≤ fl (sun + fl (360 * fl q)) := le_fl double_zero (by linarith)
  have c3 := fl_close' (sun + fl (360 * fl q))
  rw [abs_of_nonneg (show 0 ≤ sun + fl (360 * fl q) by linarith)] at c3
  have c3' : |fl (sun + fl (360 * fl q)) - (sun + fl (360 * fl q))| ≤ 8.2e-14 := c3.trans (by norm_num at *; linarith)
  have d3 := abs_le.mp c3'
  have c4 := fl_close' (fl (sun + fl (360 * fl q)) + c)
  rw [abs_of_nonneg (show 0 ≤ fl (sun + fl (360 * fl q)) + c by linarith)] at c4
  have c4' : |fl (fl (sun + fl (360 * fl q)) + c) - (fl (sun + fl (360 * fl q)) + c)| ≤ 1.1e-13 :=
    c4.trans (by norm_num at *; linarith)
  have d4 := abs_le.mp c4'
  have n : 0 ≤ fl (fl (sun + fl (360 * fl q)) + c) := le_fl double_zero (by linarith)
  constructor
  · unfold mod360
    rw [if_pos n]
    exact npMod_inTurn _
  · obtain ⟨k, hk⟩ := mod360_close (fl (fl (sun + fl (360 * fl q)) + c))
    have dk := abs_le.mp hk
    refine ⟨k, abs_le.mpr ?_⟩
    generalize mod360 _ = r at *
    norm_num at *
    constructor <;> linarith

/-- C179: below that altitude every orbit derived with increases that are not negative is valid. -/
theorem C179_derived (altitude trueAnomaly sun dM dRaan : ℝ) (epoch : Int) (microseconds : Nat) (ascending : Bool)
    (h0 : 0 ≤ altitude) (h1 : altitude + 2 ^ (-29 : ℤ) ≤ ssoLimit) (ht : InTurn trueAnomaly) (hs : 0 ≤ sun ∧ sun ≤ 360)
    (hm : microseconds < 86400000000) (hM : 0 ≤ dM) (hR : 0 ≤ dRaan) :
    ∃ d, ssoDerived altitude trueAnomaly epoch sun microseconds ascending dM dRaan = .ok d ∧ Circular.Valid d ∧
      d.altitude = altitude ∧ d.epoch = epoch ∧ ssoInclination altitude = some d.inclination := by
  have h : ssoAccepted altitude := ⟨h0, lt_of_lt_of_le (lt_add_of_pos_right _ (by positivity)) h1⟩
  obtain ⟨i, hi, i0, -, -⟩ := C179_inclination altitude h ⟨altitude, 0, 0, 0, true⟩ rfl
  have i1 := C179_below altitude i h0 h1 hi
  obtain ⟨d, hd, v, e1, e2, e3⟩ := C140_forward_partial ⟨altitude, trueAnomaly, epoch, i, ssoRaan sun microseconds ascending⟩
    ⟨ht, ⟨by linarith, i1⟩, (C179_raan sun microseconds ascending hs hm).1⟩ dM dRaan hM hR
  refine ⟨d, ?_, v, e1, e2, ?_⟩
  · unfold ssoDerived; rw [hi]; exact hd
  · rw [hi, e3]

/-- C179 is false of the highest altitude that is accepted: one nanometre below the bound the inclination is exactly 180
degrees, and no orbit can be derived, not even with increases of zero. -/
theorem C179_top_false : ∃ altitude : ℝ, IsDouble altitude ∧ ssoAccepted altitude ∧ ssoInclination altitude = some 180 ∧
    ∀ (trueAnomaly : ℝ) (epoch : Int) (sun : ℝ) (microseconds : Nat) (ascending : Bool) (dM dRaan : ℝ),
      ssoDerived altitude trueAnomaly epoch sun microseconds ascending dM dRaan = .error .validationError := by
  have h : ssoAccepted (12352000 - earthMeanRadius - 2 ^ (-30 : ℤ)) := by
    unfold ssoAccepted; rw [ssoLimit_eq]; unfold earthMeanRadius; norm_num
  have hs : fl (earthMeanRadius + (12352000 - earthMeanRadius - 2 ^ (-30 : ℤ))) = 12352000 := by
    have e : earthMeanRadius + (12352000 - earthMeanRadius - 2 ^ (-30 : ℤ)) = 12352000 - 2 ^ (-30 : ℤ) := by ring
    rw [e]
    unfold fl
    rw [lastPlace_eq (e := -29) (by norm_num) (by rw [abs_of_pos] <;> norm_num) (by rw [abs_of_pos] <;> norm_num),
      rhe_tie (n := 12352000 * 2 ^ 29) (by norm_num) (by norm_num) (by norm_num)]
    norm_num
  have hi : ssoInclination (12352000 - earthMeanRadius - 2 ^ (-30 : ℤ)) = some 180 := by
    rw [inclination_some h]
    unfold axisRatio7
    rw [hs, div_self (by norm_num), fl_of_double double_one, Real.one_rpow, fl_of_double double_one, Real.arccos_neg_one, degrees_pi]
  refine ⟨_, ⟨12352000 * 2 ^ 30 - 6840818578939205 - 1, -30, by norm_num, by norm_num, by unfold earthMeanRadius; norm_num⟩, h, hi, ?_⟩
  intro ta ep sun ms asc dM dRaan
  unfold ssoDerived
  rw [hi]
  unfold Circular.make
  simp only [bind, Except.bind, require]
  split_ifs <;> first | rfl | (exfalso; norm_num at *)

/-- A sun-synchronous orbit at 700 km. -/
example : ssoAccepted 700000 ∧ 700000 + 2 ^ (-29 : ℤ) ≤ ssoLimit := by
  unfold ssoAccepted; rw [ssoLimit_eq]; unfold earthMeanRadius; norm_num

end Tatc.Props
