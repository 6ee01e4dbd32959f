import Verif.Props.RoundedKeplerian

/-! C183: Walker constellations around Keplerian orbits in double precision. -/

namespace Tatc.Props
open Tatc Tatc.Num Tatc.Ieee Tatc.Spec Tatc.Orbit Tatc.Constellation

/-- Eccentricities up to 0.2 or from 7/8 on; or else the lead is at perigee, or its mean anomaly is at least `10⁻⁹` degrees. -/
def Started (o : Keplerian) : Prop :=
  o.eccentricity ≤ 0.2 ∨ 7 / 8 ≤ o.eccentricity ∨ o.trueAnomaly = 0 ∨ 1e-9 ≤ Orbit.trueToMean o.trueAnomaly o.eccentricity

theorem rounded_perigee (e : ℝ) : Ieee.trueToMean 0 e = 0 := by
  unfold Ieee.trueToMean
  simp [fl_zero]

theorem double_least {t : ℝ} (hd : IsDouble t) (h : 0 < t) : (2 : ℝ) ^ (-1074 : ℤ) ≤ t := by
  obtain ⟨m, k, -, hk, rfl⟩ := hd
  have hm : 0 < m := by
    by_contra hcon
    have : (m : ℝ) ≤ 0 := by exact_mod_cast (not_lt.mp hcon)
    have := mul_nonpos_of_nonpos_of_nonneg this (two_zpow_pos k).le
    linarith
  have h1 : (1 : ℝ) ≤ m := by exact_mod_cast hm
  calc (2 : ℝ) ^ (-1074 : ℤ) ≤ 2 ^ k := two_zpow_le hk
    _ = 1 * 2 ^ k := (one_mul _).symm
    _ ≤ m * 2 ^ k := mul_le_mul_of_nonneg_right h1 (two_zpow_pos k).le

/-- The rounding of a positive fraction of a double precision number exceeds it by little more than half the number. -/
theorem fraction_le {t c : ℝ} (hd : IsDouble t) (h : 0 < t) (hc : 0 ≤ c) : fl (c * t) ≤ (c + c / 2 ^ 53 + 1 / 2) * t := by
  have a := (abs_le.mp (fl_close (c * t))).2
  rw [abs_of_nonneg (mul_nonneg hc h.le)] at a
  have b := double_least hd h
  have e : (2 : ℝ) ^ (-1075 : ℤ) = 2 ^ (-1074 : ℤ) / 2 := by
    rw [show (-1075 : ℤ) = -1074 - 1 by norm_num, zpow_sub_one₀ (by norm_num)]; rfl
  rw [e] at a
  generalize (2 : ℝ) ^ (-1074 : ℤ) = u at *
  have f : (c + c / 2 ^ 53 + 1 / 2) * t = c * t + c * t / 2 ^ 53 + t / 2 := by ring
  rw [f]
  linarith

/-- Close to perigee, on orbits of small eccentricity, no mean anomaly is negative, down to the least positive number. -/
theorem mean_nonneg {ν e : ℝ} (he0 : 0 ≤ e) (he1 : e ≤ 0.2) (h0 : 0 ≤ ν) (h1 : ν ≤ 28) :
    0 ≤ Ieee.trueToMean ν e := by
  have hp := Real.pi_gt_d2
  unfold Ieee.trueToMean
  simp only []
  have t0 : 0 ≤ fl (ν * radianFactor) := fl_nonneg (mul_nonneg h0 radian_nonneg)
  have dh : IsDouble (1 / 2 : ℝ) := ⟨1, -1, by norm_num, by norm_num, by norm_num⟩
  have t1 : fl (ν * radianFactor) ≤ 1 / 2 := fl_le dh (by
    calc ν * radianFactor ≤ 28 * radianFactor := mul_le_mul_of_nonneg_right h1 radian_nonneg
      _ ≤ 1 / 2 := by unfold radianFactor; norm_num)
  have td : IsDouble (fl (ν * radianFactor)) := fl_double _
  generalize fl (ν * radianFactor) = t at *
  rcases t0.eq_or_lt with h | tp
  · rw [← h]; simp [fl_zero]
  have d2 : IsDouble (2 : ℝ) := by exact_mod_cast double_int (n := 2) (by norm_num)
  have two : ∀ k : ℝ, 0 ≤ k → k ≤ 4 → 0 ≤ fl (k * t) ∧ fl (k * t) ≤ 2 := fun k k0 k4 =>
    ⟨fl_nonneg (mul_nonneg k0 tp.le), fl_le d2 (by nlinarith)⟩
  have sn : ∀ k : ℝ, 0 ≤ k → k ≤ 4 → 0 ≤ fl (Real.sin (fl (k * t))) := fun k k0 k4 =>
    fl_nonneg (Real.sin_nonneg_of_nonneg_of_le_pi (two k k0 k4).1 ((two k k0 k4).2.trans (by linarith)))
  have s1 : fl (Real.sin t) ≤ t := fl_le td (Real.sin_le tp.le)
  have s1' : 0 ≤ fl (Real.sin t) := fl_nonneg (Real.sin_nonneg_of_nonneg_of_le_pi tp.le (by linarith))
  have q0 : 0 ≤ fl (e * e) := fl_nonneg (mul_nonneg he0 he0)
  have f0 : 0 ≤ fourth e := fl_nonneg (mul_nonneg q0 q0)
  have e2 : fl (2 * e) ≤ 13 / 32 := fl_le ⟨13, -5, by norm_num, by norm_num, by norm_num⟩ (by norm_num at *; linarith)
  have e2' : 0 ≤ fl (2 * e) := fl_nonneg (by linarith)
  have sq : fl (e * e) ≤ 1 / 16 := fl_le ⟨1, -4, by norm_num, by norm_num, by norm_num⟩ (by norm_num at *; nlinarith)
  have cu : cube e ≤ 1 / 64 := fl_le ⟨1, -6, by norm_num, by norm_num, by norm_num⟩ (by
    calc fl (e * e) * e ≤ 1 / 16 * (1 / 4) := mul_le_mul sq (by norm_num at *; linarith) he0 (by norm_num)
      _ = 1 / 64 := by norm_num)
  have cu0 : 0 ≤ cube e := fl_nonneg (mul_nonneg q0 he0)
  have th : fl (1 / 3) ≤ 1 / 2 := fl_le dh (by norm_num)
  have th0 : 0 ≤ fl (1 / 3 : ℝ) := fl_nonneg (by norm_num)
  have k3 : fl (fl (1 / 3) * cube e) ≤ 1 / 128 := fl_le ⟨1, -7, by norm_num, by norm_num, by norm_num⟩ (by
    calc fl (1 / 3) * cube e ≤ 1 / 2 * (1 / 64) := mul_le_mul th cu cu0 (by norm_num)
      _ = 1 / 128 := by norm_num)
  have k3' : 0 ≤ fl (fl (1 / 3) * cube e) := fl_nonneg (mul_nonneg th0 cu0)
  have first : fl (fl (2 * e) * fl (Real.sin t)) ≤ 31 / 32 * t :=
    (fl_mono (mul_le_mul e2 s1 s1' (by norm_num))).trans ((fraction_le td tp (by norm_num)).trans
      (mul_le_mul_of_nonneg_right (by norm_num) tp.le))
  have s3 : fl (Real.sin (fl (3 * t))) ≤ 4 * t := by
    have a := fl_le (fl_double (3 * t)) (Real.sin_le (two 3 (by norm_num) (by norm_num)).1)
    exact a.trans ((fraction_le td tp (by norm_num)).trans (mul_le_mul_of_nonneg_right (by norm_num) tp.le))
  have third : fl (fl (fl (1 / 3) * cube e) * fl (Real.sin (fl (3 * t)))) ≤ fl (1 / 32 * t) :=
    fl_mono (by
      calc _ ≤ 1 / 128 * (4 * t) := mul_le_mul k3 s3 (sn 3 (by norm_num) (by norm_num)) (by norm_num)
        _ = 1 / 32 * t := by ring)
  have second : 0 ≤ fl (fl (fl (3 / 4 * fl (e * e)) + fl (1 / 8 * fourth e)) * fl (Real.sin (fl (2 * t)))) :=
    fl_nonneg (mul_nonneg (fl_nonneg (add_nonneg (fl_nonneg (by positivity)) (fl_nonneg (by positivity))))
      (sn 2 (by norm_num) (by norm_num)))
  have last : 0 ≤ fl (fl (5 / 32 * fourth e) * fl (Real.sin (fl (4 * t)))) :=
    fl_nonneg (mul_nonneg (fl_nonneg (by positivity)) (sn 4 (by norm_num) le_rfl))
  have a1 : fl (1 / 32 * t) ≤ fl (t - fl (fl (2 * e) * fl (Real.sin t))) := fl_mono (by linarith)
  have a2 := le_fl (fl_double (1 / 32 * t)) (le_add_of_le_of_nonneg a1 second)
  have a3 := fl_nonneg (sub_nonneg.mpr (third.trans a2))
  exact fl_nonneg (mul_nonneg (fl_nonneg (add_nonneg a3 last)) factor_pos)

/-- Further on, the exact mean anomaly is positive. -/
theorem mean_positive {ν e : ℝ} (he0 : 0 ≤ e) (he1 : e ≤ 0.2) (h : 28 ≤ ν) : 1e-9 ≤ Orbit.trueToMean ν e := by
  have hp := Real.pi_pos
  have hp3 := Real.pi_gt_d2
  have hp4 := Real.pi_lt_d2
  unfold Orbit.trueToMean
  simp only []
  have t0 : 0.4 ≤ radians ν := by
    unfold radians
    calc (0.4 : ℝ) ≤ 28 * (Real.pi / 180) := by norm_num at *; linarith
      _ ≤ _ := mul_le_mul_of_nonneg_right h (by positivity)
  generalize radians ν = t at *
  have tp : 0 < t := by norm_num at *; linarith
  have up : ∀ k : ℝ, 0 ≤ k → |Real.sin (k * t)| ≤ k * t := fun k k0 => by
    have := Real.abs_sin_sub_sin_le (k * t) 0
    rwa [Real.sin_zero, sub_zero, sub_zero, abs_of_nonneg (mul_nonneg k0 tp.le)] at this
  have s1 := abs_le.mp (up 1 (by norm_num))
  have s2 := abs_le.mp (up 2 (by norm_num))
  have s3 := abs_le.mp (up 3 (by norm_num))
  have s4 := abs_le.mp (up 4 (by norm_num))
  rw [one_mul] at s1
  have e2 : e ^ 2 ≤ 0.04 := by
    calc e ^ 2 ≤ (0.2 : ℝ) ^ 2 := pow_le_pow_left₀ he0 he1 2
      _ = 0.04 := by norm_num
  have e3 : e ^ 3 ≤ 0.008 := by
    calc e ^ 3 ≤ (0.2 : ℝ) ^ 3 := pow_le_pow_left₀ he0 he1 3
      _ = 0.008 := by norm_num
  have e4 : e ^ 4 ≤ 0.0016 := by
    calc e ^ 4 ≤ (0.2 : ℝ) ^ 4 := pow_le_pow_left₀ he0 he1 4
      _ = 0.0016 := by norm_num
  have e2' : 0 ≤ e ^ 2 := by positivity
  have e3' : 0 ≤ e ^ 3 := by positivity
  have e4' : 0 ≤ e ^ 4 := by positivity
  have b1 : 2 * e * Real.sin t ≤ 0.4 * t := by
    calc 2 * e * Real.sin t ≤ 2 * e * t := mul_le_mul_of_nonneg_left s1.2 (by linarith)
      _ ≤ 0.4 * t := mul_le_mul_of_nonneg_right (by norm_num at *; linarith) tp.le
  have b2 : -(0.0604 * t) ≤ (3 / 4 * e ^ 2 + 1 / 8 * e ^ 4) * Real.sin (2 * t) := by
    have c := mul_le_mul_of_nonneg_left s2.1 (show 0 ≤ 3 / 4 * e ^ 2 + 1 / 8 * e ^ 4 by positivity)
    have d : (3 / 4 * e ^ 2 + 1 / 8 * e ^ 4) * (2 * t) ≤ 0.0302 * (2 * t) :=
      mul_le_mul_of_nonneg_right (by norm_num at *; linarith) (by linarith)
    norm_num at *; linarith
  have b3 : 1 / 3 * e ^ 3 * Real.sin (3 * t) ≤ 0.008 * t := by
    calc 1 / 3 * e ^ 3 * Real.sin (3 * t) ≤ 1 / 3 * e ^ 3 * (3 * t) := mul_le_mul_of_nonneg_left s3.2 (by positivity)
      _ = e ^ 3 * t := by ring
      _ ≤ 0.008 * t := mul_le_mul_of_nonneg_right e3 tp.le
  have b4 : -(0.001 * t) ≤ 5 / 32 * e ^ 4 * Real.sin (4 * t) := by
    have c := mul_le_mul_of_nonneg_left s4.1 (show 0 ≤ 5 / 32 * e ^ 4 by positivity)
    have d : 5 / 32 * e ^ 4 * (4 * t) ≤ 0.00025 * (4 * t) :=
      mul_le_mul_of_nonneg_right (by norm_num at *; linarith) (by linarith)
    norm_num at *; linarith
  generalize 2 * e * Real.sin t = B1 at *
  generalize (3 / 4 * e ^ 2 + 1 / 8 * e ^ 4) * Real.sin (2 * t) = B2 at *
  generalize 1 / 3 * e ^ 3 * Real.sin (3 * t) = B3 at *
  generalize 5 / 32 * e ^ 4 * Real.sin (4 * t) = B4 at *
  have m : 0.1 ≤ t - B1 + B2 - B3 + B4 := by norm_num at *; linarith
  unfold degrees
  have f : 1 ≤ 180 / Real.pi := by rw [le_div_iff₀ hp]; norm_num at *; linarith
  calc (1e-9 : ℝ) ≤ 0.1 * 1 := by norm_num
    _ ≤ _ := mul_le_mul m f (by norm_num) (by norm_num at *; linarith)

/-- A mean anomaly of 360 degrees is accepted for large eccentricities: the second term of the series is large enough to make a
difference. -/
theorem rounded_full {e : ℝ} (hd : IsDouble e) (he0 : 7 / 8 ≤ e) (he1 : e ≤ 1) : InTurn (Ieee.meanToTrue 360 e) := by
  have h0 : 0 ≤ e := by linarith
  constructor
  · obtain ⟨-, b⟩ := exact_margin h0 he1 (show (0 : ℝ) ≤ 360 by norm_num) le_rfl
    have c := abs_le.mp (C178_true 360 e (by norm_num) h0 he1)
    have := (b (by norm_num)).1
    norm_num at *; linarith
  obtain ⟨c1, -, c3⟩ := coefficients hd h0 he1
  have p1 := Real.pi_gt_d20
  have p2 := Real.pi_lt_d20
  unfold Ieee.meanToTrue
  simp only []
  have e1 : fl (360 * radianFactor) = (7074237752028440 : ℤ) * 2 ^ (-50 : ℤ) := by
    apply fl_eq_of (by norm_num) <;> unfold radianFactor
    · rw [abs_of_pos (by norm_num)]; norm_num
    · rw [abs_of_pos (by norm_num)]; norm_num
    · rw [abs_lt]; norm_num
  have e2 : fl ((7074237752028439 : ℤ) * 2 ^ (-50 : ℤ) * degreeFactor) = (6333186975989759 : ℤ) * 2 ^ (-44 : ℤ) := by
    apply fl_eq_of (by norm_num) <;> unfold degreeFactor
    · rw [abs_of_pos (by norm_num)]; norm_num
    · rw [abs_of_pos (by norm_num)]; norm_num
    · rw [abs_lt]; norm_num
  have e3 : fl (3 * ((7074237752028440 : ℤ) * 2 ^ (-50 : ℤ))) = 3 * ((7074237752028440 : ℤ) * 2 ^ (-50 : ℤ)) :=
    fl_of_double ⟨5305678314021330, -48, by norm_num, by norm_num, by norm_num⟩
  have e4 : fl (2 * ((7074237752028440 : ℤ) * 2 ^ (-50 : ℤ))) = 2 * ((7074237752028440 : ℤ) * 2 ^ (-50 : ℤ)) :=
    fl_of_double ⟨7074237752028440, -49, by norm_num, by norm_num, by norm_num⟩
  have e5 : fl ((7074237752028440 : ℤ) * 2 ^ (-50 : ℤ) + -4.6e-16) = (7074237752028439 : ℤ) * 2 ^ (-50 : ℤ) := by
    apply fl_eq_of (by norm_num)
    · rw [abs_of_pos (by norm_num)]; norm_num
    · rw [abs_of_pos (by norm_num)]; norm_num
    · rw [abs_lt]; norm_num
  have md : IsDouble ((7074237752028440 : ℤ) * 2 ^ (-50 : ℤ)) := ⟨7074237752028440, -50, by norm_num, by norm_num, rfl⟩
  rw [e1, e3, e4]
  have below : ∀ (y : ℝ) (k : ℕ), y ≤ k * (2 * Real.pi) → k * (2 * Real.pi) - Real.pi ≤ y → Real.sin y ≤ 0 := by
    intro y k a b
    rw [← Real.sin_sub_nat_mul_two_pi y k]
    exact Real.sin_nonpos_of_nonpos_of_neg_pi_le (by linarith) (by linarith)
  have s1 : Real.sin ((7074237752028440 : ℤ) * 2 ^ (-50 : ℤ)) ≤ 0 := below _ 1 (by norm_num at *; linarith) (by norm_num at *; linarith)
  have s3 : Real.sin (3 * ((7074237752028440 : ℤ) * 2 ^ (-50 : ℤ))) ≤ 0 :=
    below _ 3 (by norm_num at *; linarith) (by norm_num at *; linarith)
  have s2 : Real.sin (2 * ((7074237752028440 : ℤ) * 2 ^ (-50 : ℤ))) ≤ -4.88e-16 := by
    rw [← Real.sin_sub_nat_mul_two_pi _ 2]
    have y : ∃ y, 2 * ((7074237752028440 : ℤ) * 2 ^ (-50 : ℤ)) - (2 : ℕ) * (2 * Real.pi) = -y ∧ 4.89e-16 ≤ y ∧ y ≤ 4.91e-16 :=
      ⟨(2 : ℕ) * (2 * Real.pi) - 2 * ((7074237752028440 : ℤ) * 2 ^ (-50 : ℤ)), by ring, by norm_num at *; linarith,
        by norm_num at *; linarith⟩
    obtain ⟨y, hy, y0, y1⟩ := y
    rw [hy, Real.sin_neg]
    have g := Real.sin_gt_sub_cube (x := y) (by norm_num at *; linarith)
    have y3 : y ^ 3 ≤ (4.91e-16 : ℝ) ^ 3 := pow_le_pow_left₀ (by norm_num at *; linarith) y1 3
    norm_num at *
    linarith
  have s2' : fl (Real.sin (2 * ((7074237752028440 : ℤ) * 2 ^ (-50 : ℤ)))) ≤ -4.87e-16 := by
    refine (fl_mono s2).trans ?_
    have f := (abs_le.mp (fl_close' (-4.88e-16))).2
    norm_num at *
    linarith
  have sq : 49 / 64 ≤ fl (e * e) := le_fl ⟨49, -6, by norm_num, by norm_num, by norm_num⟩ (by nlinarith)
  have k2 : 245 / 256 ≤ fl (5 / 4 * fl (e * e)) := le_fl ⟨245, -8, by norm_num, by norm_num, by norm_num⟩ (by linarith)
  have t2 : fl (fl (5 / 4 * fl (e * e)) * fl (Real.sin (2 * ((7074237752028440 : ℤ) * 2 ^ (-50 : ℤ))))) ≤ -4.6e-16 := by
    have p : fl (5 / 4 * fl (e * e)) * fl (Real.sin (2 * ((7074237752028440 : ℤ) * 2 ^ (-50 : ℤ)))) ≤ -4.65e-16 := by
      generalize fl (5 / 4 * fl (e * e)) = K at *
      generalize fl (Real.sin (2 * ((7074237752028440 : ℤ) * 2 ^ (-50 : ℤ)))) = S at *
      have : K * S ≤ 245 / 256 * S := mul_le_mul_of_nonpos_right k2 (by norm_num at *; linarith)
      norm_num at *
      linarith
    refine (fl_mono p).trans ?_
    have f := (abs_le.mp (fl_close' (-4.65e-16))).2
    norm_num at *
    linarith
  have t1 := fl_nonpos (mul_nonpos_of_nonneg_of_nonpos c1 (fl_nonpos s1))
  have t3 := fl_nonpos (mul_nonpos_of_nonneg_of_nonpos c3 (fl_nonpos s3))
  have u1 := fl_le md (add_le_of_nonpos_right t1 (a := ((7074237752028440 : ℤ) * 2 ^ (-50 : ℤ) : ℝ)))
  have u2 := fl_mono (add_le_add u1 t2)
  rw [e5] at u2
  have u3 := fl_le ⟨7074237752028439, -50, by norm_num, by norm_num, rfl⟩ ((add_le_of_nonpos_right t3).trans u2)
  refine lt_of_le_of_lt (fl_mono (mul_le_mul_of_nonneg_right u3 factor_pos)) ?_
  rw [e2]
  norm_num

/-- A derived orbit is valid if neither increase is negative. -/
theorem started_valid (o : Keplerian) (hv : Keplerian.Valid o) (hd : IsDouble o.eccentricity) (he : o.eccentricity ≤ 1)
    (dM dRaan : ℝ) (hM : 7 / 8 ≤ o.eccentricity ∨ ¬ JustBelow (fl (Ieee.trueToMean o.trueAnomaly o.eccentricity + dM)))
    (hR : ¬ JustBelow (fl (o.raan + dRaan))) :
    ∃ d, keplerianDerived o dM dRaan = .ok d ∧ Keplerian.Valid d ∧ d.altitude = o.altitude ∧ d.epoch = o.epoch ∧
      d.inclination = o.inclination ∧ d.eccentricity = o.eccentricity ∧ d.perigee = o.perigee := by
  by_cases hj : JustBelow (fl (Ieee.trueToMean o.trueAnomaly o.eccentricity + dM))
  · have he' := hM.resolve_right (not_not.mpr hj)
    have hm : mod360 (fl (Ieee.trueToMean o.trueAnomaly o.eccentricity + dM)) = 360 := (mod360_range _ (fl_double _)).2.2.1.mpr hj
    obtain ⟨b1, b2, b3, -⟩ := mod360_range _ (fl_double (o.raan + dRaan))
    have hb := lt_of_le_of_ne b2 fun h => hR (b3.mp h)
    have ht := rounded_full hd he' he
    rw [← hm] at ht
    exact ⟨_, (keplerian_make_ok _ _ _ _ _ _ _ _).mpr ⟨ht, hv.1.2.1, ⟨b1, hb⟩, hv.2.1, hv.2.2, rfl⟩,
      ⟨⟨ht, hv.1.2.1, b1, hb⟩, hv.2⟩, rfl, rfl, rfl, rfl, rfl⟩
  · exact C182_valid_partial o hv hd he dM dRaan hj hR

theorem started_nonneg {o : Keplerian} (hv : Keplerian.Valid o) (he : o.eccentricity ≤ 1) (hs : Started o) :
    7 / 8 ≤ o.eccentricity ∨ 0 ≤ Ieee.trueToMean o.trueAnomaly o.eccentricity := by
  have far : 1e-9 ≤ Orbit.trueToMean o.trueAnomaly o.eccentricity → 0 ≤ Ieee.trueToMean o.trueAnomaly o.eccentricity := by
    intro h
    have hν := hv.1.1
    have c := abs_le.mp (C178_mean o.trueAnomaly o.eccentricity (by rw [abs_of_nonneg hν.1]; linarith [hν.2]) hv.2.1 he)
    norm_num at *
    linarith
  rcases hs with h | h | h | h
  · right
    rcases le_total o.trueAnomaly 28 with h' | h'
    · exact mean_nonneg hv.2.1 h hv.1.1.1 h'
    · exact far (mean_positive hv.2.1 h h')
  · exact .inl h
  · right; rw [h, rounded_perigee]
  · exact .inr (far h)

/-- Increases that are not negative. -/
theorem started_forward {o : Keplerian} (hv : Keplerian.Valid o) (he : o.eccentricity ≤ 1) (hs : Started o) {dM : ℝ}
    (h : 0 ≤ dM) : 7 / 8 ≤ o.eccentricity ∨ ¬ JustBelow (fl (Ieee.trueToMean o.trueAnomaly o.eccentricity + dM)) :=
  (started_nonneg hv he hs).imp id fun a j => absurd j.1 (not_lt.mpr (fl_nonneg (add_nonneg a h)))

/-- C183, full statement: all members of an accepted Walker constellation around a Keplerian orbit are generated, in order, and
each is a valid orbit with the altitude, inclination, epoch, eccentricity and perigee of the lead, its mean anomaly increased by
its place in the pattern.  Proved for eccentricities up to 0.2 and from 7/8 to 1; for those between, if the lead is at perigee or
has a mean anomaly of at least `10⁻⁹` degrees. -/
theorem C183_members_partial {I : Type} (w : Walker I) (hw : Walker.Accepted w) (hn : w.satellites ≤ 10 ^ 9)
    (hp : w.planes ≤ 2700) (o : Keplerian) (hv : Keplerian.Valid o) (hd : IsDouble o.eccentricity) (he : o.eccentricity ≤ 1)
    (hs : Started o) :
    ∃ orbits : Nat → Keplerian,
      keplerianWalkerMembers o w = .ok ((List.range w.satellites).map fun i =>
        ⟨zeroPad w.name w.satellites (i + 1), .keplerian (orbits i), w.instruments⟩) ∧
      ∀ i < w.satellites, Keplerian.Valid (orbits i) ∧ (orbits i).altitude = o.altitude ∧
        (orbits i).inclination = o.inclination ∧ (orbits i).epoch = o.epoch ∧ (orbits i).eccentricity = o.eccentricity ∧
        (orbits i).perigee = o.perigee ∧
        SameWithin 3e-8 (orbits i).trueAnomaly (Orbit.meanToTrue (Orbit.trueToMean o.trueAnomaly o.eccentricity +
          slotAnomaly w.satellites w.planes w.spacing i) o.eccentricity) ∧
        SameWithin 3e-9 (orbits i).raan (o.raan + slotNode w.star w.satellites w.planes i) := by
  have key : ∀ i, ∃ d : Keplerian, i < w.satellites →
      keplerianDerived o (walkerIncrements w i).1 (walkerIncrements w i).2 = .ok d ∧
      Keplerian.Valid d ∧ d.altitude = o.altitude ∧ d.inclination = o.inclination ∧ d.epoch = o.epoch ∧
      d.eccentricity = o.eccentricity ∧ d.perigee = o.perigee ∧
      SameWithin 3e-8 d.trueAnomaly (Orbit.meanToTrue (Orbit.trueToMean o.trueAnomaly o.eccentricity +
          slotAnomaly w.satellites w.planes w.spacing i) o.eccentricity) ∧
      SameWithin 3e-9 d.raan (o.raan + slotNode w.star w.satellites w.planes i) := by
    intro i
    by_cases hi : i < w.satellites
    · obtain ⟨m0, m1, n0, n1, cm, cn⟩ := increments_close w hw hn hp hi
      obtain ⟨d, hd', v, e1, e2, e3, e4, e5⟩ := started_valid o hv hd he (walkerIncrements w i).1 (walkerIncrements w i).2
        (started_forward hv he hs m0)
        (fun h => absurd h.1 (not_lt.mpr (fl_nonneg (add_nonneg hv.1.2.2.1 n0))))
      obtain ⟨⟨k, hk⟩, l, hl⟩ := C182_close o d hv he _ _ (by rw [abs_of_nonneg m0]; exact m1) (by rw [abs_of_nonneg n0]; exact n1) hd'
      refine ⟨d, fun _ => ⟨hd', v, e1, e3, e2, e4, e5, ⟨k, ?_⟩, ⟨l, ?_⟩⟩⟩
      · have L := meanToTrue_lipschitz hv.2.1 he (Orbit.trueToMean o.trueAnomaly o.eccentricity + (walkerIncrements w i).1)
          (Orbit.trueToMean o.trueAnomaly o.eccentricity + slotAnomaly w.satellites w.planes w.spacing i)
        rw [add_sub_add_left_eq_sub] at L
        generalize |(walkerIncrements w i).1 - slotAnomaly w.satellites w.planes w.spacing i| = A at *
        have a1 := abs_le.mp hk
        have a2 := abs_le.mp L
        norm_num at *
        rw [abs_le]; constructor <;> linarith
      · have a1 := abs_le.mp hl
        have a2 := abs_le.mp cn
        norm_num at *
        rw [abs_le]; constructor <;> linarith
    · exact ⟨o, fun h => absurd h hi⟩
  choose f hf using key
  refine ⟨f, ?_, fun i hi => (hf i hi).2⟩
  unfold keplerianWalkerMembers
  apply mapM_ok
  intro i hi
  have := (hf i (List.mem_range.mp hi)).1
  simp only [this]
  rfl

/-- Up to an eccentricity of 0.3 the series keeps different anomalies apart. -/
theorem meanToTrue_apart {e : ℝ} (he0 : 0 ≤ e) (he1 : e ≤ 0.3) (x y : ℝ) :
    0.08 * |x - y| ≤ |Orbit.meanToTrue x e - Orbit.meanToTrue y e| := by
  have hp := Real.pi_pos
  have key : ∀ a b : ℝ, 0.08 * |a - b| ≤ |series e a - series e b| := by
    intro a b
    have s1 := Real.abs_sin_sub_sin_le a b
    have s2 := Real.abs_sin_sub_sin_le (2 * a) (2 * b)
    have s3 := Real.abs_sin_sub_sin_le (3 * a) (3 * b)
    rw [← mul_sub, abs_mul] at s2 s3
    norm_num at s2 s3
    have e2 : e ^ 2 ≤ 0.09 := by norm_num at *; nlinarith
    have e3 : e ^ 3 ≤ 0.027 := by
      calc e ^ 3 ≤ (0.3 : ℝ) ^ 3 := pow_le_pow_left₀ he0 he1 3
        _ = 0.027 := by norm_num
    have e3' : 0 ≤ e ^ 3 := by positivity
    have e3'' : e ^ 3 ≤ e := by nlinarith [mul_nonneg he0 (sub_nonneg.mpr (pow_le_one₀ (n := 2) he0 (by norm_num at *; linarith : e ≤ 1)))]
    have k1 : |2 * e - 1 / 4 * e ^ 3| ≤ 0.6 := by
      rw [abs_le]; norm_num at *; constructor <;> linarith
    have k2 : |5 / 4 * e ^ 2| ≤ 0.1125 := by
      rw [abs_of_nonneg (by positivity)]; norm_num at *; linarith
    have k3 : |13 / 12 * e ^ 3| ≤ 0.02925 := by
      rw [abs_of_nonneg (by positivity)]; norm_num at *; linarith
    have eq : a - b = (series e a - series e b) + -((2 * e - 1 / 4 * e ^ 3) * (Real.sin a - Real.sin b)) +
        -(5 / 4 * e ^ 2 * (Real.sin (2 * a) - Real.sin (2 * b))) + -(13 / 12 * e ^ 3 * (Real.sin (3 * a) - Real.sin (3 * b))) := by
      unfold series; ring
    have m1 : |(2 * e - 1 / 4 * e ^ 3) * (Real.sin a - Real.sin b)| ≤ 0.6 * |a - b| := by
      rw [abs_mul]; exact mul_le_mul k1 s1 (abs_nonneg _) (by norm_num)
    have m2 : |5 / 4 * e ^ 2 * (Real.sin (2 * a) - Real.sin (2 * b))| ≤ 0.1125 * (2 * |a - b|) := by
      rw [abs_mul]; exact mul_le_mul k2 s2 (abs_nonneg _) (by norm_num)
    have m3 : |13 / 12 * e ^ 3 * (Real.sin (3 * a) - Real.sin (3 * b))| ≤ 0.02925 * (3 * |a - b|) := by
      rw [abs_mul]; exact mul_le_mul k3 s3 (abs_nonneg _) (by norm_num)
    have t := (abs_add_le ((series e a - series e b) + -((2 * e - 1 / 4 * e ^ 3) * (Real.sin a - Real.sin b)) +
        -(5 / 4 * e ^ 2 * (Real.sin (2 * a) - Real.sin (2 * b)))) (-(13 / 12 * e ^ 3 * (Real.sin (3 * a) - Real.sin (3 * b))))).trans
      (add_le_add (abs_add_three _ _ _) le_rfl)
    rw [← eq, abs_neg, abs_neg, abs_neg] at t
    have := abs_nonneg (a - b)
    generalize |a - b| = A at *
    norm_num at *
    linarith
  rw [meanToTrue_series, meanToTrue_series]
  have h := key (radians x) (radians y)
  unfold degrees
  rw [← sub_mul, abs_mul, abs_of_pos (show 0 < 180 / Real.pi by positivity)]
  have r : radians x - radians y = (x - y) * (Real.pi / 180) := by unfold radians; ring
  rw [r, abs_mul, abs_of_pos (show 0 < Real.pi / 180 by positivity)] at h
  calc 0.08 * |x - y| = 0.08 * (|x - y| * (Real.pi / 180)) * (180 / Real.pi) := by field_simp
    _ ≤ _ := mul_le_mul_of_nonneg_right h (by positivity)

/-- Multiples of equal parts of a turn that are the same within a millionth of a degree are the same multiples. -/
theorem slots_distinct {p k l : Nat} (hp : (p : ℝ) ≤ 1e8) (hk : k < p) (hl : l < p) {x : ℝ}
    (h : SameWithin 1e-6 (x + k * (360 / p)) (x + l * (360 / p))) : k = l := by
  obtain ⟨s, hs⟩ := h
  have p0 : (0 : ℝ) < p := by exact_mod_cast (show 0 < p by omega)
  have e : x + k * (360 / p) - (x + l * (360 / p) + 360 * s) = (360 / p) * ((k - l - p * s : ℤ) : ℝ) := by
    push_cast; field_simp; ring
  rw [e, abs_mul, abs_of_pos (by positivity)] at hs
  have u : 3.6e-6 ≤ 360 / (p : ℝ) := by
    rw [le_div_iff₀ p0]
    have : (3.6e-6 : ℝ) * p ≤ 3.6e-6 * 1e8 := mul_le_mul_of_nonneg_left hp (by norm_num)
    exact this.trans (by norm_num)
  have z : (k - l - p * s : ℤ) = 0 := by
    by_contra hne
    have h1 : (1 : ℝ) ≤ |((k - l - p * s : ℤ) : ℝ)| := by exact_mod_cast Int.one_le_abs hne
    have := mul_le_mul u h1 (by norm_num) (by positivity)
    norm_num at *; linarith
  have hst : s = 0 := by
    by_contra hne
    rcases lt_or_gt_of_ne hne with h | h
    · have : (p : ℤ) * s ≤ -p := by nlinarith
      omega
    · have : (p : ℤ) ≤ p * s := by nlinarith
      omega
  rw [hst] at z
  omega

/-- C183: up to an eccentricity of 0.3 no two members of the constellation share an orbit: they differ in the right ascension of
the ascending node or in the anomaly. -/
theorem C183_distinct {I : Type} (w : Walker I) (hw : Walker.Accepted w) (hn : w.satellites ≤ 10 ^ 8) (hp : w.planes ≤ 2700)
    (o : Keplerian) (hv : Keplerian.Valid o) (hd : IsDouble o.eccentricity) (he : o.eccentricity ≤ 0.3) (hs : Started o)
    (members : List (Satellite I)) (hm : keplerianWalkerMembers o w = .ok members)
    (i j : Nat) (c d : Keplerian) (m m' : Satellite I) (hi : members[i]? = some m) (hj : members[j]? = some m')
    (hc : m.orbit = .keplerian c) (hd' : m'.orbit = .keplerian d) (hne : i ≠ j) :
    c.raan ≠ d.raan ∨ c.trueAnomaly ≠ d.trueAnomaly := by
  have hn' : w.satellites ≤ 10 ^ 9 := hn.trans (by norm_num)
  obtain ⟨f, hf, hg⟩ := C183_members_partial w hw hn' hp o hv hd (by norm_num at *; linarith) hs
  rw [hm, Except.ok.injEq] at hf
  subst hf
  simp only [List.getElem?_map, Option.map_eq_some_iff, List.getElem?_eq_some_iff, List.length_range, List.getElem_range] at hi hj
  obtain ⟨_, ⟨hi, rfl⟩, rfl⟩ := hi
  obtain ⟨_, ⟨hj, rfl⟩, rfl⟩ := hj
  simp only [Lead.keplerian.injEq] at hc hd'
  subst hc hd'
  obtain ⟨-, -, -, -, -, -, ta, ra⟩ := hg i hi
  obtain ⟨-, -, -, -, -, -, tb, rb⟩ := hg j hj
  obtain ⟨-, q0, q1, q2⟩ := perPlane_eq w hw hn'
  by_contra hcon
  push Not at hcon
  obtain ⟨e1, e2⟩ := hcon
  have r5 : (w.satellites : ℝ) ≤ 1e8 := by norm_num; exact_mod_cast hn
  have r6 : (w.planes : ℝ) ≤ w.satellites := by exact_mod_cast hw.1.2
  have r9 : (perPlane w.satellites w.planes : ℝ) ≤ w.satellites := by exact_mod_cast q2
  unfold slotNode at ra rb
  unfold slotAnomaly at ta tb
  generalize perPlane w.satellites w.planes = q at *
  have di : i / q < w.planes := by rw [Nat.div_lt_iff_lt_mul q0]; omega
  have dj : j / q < w.planes := by rw [Nat.div_lt_iff_lt_mul q0]; omega
  have planes : i / q = j / q := by
    obtain ⟨s, hs'⟩ := ra
    obtain ⟨t, ht'⟩ := rb
    rw [e1] at hs'
    cases hst : w.star
    · simp only [hst, Bool.false_eq_true, if_false] at hs' ht'
      refine slots_distinct (x := o.raan) (r6.trans r5) di dj ⟨t - s, ?_⟩
      have a1 := abs_le.mp hs'
      have a2 := abs_le.mp ht'
      push_cast
      norm_num at *
      rw [abs_le]; constructor <;> linarith
    · simp only [hst, if_true] at hs' ht'
      have p0 : (0 : ℝ) < w.planes := by exact_mod_cast (show 0 < w.planes from lt_of_le_of_lt (Nat.zero_le _) di)
      have r7 : (w.planes : ℝ) ≤ 2700 := by exact_mod_cast hp
      have r8 : ((2 * w.planes : Nat) : ℝ) ≤ 1e8 := by push_cast; norm_num; linarith
      refine slots_distinct (p := 2 * w.planes) (x := o.raan) r8 (by omega) (by omega) ⟨t - s, ?_⟩
      have g : (360 : ℝ) / ((2 * w.planes : Nat) : ℝ) = 180 / w.planes := by push_cast; field_simp; norm_num
      rw [g]
      have a1 := abs_le.mp hs'
      have a2 := abs_le.mp ht'
      push_cast
      norm_num at *
      rw [abs_le]; constructor <;> linarith
  rw [← planes] at tb
  have slots : i % q = j % q := by
    obtain ⟨s, hs'⟩ := ta
    obtain ⟨t, ht'⟩ := tb
    rw [e2, ← meanToTrue_turns] at hs'
    rw [← meanToTrue_turns] at ht'
    have L := meanToTrue_apart hv.2.1 he
      (Orbit.trueToMean o.trueAnomaly o.eccentricity + ((i % q : Nat) * (360 / q) + (i / q : Nat) * (360 * w.spacing / w.satellites)) + 360 * s)
      (Orbit.trueToMean o.trueAnomaly o.eccentricity + ((j % q : Nat) * (360 / q) + (i / q : Nat) * (360 * w.spacing / w.satellites)) + 360 * t)
    refine slots_distinct (x := Orbit.trueToMean o.trueAnomaly o.eccentricity + (i / q : Nat) * (360 * w.spacing / w.satellites))
      (r9.trans r5) (Nat.mod_lt _ q0) (Nat.mod_lt _ q0) ⟨t - s, ?_⟩
    have B : |Orbit.meanToTrue (Orbit.trueToMean o.trueAnomaly o.eccentricity + ((i % q : Nat) * (360 / q) + (i / q : Nat) * (360 * w.spacing / w.satellites)) + 360 * s) o.eccentricity -
        Orbit.meanToTrue (Orbit.trueToMean o.trueAnomaly o.eccentricity + ((j % q : Nat) * (360 / q) + (i / q : Nat) * (360 * w.spacing / w.satellites)) + 360 * t) o.eccentricity| ≤ 6e-8 := by
      have a1 := abs_le.mp hs'
      have a2 := abs_le.mp ht'
      norm_num at *
      rw [abs_le]; constructor <;> linarith
    have C := L.trans B
    have D : Orbit.trueToMean o.trueAnomaly o.eccentricity + (i / q : Nat) * (360 * w.spacing / w.satellites) + (i % q : Nat) * (360 / q) -
        (Orbit.trueToMean o.trueAnomaly o.eccentricity + (i / q : Nat) * (360 * w.spacing / w.satellites) + (j % q : Nat) * (360 / q) + 360 * ((t - s : ℤ) : ℝ)) =
        (Orbit.trueToMean o.trueAnomaly o.eccentricity + ((i % q : Nat) * (360 / q) + (i / q : Nat) * (360 * w.spacing / w.satellites)) + 360 * s) -
        (Orbit.trueToMean o.trueAnomaly o.eccentricity + ((j % q : Nat) * (360 / q) + (i / q : Nat) * (360 * w.spacing / w.satellites)) + 360 * t) := by
      push_cast; ring
    rw [D]
    refine (le_of_mul_le_mul_left (a := (0.08 : ℝ)) ?_ (by norm_num))
    exact C.trans (by norm_num)
  apply hne
  rw [← Nat.div_add_mod i q, ← Nat.div_add_mod j q, planes, slots]

/-- A delta pattern of 24 satellites in 6 planes with spacing 1 around an orbit with eccentricity one quarter, at perigee. -/
example : Walker.Accepted (I := Unit) ⟨[], .keplerian ⟨⟨700000, 0, 0, 50, 0⟩, 1 / 4, 270⟩, (), false, 24, 6, 1⟩ ∧
    Keplerian.Valid ⟨⟨700000, 0, 0, 50, 0⟩, 1 / 4, 270⟩ ∧ IsDouble (1 / 4 : ℝ) ∧ Started ⟨⟨700000, 0, 0, 50, 0⟩, 1 / 4, 270⟩ := by
  refine ⟨⟨⟨by norm_num, by norm_num⟩, by norm_num⟩, ⟨⟨⟨?_, ?_⟩, ⟨?_, ?_⟩, ?_, ?_⟩, ?_, ?_, ?_⟩, ⟨1, -2, ?_, ?_, ?_⟩, .inr (.inr (.inl rfl))⟩ <;>
    norm_num

end Tatc.Props
