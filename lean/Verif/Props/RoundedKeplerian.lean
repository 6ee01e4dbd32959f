import Verif.Props.RoundedAnomaly
import Verif.Props.RoundedWalker
import Verif.Props.Derived
import Verif.Model.IeeeDerived

/-! C182: derived Keplerian orbits in double precision. -/

namespace Tatc.Props
open Tatc Tatc.Num Tatc.Ieee Tatc.Spec Tatc.Orbit

/-- `series_upper` with a margin. -/
theorem series_margin (e m : ℝ) (he0 : 0 ≤ e) (he1 : e ≤ 1) (hm0 : 0 ≤ m) (hm1 : m ≤ Real.pi) : series e m ≤ 6 := by
  have hs := Real.sin_nonneg_of_nonneg_of_le_pi hm0 hm1
  have hs1 := Real.sin_le_one m
  have hsc := Real.sin_sq_add_cos_sq m
  have hpi := Real.pi_gt_d2
  have hpi' := Real.pi_lt_d2
  rw [series_eq]
  set s := Real.sin m
  set c := Real.cos m with hc
  have h1 : 2 * e - 4 / 3 * e ^ 3 ≤ 0.95 := by
    nlinarith [mul_nonneg (sq_nonneg (e - 0.7071)) (by linarith : (0 : ℝ) ≤ e + 1.4142)]
  have h1' : s * (2 * e - 4 / 3 * e ^ 3) ≤ 0.95 := by
    by_cases h : 0 ≤ 2 * e - 4 / 3 * e ^ 3
    · calc s * (2 * e - 4 / 3 * e ^ 3) ≤ 1 * (2 * e - 4 / 3 * e ^ 3) := mul_le_mul_of_nonneg_right hs1 h
        _ ≤ 0.95 := by linarith
    · have := mul_nonpos_of_nonneg_of_nonpos hs (by linarith : 2 * e - 4 / 3 * e ^ 3 ≤ 0)
      linarith
  have he3 : e ^ 3 ≤ 1 := pow_le_one₀ he0 he1
  have he2 : e ^ 2 ≤ 1 := pow_le_one₀ he0 he1
  have he3' : 0 ≤ e ^ 3 := by positivity
  have he2' : 0 ≤ e ^ 2 := by positivity
  have h3 : s * (13 / 3 * e ^ 3 * c ^ 2) ≤ 26 / 15 := by
    have hk := sin_cos_sq s c hsc hs
    have hk0 : 0 ≤ s * c ^ 2 := by positivity
    have : e ^ 3 * (s * c ^ 2) ≤ 1 * (2 / 5) := mul_le_mul he3 hk hk0 (by norm_num)
    nlinarith
  rcases le_total m (Real.pi / 2) with hq | hq
  · have hcn : 0 ≤ c := Real.cos_nonneg_of_neg_pi_div_two_le_of_le (by linarith) hq
    have h2 : s * (5 / 2 * e ^ 2 * c) ≤ 5 / 4 := by
      have hk : s * c ≤ 1 / 2 := by nlinarith [sq_nonneg (s - c)]
      have hk0 : 0 ≤ s * c := mul_nonneg hs hcn
      have : e ^ 2 * (s * c) ≤ 1 * (1 / 2) := mul_le_mul he2 hk hk0 (by norm_num)
      nlinarith
    nlinarith
  · have hcn : c ≤ 0 := Real.cos_nonpos_of_pi_div_two_le_of_le hq (by linarith)
    have h2 : s * (5 / 2 * e ^ 2 * c) ≤ 0 :=
      mul_nonpos_of_nonneg_of_nonpos hs (mul_nonpos_of_nonneg_of_nonpos (by positivity) hcn)
    nlinarith

/-- The exact conversion stays away from the ends of the turn. -/
theorem exact_margin {x e : ℝ} (he0 : 0 ≤ e) (he1 : e ≤ 1) (h0 : 0 ≤ x) (h1 : x ≤ 360) :
    (x ≤ 180 → x ≤ Orbit.meanToTrue x e ∧ Orbit.meanToTrue x e ≤ 350) ∧
    (180 ≤ x → 10 ≤ Orbit.meanToTrue x e ∧ Orbit.meanToTrue x e ≤ x) := by
  have hp := Real.pi_pos
  have p1 := Real.pi_gt_d2
  have dr : degrees (radians x) = x := by unfold degrees radians; field_simp
  have hr0 : 0 ≤ radians x := mul_nonneg h0 (by positivity)
  have dm : ∀ a b : ℝ, a ≤ b → degrees a ≤ degrees b := fun a b h => mul_le_mul_of_nonneg_right h (by positivity)
  have d6 : degrees 6 ≤ 350 := by
    unfold degrees
    rw [← mul_div_assoc, div_le_iff₀ hp]; linarith
  have dt : ∀ a : ℝ, degrees (2 * Real.pi - a) = 360 - degrees a := by
    intro a; unfold degrees; field_simp; ring
  rw [meanToTrue_series]
  constructor
  · intro h
    have hr1 : radians x ≤ Real.pi := by
      unfold radians
      calc x * (Real.pi / 180) ≤ 180 * (Real.pi / 180) := mul_le_mul_of_nonneg_right h (by positivity)
        _ = Real.pi := by ring
    have a := dm _ _ (series_lower e _ he0 he1 hr0 hr1)
    have b := dm _ _ (series_margin e _ he0 he1 hr0 hr1)
    rw [dr] at a
    exact ⟨a, b.trans d6⟩
  · intro h
    have hr1 : Real.pi ≤ radians x := by
      unfold radians
      calc Real.pi = 180 * (Real.pi / 180) := by ring
        _ ≤ x * (Real.pi / 180) := mul_le_mul_of_nonneg_right h (by positivity)
    have hr2 : radians x ≤ 2 * Real.pi := by
      unfold radians
      calc x * (Real.pi / 180) ≤ 360 * (Real.pi / 180) := mul_le_mul_of_nonneg_right h1 (by positivity)
        _ = 2 * Real.pi := by ring
    have a := dm _ _ (series_lower e (2 * Real.pi - radians x) he0 he1 (by linarith) (by linarith))
    have b := dm _ _ (series_margin e (2 * Real.pi - radians x) he0 he1 (by linarith) (by linarith))
    rw [series_reflect, dt, dt, dr] at a
    rw [series_reflect, dt] at b
    constructor <;> linarith

theorem cube_le {e : ℝ} (hd : IsDouble e) (h0 : 0 ≤ e) (h1 : e ≤ 1) : 0 ≤ cube e ∧ cube e ≤ e := by
  unfold cube
  have a0 : 0 ≤ fl (e * e) := le_fl double_zero (mul_nonneg h0 h0)
  have a1 : fl (e * e) ≤ e := fl_le hd (by nlinarith)
  exact ⟨le_fl double_zero (mul_nonneg a0 h0), fl_le hd (by nlinarith)⟩

/-- The coefficients of the series are not negative. -/
theorem coefficients {e : ℝ} (hd : IsDouble e) (h0 : 0 ≤ e) (h1 : e ≤ 1) :
    0 ≤ fl (fl (2 * e) - fl (1 / 4 * cube e)) ∧ 0 ≤ fl (5 / 4 * fl (e * e)) ∧ 0 ≤ fl (fl (13 / 12) * cube e) := by
  obtain ⟨c0, c1⟩ := cube_le hd h0 h1
  refine ⟨le_fl double_zero (sub_nonneg.mpr (fl_mono (by linarith))),
    le_fl double_zero (mul_nonneg (by norm_num) (le_fl double_zero (mul_nonneg h0 h0))),
    le_fl double_zero (mul_nonneg (le_fl double_zero (by norm_num)) c0)⟩


theorem radian_nonneg : 0 ≤ radianFactor := by unfold radianFactor; positivity

/-- Close to the beginning of the turn. -/
theorem series_begin {x e : ℝ} (hd : IsDouble e) (he0 : 0 ≤ e) (he1 : e ≤ 1) (h0 : 0 ≤ x) (h1 : x ≤ 1) :
    0 ≤ Ieee.meanToTrue x e := by
  obtain ⟨c1, c2, c3⟩ := coefficients hd he0 he1
  have hp := Real.pi_gt_d2
  unfold Ieee.meanToTrue
  simp only []
  have m0 : 0 ≤ fl (x * radianFactor) := fl_nonneg (mul_nonneg h0 radian_nonneg)
  have m1 : fl (x * radianFactor) ≤ 1 := fl_le double_one (by
    calc x * radianFactor ≤ 1 * radianFactor := mul_le_mul_of_nonneg_right h1 radian_nonneg
      _ ≤ 1 := by unfold radianFactor; norm_num)
  generalize fl (x * radianFactor) = m at *
  have d2 : IsDouble (2 : ℝ) := by exact_mod_cast double_int (n := 2) (by norm_num)
  have d3 : IsDouble (3 : ℝ) := by exact_mod_cast double_int (n := 3) (by norm_num)
  have s1 : 0 ≤ Real.sin m := Real.sin_nonneg_of_nonneg_of_le_pi m0 (by linarith)
  have s2 : 0 ≤ Real.sin (fl (2 * m)) :=
    Real.sin_nonneg_of_nonneg_of_le_pi (fl_nonneg (by linarith)) ((fl_le d2 (by linarith)).trans (by linarith))
  have s3 : 0 ≤ Real.sin (fl (3 * m)) :=
    Real.sin_nonneg_of_nonneg_of_le_pi (fl_nonneg (by linarith)) ((fl_le d3 (by linarith)).trans (by linarith))
  have t1 := fl_nonneg (mul_nonneg c1 (fl_nonneg s1))
  have t2 := fl_nonneg (mul_nonneg c2 (fl_nonneg s2))
  have t3 := fl_nonneg (mul_nonneg c3 (fl_nonneg s3))
  exact fl_nonneg (mul_nonneg (fl_nonneg (add_nonneg (fl_nonneg (add_nonneg (fl_nonneg (add_nonneg m0 t1)) t2)) t3)) factor_pos)

/-- Close to the end of the turn. -/
theorem series_end {x e : ℝ} (hd : IsDouble e) (he0 : 0 ≤ e) (he1 : e ≤ 1) (h0 : 359 ≤ x) (h1 : x ≤ 360 - 1 / 2 ^ 44) :
    Ieee.meanToTrue x e < 360 := by
  obtain ⟨c1, c2, c3⟩ := coefficients hd he0 he1
  have p1 := Real.pi_gt_d20
  have p2 := Real.pi_lt_d20
  unfold Ieee.meanToTrue
  simp only []
  have e1 : fl ((360 - 1 / 2 ^ 44) * radianFactor) = (7074237752028439 : ℤ) * 2 ^ (-50 : ℤ) := by
    apply fl_eq_of (by norm_num) <;> unfold radianFactor
    · rw [abs_of_pos (by norm_num)]; norm_num
    · rw [abs_of_pos (by norm_num)]; norm_num
    · rw [abs_lt]; norm_num
  have e2 : fl ((7074237752028439 : ℤ) * 2 ^ (-50 : ℤ) * degreeFactor) = (6333186975989759 : ℤ) * 2 ^ (-44 : ℤ) := by
    apply fl_eq_of (by norm_num) <;> unfold degreeFactor
    · rw [abs_of_pos (by norm_num)]; norm_num
    · rw [abs_of_pos (by norm_num)]; norm_num
    · rw [abs_lt]; norm_num
  have e3 : fl (3 * ((7074237752028439 : ℤ) * 2 ^ (-50 : ℤ))) = (5305678314021329 : ℤ) * 2 ^ (-48 : ℤ) := by
    apply fl_eq_of (by norm_num)
    · rw [abs_of_pos (by norm_num)]; norm_num
    · rw [abs_of_pos (by norm_num)]; norm_num
    · rw [abs_lt]; norm_num
  have e4 : fl (2 * ((7074237752028439 : ℤ) * 2 ^ (-50 : ℤ))) = 2 * ((7074237752028439 : ℤ) * 2 ^ (-50 : ℤ)) :=
    fl_of_double ⟨7074237752028439, -49, by norm_num, by norm_num, by norm_num⟩
  have m1 : fl (x * radianFactor) ≤ (7074237752028439 : ℤ) * 2 ^ (-50 : ℤ) := by
    rw [← e1]; exact fl_mono (mul_le_mul_of_nonneg_right h1 radian_nonneg)
  have d6 : IsDouble (6 : ℝ) := by exact_mod_cast double_int (n := 6) (by norm_num)
  have d12 : IsDouble (12 : ℝ) := by exact_mod_cast double_int (n := 12) (by norm_num)
  have d18 : IsDouble (18 : ℝ) := by exact_mod_cast double_int (n := 18) (by norm_num)
  have m0 : 6 ≤ fl (x * radianFactor) := le_fl d6 (by
    calc (6 : ℝ) ≤ 359 * radianFactor := by unfold radianFactor; norm_num
      _ ≤ _ := mul_le_mul_of_nonneg_right h0 radian_nonneg)
  have md : IsDouble (fl (x * radianFactor)) := fl_double _
  generalize fl (x * radianFactor) = m at *
  have sn : ∀ (y : ℝ) (k : ℕ), y ≤ k * (2 * Real.pi) → k * (2 * Real.pi) - Real.pi ≤ y → Real.sin y ≤ 0 := by
    intro y k a b
    rw [← Real.sin_sub_nat_mul_two_pi y k]
    exact Real.sin_nonpos_of_nonpos_of_neg_pi_le (by linarith) (by linarith)
  have s1 : Real.sin m ≤ 0 := sn _ 1 (by norm_num at *; linarith) (by norm_num at *; linarith)
  have s2 : Real.sin (fl (2 * m)) ≤ 0 := by
    refine sn _ 2 ((fl_mono (show 2 * m ≤ _ from mul_le_mul_of_nonneg_left m1 (by norm_num))).trans ?_)
      (le_trans ?_ (le_fl d12 (by linarith)))
    · rw [e4]; norm_num at *; linarith
    · norm_num at *; linarith
  have s3 : Real.sin (fl (3 * m)) ≤ 0 := by
    refine sn _ 3 ((fl_mono (show 3 * m ≤ _ from mul_le_mul_of_nonneg_left m1 (by norm_num))).trans ?_)
      (le_trans ?_ (le_fl d18 (by linarith)))
    · rw [e3]; norm_num at *; linarith
    · norm_num at *; linarith
  have t1 := fl_nonpos (mul_nonpos_of_nonneg_of_nonpos c1 (fl_nonpos s1))
  have t2 := fl_nonpos (mul_nonpos_of_nonneg_of_nonpos c2 (fl_nonpos s2))
  have t3 := fl_nonpos (mul_nonpos_of_nonneg_of_nonpos c3 (fl_nonpos s3))
  have u1 := fl_le md (show m + fl (fl (fl (2 * e) - fl (1 / 4 * cube e)) * fl (Real.sin m)) ≤ m by linarith)
  have u2 := fl_le md (show fl (m + fl (fl (fl (2 * e) - fl (1 / 4 * cube e)) * fl (Real.sin m))) +
    fl (fl (5 / 4 * fl (e * e)) * fl (Real.sin (fl (2 * m)))) ≤ m by linarith)
  have u3 := fl_le md (show fl (fl (m + fl (fl (fl (2 * e) - fl (1 / 4 * cube e)) * fl (Real.sin m))) +
    fl (fl (5 / 4 * fl (e * e)) * fl (Real.sin (fl (2 * m))))) +
    fl (fl (fl (13 / 12) * cube e) * fl (Real.sin (fl (3 * m)))) ≤ m by linarith)
  refine lt_of_le_of_lt (fl_mono (mul_le_mul_of_nonneg_right (u3.trans m1) factor_pos)) ?_
  rw [e2]
  norm_num

/-- The conversion of a mean anomaly keeps the turn in double precision. -/
theorem rounded_inTurn {x e : ℝ} (hd : IsDouble e) (he0 : 0 ≤ e) (he1 : e ≤ 1) (h0 : 0 ≤ x) (h1 : x ≤ 360 - 1 / 2 ^ 44) :
    InTurn (Ieee.meanToTrue x e) := by
  have h2 : x ≤ 360 := by norm_num at *; linarith
  obtain ⟨a, b⟩ := exact_margin he0 he1 h0 h2
  have c := abs_le.mp (C178_true x e (by rw [abs_of_nonneg h0]; linarith) he0 he1)
  constructor
  · rcases le_total x 1 with h | h
    · exact series_begin hd he0 he1 h0 h
    · rcases le_total x 180 with h' | h'
      · have := (a h').1
        norm_num at *; linarith
      · have := (b h').1
        norm_num at *; linarith
  · rcases le_total 359 x with h | h
    · exact series_end hd he0 he1 h h1
    · rcases le_total x 180 with h' | h'
      · have := (a h').2
        norm_num at *; linarith
      · have := (b h').2
        norm_num at *; linarith

/-- C182, full statement: deriving from an accepted Keplerian orbit gives a valid orbit in double precision.  Proved, for
eccentricities up to one (C32 is false beyond), unless one of the two sums is less than `2⁻⁴⁵` degrees below a whole number
of turns. -/
theorem C182_valid_partial (o : Keplerian) (hv : Keplerian.Valid o) (hd : IsDouble o.eccentricity) (he : o.eccentricity ≤ 1)
    (dM dRaan : ℝ) (hM : ¬ JustBelow (fl (Ieee.trueToMean o.trueAnomaly o.eccentricity + dM)))
    (hR : ¬ JustBelow (fl (o.raan + dRaan))) :
    ∃ d, keplerianDerived o dM dRaan = .ok d ∧ Keplerian.Valid d ∧ d.altitude = o.altitude ∧ d.epoch = o.epoch ∧
      d.inclination = o.inclination ∧ d.eccentricity = o.eccentricity ∧ d.perigee = o.perigee := by
  obtain ⟨a1, a2, a3, a4⟩ := mod360_range _ (fl_double (Ieee.trueToMean o.trueAnomaly o.eccentricity + dM))
  obtain ⟨b1, b2, b3, -⟩ := mod360_range _ (fl_double (o.raan + dRaan))
  have ha := a4 (lt_of_le_of_ne a2 fun h => hM (a3.mp h))
  have hb := lt_of_le_of_ne b2 fun h => hR (b3.mp h)
  have ht := rounded_inTurn hd hv.2.1 he a1 ha
  exact ⟨_, (keplerian_make_ok _ _ _ _ _ _ _ _).mpr ⟨ht, hv.1.2.1, ⟨b1, hb⟩, hv.2.1, hv.2.2, rfl⟩,
    ⟨⟨ht, hv.1.2.1, b1, hb⟩, hv.2⟩, rfl, rfl, rfl, rfl, rfl⟩

/-- The series moves by at most nine times as much as its argument. -/
theorem series_lipschitz {e : ℝ} (he0 : 0 ≤ e) (he1 : e ≤ 1) (a b : ℝ) : |series e a - series e b| ≤ 9 * |a - b| := by
  have s1 := Real.abs_sin_sub_sin_le a b
  have s2 := Real.abs_sin_sub_sin_le (2 * a) (2 * b)
  have s3 := Real.abs_sin_sub_sin_le (3 * a) (3 * b)
  rw [← mul_sub, abs_mul] at s2 s3
  norm_num at s2 s3
  have k1 : |2 * e - 1 / 4 * e ^ 3| ≤ 2 := by
    have : e ^ 3 ≤ 1 := pow_le_one₀ he0 he1
    have : 0 ≤ e ^ 3 := by positivity
    have : e ^ 3 ≤ e := by nlinarith [mul_nonneg he0 (sub_nonneg.mpr (pow_le_one₀ (n := 2) he0 he1))]
    rw [abs_le]; constructor <;> linarith
  have k2 : |5 / 4 * e ^ 2| ≤ 5 / 4 := by
    have : e ^ 2 ≤ 1 := pow_le_one₀ he0 he1
    rw [abs_of_nonneg (by positivity)]; linarith
  have k3 : |13 / 12 * e ^ 3| ≤ 13 / 12 := by
    have : e ^ 3 ≤ 1 := pow_le_one₀ he0 he1
    rw [abs_of_nonneg (by positivity)]; linarith
  have eq : series e a - series e b = (a - b) + (2 * e - 1 / 4 * e ^ 3) * (Real.sin a - Real.sin b) +
      5 / 4 * e ^ 2 * (Real.sin (2 * a) - Real.sin (2 * b)) + 13 / 12 * e ^ 3 * (Real.sin (3 * a) - Real.sin (3 * b)) := by
    unfold series; ring
  rw [eq]
  refine (abs_add_le _ _).trans ?_
  have t1 := abs_add_three (a - b) ((2 * e - 1 / 4 * e ^ 3) * (Real.sin a - Real.sin b))
    (5 / 4 * e ^ 2 * (Real.sin (2 * a) - Real.sin (2 * b)))
  have m1 : |(2 * e - 1 / 4 * e ^ 3) * (Real.sin a - Real.sin b)| ≤ 2 * |a - b| := by
    rw [abs_mul]; exact mul_le_mul k1 s1 (abs_nonneg _) (by norm_num)
  have m2 : |5 / 4 * e ^ 2 * (Real.sin (2 * a) - Real.sin (2 * b))| ≤ 5 / 4 * (2 * |a - b|) := by
    rw [abs_mul]; exact mul_le_mul k2 s2 (abs_nonneg _) (by norm_num)
  have m3 : |13 / 12 * e ^ 3 * (Real.sin (3 * a) - Real.sin (3 * b))| ≤ 13 / 12 * (3 * |a - b|) := by
    rw [abs_mul]; exact mul_le_mul k3 s3 (abs_nonneg _) (by norm_num)
  linarith [abs_nonneg (a - b)]

theorem meanToTrue_turns (x e : ℝ) (k : ℤ) : Orbit.meanToTrue (x + 360 * k) e = Orbit.meanToTrue x e + 360 * k := by
  have hp := Real.pi_pos
  have r : radians (x + 360 * k) = radians x + k * (2 * Real.pi) := by unfold radians; ring
  rw [meanToTrue_series, meanToTrue_series, r, series_eq, series_eq, Real.sin_add_int_mul_two_pi, Real.cos_add_int_mul_two_pi]
  unfold degrees
  field_simp
  ring

theorem meanToTrue_lipschitz {e : ℝ} (he0 : 0 ≤ e) (he1 : e ≤ 1) (x y : ℝ) :
    |Orbit.meanToTrue x e - Orbit.meanToTrue y e| ≤ 9 * |x - y| := by
  have hp := Real.pi_pos
  rw [meanToTrue_series, meanToTrue_series]
  have h := series_lipschitz he0 he1 (radians x) (radians y)
  unfold degrees
  rw [← sub_mul, abs_mul, abs_of_pos (show 0 < 180 / Real.pi by positivity)]
  have r : radians x - radians y = (x - y) * (Real.pi / 180) := by unfold radians; ring
  rw [r, abs_mul, abs_of_pos (show 0 < Real.pi / 180 by positivity)] at h
  calc _ ≤ 9 * (|x - y| * (Real.pi / 180)) * (180 / Real.pi) := mul_le_mul_of_nonneg_right h (by positivity)
    _ = 9 * |x - y| := by field_simp

/-- C182: the angles of the derived orbit are the exact ones within `2·10⁻⁸` degrees (a couple of millimetres on the ground) and up to
whole turns, for increases up to a million degrees: the true anomaly is that of the mean anomaly of the orbit, increased. -/
theorem C182_close (o d : Keplerian) (hv : Keplerian.Valid o) (he : o.eccentricity ≤ 1) (dM dRaan : ℝ) (h1 : |dM| ≤ 1000000)
    (h2 : |dRaan| ≤ 1000000) (hd : keplerianDerived o dM dRaan = .ok d) :
    SameWithin 2e-8 d.trueAnomaly
      (Orbit.meanToTrue (Orbit.trueToMean o.trueAnomaly o.eccentricity + dM) o.eccentricity) ∧
    SameWithin 2e-9 d.raan (o.raan + dRaan) := by
  unfold keplerianDerived at hd
  obtain ⟨-, -, -, -, -, rfl⟩ := (keplerian_make_ok _ _ _ _ _ _ _ _).mp hd
  have he0 := hv.2.1
  have hν := hv.1.1
  constructor
  · show SameWithin 2e-8 (Ieee.meanToTrue (mod360 (fl (Ieee.trueToMean o.trueAnomaly o.eccentricity + dM))) o.eccentricity) _
    obtain ⟨a1, a2, -⟩ := mod360_range _ (fl_double (Ieee.trueToMean o.trueAnomaly o.eccentricity + dM))
    obtain ⟨k, hk⟩ := mod360_close (fl (Ieee.trueToMean o.trueAnomaly o.eccentricity + dM))
    have w := mean_close ((Within.exact (b := 720) (x := o.trueAnomaly) (by rw [abs_of_nonneg hν.1]; linarith [hν.2])).weaken
      (by norm_num) (by norm_num)) (abs_le.mpr ⟨by linarith, he⟩ : |o.eccentricity| ≤ 1)
    have wb := w.bound
    have wc := w.close
    have t := C178_true _ o.eccentricity (by rw [abs_of_nonneg a1]; linarith) he0 he
    have f := fl_close' (Ieee.trueToMean o.trueAnomaly o.eccentricity + dM)
    have L := meanToTrue_lipschitz he0 he (mod360 (fl (Ieee.trueToMean o.trueAnomaly o.eccentricity + dM)))
      (Orbit.trueToMean o.trueAnomaly o.eccentricity + dM + 360 * k)
    rw [meanToTrue_turns] at L
    refine ⟨k, ?_⟩
    generalize Ieee.meanToTrue _ _ = T at *
    generalize Orbit.meanToTrue (Orbit.trueToMean o.trueAnomaly o.eccentricity + dM) o.eccentricity = E at *
    generalize Orbit.meanToTrue _ _ = E' at *
    generalize Ieee.trueToMean o.trueAnomaly o.eccentricity = M' at *
    generalize Orbit.trueToMean o.trueAnomaly o.eccentricity = M at *
    generalize mod360 (fl (M' + dM)) = x at *
    have s := abs_add_le M' dM
    have c : |x - (M + dM + 360 * k)| ≤ 1e-9 := by
      have c1 := abs_le.mp hk
      have c2 := abs_le.mp f
      have c3 := abs_le.mp wc
      generalize |M' + dM| = S at *
      generalize |M'| = S' at *
      generalize |dM| = S'' at *
      rw [abs_le]
      norm_num at *
      constructor <;> linarith
    have c1 := abs_le.mp t
    have c2 := abs_le.mp L
    rw [abs_le]
    norm_num at *
    constructor <;> linarith
  · obtain ⟨k, hk⟩ := sum_close (a := o.raan) (c := o.raan) (by simp) hv.1.2.2.1 hv.1.2.2.2.le h2
    exact ⟨k, hk.trans (by norm_num)⟩

/-- Refuted: an eccentric orbit with its node at 0.3 degrees cannot be turned back by 0.1 + 0.2 degrees either, whatever the
increase of the mean anomaly. -/
theorem C182_valid_false : Keplerian.Valid ⟨⟨500000, 0, 0, 50, double03⟩, 1 / 2, 270⟩ ∧ IsDouble double03 ∧
    IsDouble double0102 ∧ ∀ dM d, keplerianDerived ⟨⟨500000, 0, 0, 50, double03⟩, 1 / 2, 270⟩ dM (-double0102) ≠ .ok d := by
  obtain ⟨hv, d1, d2, -⟩ := C140_backward_false
  refine ⟨⟨hv, by norm_num, by norm_num [InTurn]⟩, d1, d2, fun dM d h => ?_⟩
  have e : double03 + -double0102 = -2 ^ (-54 : ℤ) := by unfold double03 double0102; norm_num
  have hj : JustBelow (fl (double03 + -double0102)) := by
    rw [e, fl_of_double (double_neg (double_zpow (by norm_num)))]
    refine ⟨by norm_num, 0, ?_, ?_⟩ <;> norm_num
  have hm : mod360 (fl (double03 + -double0102)) = 360 := (mod360_range _ (fl_double _)).2.2.1.mpr hj
  obtain ⟨-, -, h3, -⟩ := (keplerian_make_ok _ _ _ _ _ _ _ _).mp h
  exact absurd h3.2 (by rw [hm]; norm_num)

/-- An orbit with eccentricity one half, moved on by ten degrees. -/
example : Keplerian.Valid ⟨⟨500000, 0, 0, 51.6, 10⟩, 1 / 2, 270⟩ ∧ IsDouble (1 / 2 : ℝ) ∧
    ¬ JustBelow (fl (Ieee.trueToMean 0 (1 / 2) + 10)) ∧ ¬ JustBelow (fl (10 + 20)) := by
  have z : Ieee.trueToMean 0 (1 / 2) = 0 := by
    unfold Ieee.trueToMean
    simp [fl_zero]
  refine ⟨⟨⟨⟨?_, ?_⟩, ⟨?_, ?_⟩, ?_, ?_⟩, ?_, ?_, ?_⟩, ⟨1, -1, ?_, ?_, ?_⟩, ?_, ?_⟩ <;> try norm_num
  · intro h
    rw [z] at h
    exact absurd h.1 (not_lt.mpr (fl_nonneg (by norm_num)))
  · intro h
    exact absurd h.1 (not_lt.mpr (fl_nonneg (by norm_num)))

end Tatc.Props
