import Verif.Props.RoundedSoc
import Verif.Props.FieldOfView
import Verif.Model.IeeeFov

/-! C176: fields of view of swaths survive rounding. -/

namespace Tatc.Props
open Tatc Tatc.Num Tatc.Ieee Tatc.Spec Tatc.Orbit

/-- Numbers of at most 8 are rounded by at most `10⁻¹⁵`. -/
theorem fl_eight {x : ℝ} (h : |x| ≤ 8) : |fl x - x| ≤ 1e-15 := by
  refine (fl_close x).trans ?_
  have h1 : (2 : ℝ) ^ (-1075 : ℤ) ≤ 2 ^ (-100 : ℤ) := two_zpow_le (by norm_num)
  norm_num at *
  linarith

/-- The central angle of the centre of view. -/
noncomputable def lookCentral (altitude look elevation : ℝ) : ℝ :=
  Real.pi / 2 - Real.arcsin (min (Geometry.sinRho altitude elevation) (Real.sin (radians look / 2))) -
    Real.arccos (min (Geometry.sinRho altitude elevation) (Real.sin (radians look / 2)) / Geometry.sinRho altitude elevation)

theorem central_close {altitude look : ℝ} (h : Viewing altitude 0) (h0 : 0 ≤ look) (h1 : look ≤ 180) :
    ∃ l, viewCentral altitude look 0 = some l ∧ |l| ≤ 5 ∧ |l - lookCentral altitude look 0| ≤ 3.6e-7 := by
  obtain ⟨w, hw, hc⟩ := C148_swath altitude 0 look h h0 h1
  have e : Ieee.forToSwath altitude look 0 =
      (viewCentral altitude look 0).map fun l => fl (fl (2 * fl (earthMeanRadius + 0)) * l) := by
    unfold Ieee.forToSwath viewCentral npArcsin npArccos
    simp only []
    split_ifs <;> rfl
  rw [e, Option.map_eq_some_iff] at hw
  obtain ⟨l, hl, hlw⟩ := hw
  have hpi := Real.pi_gt_three
  have hpi4 := Real.pi_lt_d4
  have l5 : |l| ≤ 5 := by
    unfold viewCentral npArcsin npArccos at hl
    simp only [] at hl
    split_ifs at hl
    · have hl' := Option.some.inj hl
      have a1 : ∀ x, -2 ≤ fl (Real.arcsin x) ∧ fl (Real.arcsin x) ≤ 2 := by
        intro x
        have p1 := Real.neg_pi_div_two_le_arcsin x
        have p2 := Real.arcsin_le_pi_div_two x
        constructor
        · exact_mod_cast le_fl (double_int (n := -2) (by norm_num)) (by push_cast; norm_num at *; linarith)
        · exact_mod_cast fl_le (double_int (n := 2) (by norm_num)) (by push_cast; norm_num at *; linarith)
      have a2 : ∀ x, 0 ≤ fl (Real.arccos x) ∧ fl (Real.arccos x) ≤ 4 := by
        intro x
        have p1 := Real.arccos_nonneg x
        have p2 := Real.arccos_le_pi x
        constructor
        · exact le_fl double_zero p1
        · exact_mod_cast fl_le (double_int (n := 4) (by norm_num)) (by push_cast; norm_num at *; linarith)
      rw [← hl']
      generalize min (Ieee.sinRho altitude 0) (sinHalf look) = s
      obtain ⟨b1, b2⟩ := a1 s
      obtain ⟨c1, c2⟩ := a2 (fl (s / Ieee.sinRho altitude 0))
      generalize fl (Real.arcsin s) = u at *
      generalize fl (Real.arccos (fl (s / Ieee.sinRho altitude 0))) = v at *
      have hp : 1 ≤ Ieee.pi / 2 ∧ Ieee.pi / 2 ≤ 2 := by unfold Ieee.pi; norm_num
      have d1 : -1 ≤ fl (Ieee.pi / 2 - u) := by
        exact_mod_cast le_fl (double_int (n := -1) (by norm_num)) (by push_cast; linarith [hp.1])
      have d2 : fl (Ieee.pi / 2 - u) ≤ 4 := by
        exact_mod_cast fl_le (double_int (n := 4) (by norm_num)) (by push_cast; linarith [hp.2])
      rw [abs_le]
      constructor
      · exact_mod_cast le_fl (double_int (n := -5) (by norm_num)) (by push_cast; linarith)
      · exact_mod_cast fl_le (double_int (n := 5) (by norm_num)) (by push_cast; linarith)
    all_goals exact absurd hl (by simp [bind, Option.bind])
  refine ⟨l, hl, l5, ?_⟩
  have hR := meanRadius_lt
  have hR2 := radius_near.2
  have ra := rel_axis (h := 0) (by norm_num)
  rw [add_zero meanRadius] at ra
  have rA : Rel 3 (fl (2 * fl (earthMeanRadius + 0))) (2 * meanRadius) :=
    (((Rel.refl (show (0 : ℝ) < 2 by norm_num)).mul ra).weaken (k := 2) (by norm_num)).fl' (by norm_num) (by norm_num at *; linarith)
  have hA := rA.few (by norm_num)
  have hA0 := rA.pos'
  have hfl := fl_close (fl (2 * fl (earthMeanRadius + 0)) * l)
  rw [hlw] at hfl
  have ex : Geometry.forToSwath altitude look 0 = 2 * meanRadius * lookCentral altitude look 0 := by
    unfold Geometry.forToSwath lookCentral
    simp only [add_zero]
  rw [ex, add_zero] at hc
  generalize fl (2 * fl (earthMeanRadius + 0)) = A at *
  generalize lookCentral altitude look 0 = L at *
  have hA1 : A ≤ 2 * meanRadius * 2 := by
    have := (abs_le.mp hA).2
    norm_num at *; linarith
  have hAl : |A * l| ≤ 2 * meanRadius * 2 * 5 := by
    rw [abs_mul, abs_of_pos hA0]
    exact mul_le_mul hA1 l5 (abs_nonneg _) (by linarith)
  have tiny : (2 : ℝ) ^ (-1075 : ℤ) ≤ 2 ^ (-100 : ℤ) := two_zpow_le (by norm_num)
  have m1 : |(A - 2 * meanRadius) * l| ≤ 2 * meanRadius * 1.2e-15 * 5 := by
    rw [abs_mul]
    exact mul_le_mul hA l5 (abs_nonneg _) (mul_nonneg (by linarith) (by norm_num))
  have key : 2 * meanRadius * (l - L) = (w - 2 * meanRadius * L) - (w - A * l) - (A - 2 * meanRadius) * l := by ring
  have tot : |2 * meanRadius * (l - L)| ≤ 2 * meanRadius * 3.6e-7 := by
    rw [key]
    refine (abs_sub _ _).trans ?_
    refine (add_le_add_left (abs_sub _ _) _).trans ?_
    norm_num at *
    linarith
  rw [abs_mul, abs_of_pos (by linarith : 0 < 2 * meanRadius)] at tot
  exact le_of_mul_le_mul_left tot (by linarith)

/-- The tangent of the angle from nadir is at most that of the horizon. -/
theorem edge_tan {k c s : ℝ} (hk0 : 0 ≤ k) (hk1 : k ≤ 0.9846) (hc : s ^ 2 + c ^ 2 = 1) (hc1 : c ≤ 1) :
    |k * s| ≤ 5.7 * (1 - k * c) := by
  have hD : 0 < 1 - k * c := by
    norm_num at hk1
    nlinarith
  refine abs_le_of_sq_le_sq ?_ (mul_nonneg (by norm_num) hD.le)
  have h1 : (k * s) ^ 2 = k ^ 2 * (1 - c ^ 2) := by rw [mul_pow]; rw [← hc]; ring
  rw [h1]
  have hk2 : k ^ 2 ≤ 0.9695 := by norm_num at hk1 ⊢; nlinarith
  norm_num at hk2 ⊢
  nlinarith [sq_nonneg (k * c * 33.49 - 32.49), sq_nonneg (k * c), sq_nonneg k]

theorem edge_close {k k' y y' : ℝ} (hk0 : 0.059 ≤ k) (hk1 : k ≤ 0.9846) (hk : |k' - k| ≤ 2e-15) (hy : |y' - y| ≤ 3.7e-7) :
    ∃ a, edgeAngle k' y' = some a ∧ |a| ≤ 2 ∧
      |a - Real.arctan (k * Real.sin y / (1 - k * Real.cos (Real.arcsin (Real.sin y))))| ≤ 2.4e-4 := by
  have hpi := Real.pi_gt_three
  have hpi4 := Real.pi_lt_d4
  have s0 : -1 ≤ fl (Real.sin y') := by
    exact_mod_cast le_fl (double_int (n := -1) (by norm_num)) (by push_cast; exact Real.neg_one_le_sin y')
  have s1 : fl (Real.sin y') ≤ 1 := fl_le double_one (Real.sin_le_one _)
  have hsf : |fl (Real.sin y') - Real.sin y'| ≤ 1e-15 := fl_eight ((Real.abs_sin_le_one y').trans (by norm_num))
  have hsy : |fl (Real.sin y') - Real.sin y| ≤ 3.8e-7 := by
    have a := Real.abs_sin_sub_sin_le y' y
    have b := abs_sub_le (fl (Real.sin y')) (Real.sin y') (Real.sin y)
    norm_num at *
    linarith
  -- the cosine
  have absc : ∀ z : ℝ, Real.cos (Real.arcsin (Real.sin z)) = |Real.cos z| := by
    intro z
    rw [Real.cos_arcsin, ← Real.cos_sq', Real.sqrt_sq_eq_abs]
  have hcc : abs (fl (Real.cos (fl (Real.arcsin (fl (Real.sin y'))))) - abs (Real.cos y)) ≤ 5.5e-7 := by
    have a1 : |fl (Real.arcsin (fl (Real.sin y'))) - Real.arcsin (fl (Real.sin y'))| ≤ 1e-15 := by
      refine fl_eight (abs_le.mpr ?_)
      have p1 := Real.neg_pi_div_two_le_arcsin (fl (Real.sin y'))
      have p2 := Real.arcsin_le_pi_div_two (fl (Real.sin y'))
      norm_num at *
      constructor <;> linarith
    have a2 := arcsin_small (hsf.trans (by norm_num))
    have a3 := Real.abs_cos_sub_cos_le (fl (Real.arcsin (fl (Real.sin y')))) (Real.arcsin (Real.sin y'))
    have a4 := Real.abs_cos_sub_cos_le y' y
    have a5 := abs_abs_sub_abs_le_abs_sub (Real.cos y') (Real.cos y)
    have a6 := fl_eight ((Real.abs_cos_le_one (fl (Real.arcsin (fl (Real.sin y'))))).trans (by norm_num))
    rw [absc y'] at a3
    have b1 := abs_sub_le (fl (Real.arcsin (fl (Real.sin y')))) (Real.arcsin (fl (Real.sin y'))) (Real.arcsin (Real.sin y'))
    have b2 := abs_sub_le (fl (Real.cos (fl (Real.arcsin (fl (Real.sin y')))))) (Real.cos (fl (Real.arcsin (fl (Real.sin y'))))) |Real.cos y|
    have b3 := abs_sub_le (Real.cos (fl (Real.arcsin (fl (Real.sin y'))))) |Real.cos y'| |Real.cos y|
    norm_num at *
    linarith
  refine ⟨fl (Real.arctan (fl (fl (k' * fl (Real.sin y')) /
      fl (1 - fl (k' * fl (Real.cos (fl (Real.arcsin (fl (Real.sin y')))))))))), ?_, ?_, ?_⟩
  · unfold edgeAngle npArcsin
    simp only []
    rw [if_pos ⟨s0, s1⟩]
    rfl
  · have p1 := Real.neg_pi_div_two_lt_arctan (fl (fl (k' * fl (Real.sin y')) /
      fl (1 - fl (k' * fl (Real.cos (fl (Real.arcsin (fl (Real.sin y')))))))))
    have p2 := Real.arctan_lt_pi_div_two (fl (fl (k' * fl (Real.sin y')) /
      fl (1 - fl (k' * fl (Real.cos (fl (Real.arcsin (fl (Real.sin y')))))))))
    rw [abs_le]
    constructor
    · exact_mod_cast le_fl (double_int (n := -2) (by norm_num)) (by push_cast; norm_num at *; linarith)
    · exact_mod_cast fl_le (double_int (n := 2) (by norm_num)) (by push_cast; norm_num at *; linarith)
  · rw [absc y]
    have hcy0 := abs_nonneg (Real.cos y)
    have hcy1 := Real.abs_cos_le_one y
    have hsc : Real.sin y ^ 2 + |Real.cos y| ^ 2 = 1 := by rw [sq_abs]; exact Real.sin_sq_add_cos_sq y
    have hs1 := Real.abs_sin_le_one y
    have htan := edge_tan (by norm_num at hk0; linarith) hk1 hsc hcy1
    have hs'1 : |fl (Real.sin y')| ≤ 1 := abs_le.mpr ⟨s0, s1⟩
    generalize fl (Real.cos (fl (Real.arcsin (fl (Real.sin y'))))) = c' at *
    generalize fl (Real.sin y') = s' at *
    generalize |Real.cos y| = c at *
    generalize Real.sin y = s at *
    have hc' : |c'| ≤ 1.1 := by
      have := abs_sub_abs_le_abs_sub c' c
      rw [abs_of_nonneg hcy0] at this
      norm_num at *; linarith
    have hk'1 : |k'| ≤ 1 := by
      have := abs_sub_abs_le_abs_sub k' k
      rw [abs_of_nonneg (by norm_num at hk0; linarith : 0 ≤ k)] at this
      norm_num at *; linarith
    have kpos : 0 ≤ k := by norm_num at hk0; linarith
    -- products
    have n1 : |k' * s' - k * s| ≤ 3.85e-7 := by
      have e : k' * s' - k * s = (k' - k) * s' + k * (s' - s) := by ring
      rw [e]
      refine (abs_add_le _ _).trans ?_
      rw [abs_mul, abs_mul, abs_of_nonneg kpos]
      have x1 : |k' - k| * |s'| ≤ 2e-15 * 1 := mul_le_mul hk hs'1 (abs_nonneg _) (by norm_num)
      have x2 : k * |s' - s| ≤ 1 * 3.8e-7 := mul_le_mul (by norm_num at hk1; linarith) hsy (abs_nonneg _) (by norm_num)
      norm_num at *; linarith
    have n1' : |k' * s'| ≤ 1 := by rw [abs_mul]; exact mul_le_one₀ hk'1 (abs_nonneg _) hs'1
    have n2 : |fl (k' * s') - k * s| ≤ 3.9e-7 := by
      have a := fl_eight (n1'.trans (by norm_num))
      have b := abs_sub_le (fl (k' * s')) (k' * s') (k * s)
      norm_num at *; linarith
    have m1 : |k' * c' - k * c| ≤ 5.55e-7 := by
      have e : k' * c' - k * c = (k' - k) * c' + k * (c' - c) := by ring
      rw [e]
      refine (abs_add_le _ _).trans ?_
      rw [abs_mul, abs_mul, abs_of_nonneg kpos]
      have x1 : |k' - k| * |c'| ≤ 2e-15 * 1.1 := mul_le_mul hk hc' (abs_nonneg _) (by norm_num)
      have x2 : k * |c' - c| ≤ 1 * 5.5e-7 := mul_le_mul (by norm_num at hk1; linarith) hcc (abs_nonneg _) (by norm_num)
      norm_num at *; linarith
    have m1' : |k' * c'| ≤ 1.1 := by
      rw [abs_mul]
      calc _ ≤ 1 * 1.1 := mul_le_mul hk'1 hc' (abs_nonneg _) (by norm_num)
        _ = _ := by norm_num
    have m2 : |fl (k' * c') - k * c| ≤ 5.56e-7 := by
      have a := fl_eight (m1'.trans (by norm_num))
      have b := abs_sub_le (fl (k' * c')) (k' * c') (k * c)
      norm_num at *; linarith
    have kc0 : 0 ≤ k * c := mul_nonneg kpos hcy0
    have kc1 : k * c ≤ 0.9846 := by
      calc k * c ≤ k * 1 := mul_le_mul_of_nonneg_left hcy1 kpos
        _ ≤ _ := by rw [mul_one]; exact hk1
    have d2 : |fl (1 - fl (k' * c')) - (1 - k * c)| ≤ 5.6e-7 := by
      have hb := abs_le.mp m2
      have a := fl_eight (x := 1 - fl (k' * c')) (by rw [abs_le]; norm_num at *; constructor <;> linarith)
      have a' := abs_le.mp a
      rw [abs_le]
      norm_num at *
      constructor <;> linarith
    have D0 : 0.0154 ≤ 1 - k * c := by norm_num at *; linarith
    generalize fl (k' * s') = N' at *
    generalize fl (1 - fl (k' * c')) = D' at *
    generalize 1 - k * c = D at *
    generalize k * s = N at *
    have D'0 : 0.01539 ≤ D' := by have := (abs_le.mp d2).1; norm_num at *; linarith
    have Dp : 0 < D := by norm_num at D0; linarith
    have D'p : 0 < D' := by norm_num at D'0; linarith
    have ht : |N / D| ≤ 5.7 := by rw [abs_div, abs_of_pos Dp, div_le_iff₀ Dp]; exact htan
    have q : |N' / D' - N / D| ≤ 2.35e-4 := by
      have e : N' / D' - N / D = ((N' - N) - N / D * (D' - D)) / D' := by field_simp; ring
      rw [e, abs_div, abs_of_pos D'p, div_le_iff₀ D'p]
      refine (abs_sub _ _).trans ?_
      rw [abs_mul]
      have x := mul_le_mul ht d2 (abs_nonneg _) (by norm_num)
      norm_num at *
      linarith
    have q2 : |N' / D'| ≤ 8 := by
      have := abs_sub_abs_le_abs_sub (N' / D') (N / D)
      norm_num at *; linarith
    have q3 := fl_eight q2
    have lip : ∀ u v : ℝ, |Real.arctan u - Real.arctan v| ≤ |u - v| := by
      intro u v
      have : LipschitzWith 1 Real.arctan := by
        refine lipschitzWith_of_nnnorm_deriv_le Real.differentiable_arctan fun x => ?_
        rw [Real.deriv_arctan, ← NNReal.coe_le_coe, coe_nnnorm, Real.norm_eq_abs, NNReal.coe_one, abs_of_pos (by positivity)]
        rw [div_le_one (by positivity)]
        linarith [sq_nonneg x]
      have h := this.dist_le_mul u v
      rw [NNReal.coe_one, one_mul, Real.dist_eq, Real.dist_eq] at h
      exact h
    have l1 := lip (fl (N' / D')) (N / D)
    have l2 : |fl (Real.arctan (fl (N' / D'))) - Real.arctan (fl (N' / D'))| ≤ 1e-15 := by
      refine fl_eight (abs_le.mpr ?_)
      have p1 := Real.neg_pi_div_two_lt_arctan (fl (N' / D'))
      have p2 := Real.arctan_lt_pi_div_two (fl (N' / D'))
      norm_num at *
      constructor <;> linarith
    have t1 := abs_sub_le (fl (N' / D')) (N' / D') (N / D)
    have t2 := abs_sub_le (fl (Real.arctan (fl (N' / D')))) (Real.arctan (fl (N' / D'))) (Real.arctan (N / D))
    norm_num at *
    linarith

/-- C176: for every altitude of 100 to 100000 km, every swath of at most 50000 km and every look angle of 0 to 180 degrees the
field of view that is computed in double precision is a number and within 0.03 degrees of the exact one (C94). -/
theorem C176_field_of_view (altitude swath look : ℝ) (h0 : 100000 ≤ altitude) (h1 : altitude ≤ 100000000) (s0 : 0 ≤ swath)
    (s1 : swath ≤ 50000000) (l0 : 0 ≤ look) (l1 : look ≤ 180) :
    ∃ f, Ieee.swathToFov altitude swath look 0 = some f ∧ |f - Geometry.swathToFov altitude swath look 0| ≤ 0.03 := by
  have hv : Viewing altitude 0 := ⟨by norm_num, by linarith, by linarith⟩
  obtain ⟨l, hl, l5, hlc⟩ := central_close hv l0 l1
  have hR := meanRadius_lt
  have hR2 := radius_near.2
  have hpi := Real.pi_gt_three
  have hpi4 := Real.pi_lt_d4
  have k1 : 0.059 ≤ Geometry.sinRho altitude 0 := by
    unfold Geometry.sinRho; rw [le_div_iff₀ (by linarith)]; norm_num; linarith
  have k2 : Geometry.sinRho altitude 0 ≤ 0.9846 := by
    unfold Geometry.sinRho; rw [div_le_iff₀ (by linarith)]; norm_num; linarith
  have kk : |Ieee.sinRho altitude 0 - Geometry.sinRho altitude 0| ≤ 2e-15 := by
    obtain ⟨a, b⟩ := rho_near hv
    rw [abs_le]; norm_num at *; constructor <;> linarith
  -- half of the swath
  have hx : |fl (fl (swath / 2) / fl (earthMeanRadius + 0)) - swath / 2 / meanRadius| ≤ 1e-13 ∧ swath / 2 / meanRadius ≤ 3.95 := by
    have x1 : swath / 2 / meanRadius ≤ 3.95 := by rw [div_le_iff₀ (by linarith)]; norm_num at *; linarith
    refine ⟨?_, x1⟩
    have hb := sum_near (h := 0) (by norm_num)
    rw [add_zero meanRadius] at hb
    obtain ⟨b1, b2⟩ := hb
    have hf := fl_close (swath / 2)
    rw [abs_of_nonneg (by linarith : 0 ≤ swath / 2)] at hf
    have tiny : (2 : ℝ) ^ (-1075 : ℤ) ≤ 2 ^ (-100 : ℤ) := two_zpow_le (by norm_num)
    set B := fl (earthMeanRadius + 0) with hB
    have Bp : 6371000 ≤ B := by norm_num at *; linarith
    have y : |fl (swath / 2) / B - swath / 2 / meanRadius| ≤ 2e-14 := by
      have e : fl (swath / 2) / B - swath / 2 / meanRadius =
          ((fl (swath / 2) - swath / 2) - swath / 2 / meanRadius * (B - meanRadius)) / B := by
        have : B ≠ 0 := by linarith
        have : meanRadius ≠ 0 := by linarith
        field_simp; ring
      rw [e, abs_div, abs_of_pos (by linarith : 0 < B), div_le_iff₀ (by linarith)]
      refine (abs_sub _ _).trans ?_
      have x0 : 0 ≤ swath / 2 / meanRadius := div_nonneg (by linarith) (by linarith)
      have hBm : |B - meanRadius| ≤ meanRadius * 4e-16 := by
        rw [abs_le]; norm_num at *; constructor <;> linarith
      have m : |swath / 2 / meanRadius * (B - meanRadius)| ≤ 3.95 * (meanRadius * 4e-16) := by
        rw [abs_mul, abs_of_nonneg x0]
        exact mul_le_mul x1 hBm (abs_nonneg _) (by norm_num)
      norm_num at *
      linarith
    have y8 : |fl (swath / 2) / B| ≤ 8 := by
      have a := abs_sub_abs_le_abs_sub (fl (swath / 2) / B) (swath / 2 / meanRadius)
      rw [abs_of_nonneg (div_nonneg (by linarith) (by linarith) : 0 ≤ swath / 2 / meanRadius)] at a
      norm_num at *; linarith
    have a := fl_eight y8
    have b := abs_sub_le (fl (fl (swath / 2) / B)) (fl (swath / 2) / B) (swath / 2 / meanRadius)
    norm_num at *
    linarith
  obtain ⟨hx, hx1⟩ := hx
  have hx0 : 0 ≤ swath / 2 / meanRadius := div_nonneg (by linarith) (by linarith)
  set L := lookCentral altitude look 0 with hL
  set x := swath / 2 / meanRadius with hxd
  set x' := fl (fl (swath / 2) / fl (earthMeanRadius + 0)) with hx'
  have hl5 := abs_le.mp l5
  have hxb := abs_le.mp hx
  have hlb := abs_le.mp hlc
  have y1 : |fl (l - x') - (L - x)| ≤ 3.7e-7 := by
    have a := fl_close (l - x')
    have tiny : (2 : ℝ) ^ (-1075 : ℤ) ≤ 2 ^ (-100 : ℤ) := two_zpow_le (by norm_num)
    have c : |l - x'| ≤ 10 := by rw [abs_le]; norm_num at *; constructor <;> linarith
    have b : |fl (l - x') - (l - x')| ≤ 1e-14 := by norm_num at *; linarith
    have b' := abs_le.mp b
    rw [abs_le]; norm_num at *; constructor <;> linarith
  have y2 : |fl (l + x') - (L + x)| ≤ 3.7e-7 := by
    have a := fl_close (l + x')
    have tiny : (2 : ℝ) ^ (-1075 : ℤ) ≤ 2 ^ (-100 : ℤ) := two_zpow_le (by norm_num)
    have c : |l + x'| ≤ 10 := by rw [abs_le]; norm_num at *; constructor <;> linarith
    have b : |fl (l + x') - (l + x')| ≤ 1e-14 := by norm_num at *; linarith
    have b' := abs_le.mp b
    rw [abs_le]; norm_num at *; constructor <;> linarith
  obtain ⟨a1, ha1, a1b, a1c⟩ := edge_close k1 k2 kk y1
  obtain ⟨a2, ha2, a2b, a2c⟩ := edge_close k1 k2 kk y2
  refine ⟨fl (fl (a2 - a1) * degreeFactor), ?_, ?_⟩
  · unfold Ieee.swathToFov
    simp only [hl, ← hx', Option.bind_eq_bind, Option.bind_some, ha1, ha2]
    rfl
  · have ex : Geometry.swathToFov altitude swath look 0 =
        degrees (Real.arctan (Geometry.sinRho altitude 0 * Real.sin (L + x) /
          (1 - Geometry.sinRho altitude 0 * Real.cos (Real.arcsin (Real.sin (L + x))))) -
          Real.arctan (Geometry.sinRho altitude 0 * Real.sin (L - x) /
          (1 - Geometry.sinRho altitude 0 * Real.cos (Real.arcsin (Real.sin (L - x)))))) := by
      unfold Geometry.swathToFov
      simp only [add_zero]
      rfl
    rw [ex]
    generalize Real.arctan (Geometry.sinRho altitude 0 * Real.sin (L + x) /
          (1 - Geometry.sinRho altitude 0 * Real.cos (Real.arcsin (Real.sin (L + x))))) = A2 at *
    generalize Real.arctan (Geometry.sinRho altitude 0 * Real.sin (L - x) /
          (1 - Geometry.sinRho altitude 0 * Real.cos (Real.arcsin (Real.sin (L - x))))) = A1 at *
    have b1 := abs_le.mp a1b
    have b2 := abs_le.mp a2b
    have c1 := abs_le.mp a1c
    have c2 := abs_le.mp a2c
    have d := fl_eight (x := a2 - a1) (by rw [abs_le]; constructor <;> linarith)
    have d' := abs_le.mp d
    have e1 : |fl (a2 - a1) - (A2 - A1)| ≤ 4.9e-4 := by
      rw [abs_le]; norm_num at *; constructor <;> linarith
    have e2 : |fl (a2 - a1)| ≤ 5 := by rw [abs_le]; norm_num at *; constructor <;> linarith
    have F1 : degreeFactor ≤ 57.3 := by unfold degreeFactor; norm_num
    have F0 : 0 < degreeFactor := by unfold degreeFactor; positivity
    have F2 : |degreeFactor - 180 / Real.pi| ≤ 3e-5 := by
      have p1 : 180 / Real.pi ≤ 57.2958 := by rw [div_le_iff₀ (by linarith)]; have := Real.pi_gt_d6; norm_num at *; linarith
      have p2 : 57.29577 ≤ 180 / Real.pi := by rw [le_div_iff₀ (by linarith)]; have := Real.pi_lt_d6; norm_num at *; linarith
      rw [abs_le]; unfold degreeFactor; norm_num at *; constructor <;> linarith
    have F3 : |180 / Real.pi| ≤ 57.3 := by
      rw [abs_of_pos (by positivity), div_le_iff₀ (by linarith)]; have := Real.pi_gt_d6; norm_num at *; linarith
    have g := fl_close (fl (a2 - a1) * degreeFactor)
    have tiny : (2 : ℝ) ^ (-1075 : ℤ) ≤ 2 ^ (-100 : ℤ) := two_zpow_le (by norm_num)
    unfold degrees
    generalize fl (a2 - a1) = u at *
    generalize A2 - A1 = U at *
    generalize 180 / Real.pi = G at *
    generalize degreeFactor = F at *
    have g1 : |u * F| ≤ 5 * 57.3 := by
      rw [abs_mul, abs_of_pos F0]; exact mul_le_mul e2 F1 F0.le (by norm_num)
    have g2 : |u * (F - G)| ≤ 5 * 3e-5 := by
      rw [abs_mul]; exact mul_le_mul e2 F2 (abs_nonneg _) (by norm_num)
    have g3 : |(u - U) * G| ≤ 4.9e-4 * 57.3 := by
      rw [abs_mul]; exact mul_le_mul e1 F3 (abs_nonneg _) (by norm_num)
    have key : fl (u * F) - U * G = (fl (u * F) - u * F) + (u * (F - G) + (u - U) * G) := by ring
    rw [key]
    refine (abs_add_le _ _).trans ?_
    have g4 := abs_add_le (u * (F - G)) ((u - U) * G)
    norm_num at *
    linarith

/-- C176: the computed field of view is within 0.03 degrees of the angle, at the satellite, between the ends of the swath whose
centre is seen at half of the look angle (C94). -/
theorem C176_edges (altitude swath look l eta1 eta2 : ℝ) (h0 : 100000 ≤ altitude) (h1 : altitude ≤ 100000000) (s0 : 0 ≤ swath)
    (s1 : swath ≤ 50000000) (l0 : 0 ≤ look) (l1 : look ≤ 180) (hc : SeenAt altitude 0 (look / 2 * Real.pi / 180) l)
    (e1 : SeenAt altitude 0 eta1 (l - swath / 2 / meanRadius)) (e2 : SeenAt altitude 0 eta2 (l + swath / 2 / meanRadius)) :
    ∃ f, Ieee.swathToFov altitude swath look 0 = some f ∧ |f - (eta2 - eta1) * 180 / Real.pi| ≤ 0.03 := by
  obtain ⟨f, hf, hd⟩ := C176_field_of_view altitude swath look h0 h1 s0 s1 l0 l1
  refine ⟨f, hf, ?_⟩
  have hR2 := radius_near.2
  rwa [C94_half_partial altitude 0 swath look l eta1 eta2 ⟨by linarith [meanRadius_lt], by linarith⟩ l0 hc
    (by rw [add_zero]; exact e1) (by rw [add_zero]; exact e2)] at hd

/-- C176: a swath of no width has, in double precision too, a field of view of exactly 0. -/
theorem C176_point (altitude look : ℝ) (h0 : 100000 ≤ altitude) (h1 : altitude ≤ 100000000) (l0 : 0 ≤ look) (l1 : look ≤ 180) :
    Ieee.swathToFov altitude 0 look 0 = some 0 := by
  have hz : fl 0 = 0 := fl_of_double double_zero
  obtain ⟨f, hf, -⟩ := C176_field_of_view altitude 0 look h0 h1 le_rfl (by norm_num) l0 l1
  rw [hf]
  unfold Ieee.swathToFov at hf
  simp only [zero_div, hz, sub_zero, add_zero] at hf
  cases h : viewCentral altitude look 0 with
  | none => rw [h] at hf; cases hf
  | some l =>
    rw [h] at hf
    simp only [Option.bind_eq_bind, Option.bind_some] at hf
    cases h' : edgeAngle (Ieee.sinRho altitude 0) (fl l) with
    | none => rw [h'] at hf; cases hf
    | some a =>
      rw [h'] at hf
      simp only [Option.bind_some, sub_self, hz, zero_mul] at hf
      exact hf.symm

/-- A satellite at 500 km with a swath of 100 km and a look angle of 30 degrees. -/
example : ∃ f, Ieee.swathToFov 500000 100000 30 0 = some f ∧ |f - Geometry.swathToFov 500000 100000 30 0| ≤ 0.03 :=
  C176_field_of_view _ _ _ (by norm_num) (by norm_num) (by norm_num) (by norm_num) (by norm_num) (by norm_num)

/-- The ends of a swath of 100 km below a satellite at 500 km are both seen. -/
example : ∃ l eta1 eta2, SeenAt 500000 0 (0 / 2 * Real.pi / 180) l ∧ SeenAt 500000 0 eta1 (l - 100000 / 2 / meanRadius) ∧
    SeenAt 500000 0 eta2 (l + 100000 / 2 / meanRadius) := by
  have hR := meanRadius_lt
  have hR2 := radius_near.2
  have hpi := Real.pi_gt_three
  have hz : Below 500000 0 := ⟨by linarith, by norm_num⟩
  have x0 : 0 ≤ 100000 / 2 / meanRadius := div_nonneg (by norm_num) (by linarith)
  have x1 : 100000 / 2 / meanRadius ≤ 0.01 := by rw [div_le_iff₀ (by linarith)]; norm_num; linarith
  have hor : ∀ x : ℝ, 0 ≤ x → x ≤ 0.01 → meanRadius + 0 ≤ (meanRadius + 500000) * Real.cos x := by
    intro x a b
    have c := Real.one_sub_sq_div_two_le_cos (x := x)
    have d : 0.99 ≤ Real.cos x := by norm_num at *; nlinarith
    norm_num at *
    nlinarith
  refine ⟨0, _, _, ?_, seenAt_exists hz ?_ ?_, seenAt_exists hz ?_ ?_⟩
  · refine ⟨⟨by linarith, by linarith⟩, ⟨by linarith, by linarith⟩, hor 0 le_rfl (by norm_num), by simp⟩
  · constructor <;> norm_num at * <;> linarith
  · rw [zero_sub, Real.cos_neg]; exact hor _ x0 x1
  · constructor <;> norm_num at * <;> linarith
  · rw [zero_add]; exact hor _ x0 x1

end Tatc.Props
