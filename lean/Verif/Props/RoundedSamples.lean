import Verif.Model.IeeeSamples
import Verif.Lemmas.ExceptList
import Verif.Props.RoundedGrid
import Verif.Props.Samples

/-!
# C145: the number of samples, computed with double precision numbers
-/

namespace Tatc.Props
open Tatc.Num Tatc.Ieee
open scoped Classical

theorem radius_double : IsDouble earthMeanRadius :=
  ⟨6840818578939205, -30, by norm_num, by norm_num, by unfold earthMeanRadius; rw [zpow_neg]; norm_num⟩

theorem radius_pos : 0 < earthMeanRadius := by unfold earthMeanRadius; positivity

theorem double_one : IsDouble 1 := by exact_mod_cast double_int (n := 1) (by norm_num)
theorem double_four : IsDouble 4 := by exact_mod_cast double_int (n := 4) (by norm_num)

/-- The angle of which the cosine is taken. -/
noncomputable def halfAngle (d : ℝ) : ℝ := fl (fl (d / earthMeanRadius) / 2)

theorem halfAngle_mono {d e : ℝ} (h : d ≤ e) : halfAngle d ≤ halfAngle e := by
  have := radius_pos
  exact fl_mono (div_le_div_of_nonneg_right (fl_mono (div_le_div_of_nonneg_right h this.le)) (by norm_num))

theorem halfAngle_nonneg {d : ℝ} (h : 0 ≤ d) : 0 ≤ halfAngle d := by
  have := radius_pos
  exact le_fl double_zero (div_nonneg (le_fl double_zero (div_nonneg h this.le)) (by norm_num))

theorem halfAngle_close {d : ℝ} (h : 1 / 10 ≤ d) :
    d / earthMeanRadius / 2 * (1 - 1 / 2 ^ 50) ≤ halfAngle d ∧ halfAngle d ≤ d / earthMeanRadius / 2 * (1 + 1 / 2 ^ 50) := by
  have hR := radius_pos
  have hR2 : earthMeanRadius ≤ 6371009 := by unfold earthMeanRadius; norm_num
  have hy : 1 / 10 ^ 8 ≤ d / earthMeanRadius := by
    rw [div_le_div_iff₀ (by positivity) hR]; norm_num; linarith
  obtain ⟨a1, a2⟩ := fl_between (x := d / earthMeanRadius) (le_trans (by norm_num) hy)
  set y := d / earthMeanRadius
  have hf : 1 / 10 ^ 9 ≤ fl y := by
    refine le_trans ?_ a1
    have : (1 : ℝ) / 10 ^ 8 * (1 - 1 / 2 ^ 52) ≤ y * (1 - 1 / 2 ^ 52) := mul_le_mul_of_nonneg_right hy (by norm_num)
    exact le_trans (by norm_num) this
  obtain ⟨b1, b2⟩ := fl_between (x := fl y / 2) (by
    have : (1 : ℝ) / 10 ^ 9 / 2 ≤ fl y / 2 := div_le_div_of_nonneg_right hf (by norm_num)
    exact le_trans (by norm_num) this)
  have hy0 : 0 < y := lt_of_lt_of_le (by positivity) hy
  constructor
  · refine le_trans ?_ b1
    norm_num at a1 ⊢
    linarith
  · refine b2.trans ?_
    norm_num at a2 ⊢
    linarith

theorem halfAngle_lt_pi {d : ℝ} (h1 : d ≤ 40000000) : halfAngle d < Real.pi := by
  refine (halfAngle_mono h1).trans_lt ?_
  refine (halfAngle_close (by norm_num)).2.trans_lt ?_
  have := Real.pi_gt_d4
  unfold earthMeanRadius
  norm_num at *
  linarith

/-! ## Too small distances -/

theorem height_zero {d : ℝ} (h0 : 0 < d) (h1 : d ≤ 0.134) : sampleHeight d = 0 := by
  have hR := radius_pos
  have x0 := halfAngle_nonneg h0.le
  have x1 : halfAngle d ≤ 1.0517e-8 := by
    refine (halfAngle_mono h1).trans ((halfAngle_close (by norm_num)).2.trans ?_)
    unfold earthMeanRadius; norm_num
  have hcos : fl (Real.cos (halfAngle d)) = 1 := by
    by_cases hx : halfAngle d = 0
    · rw [hx, Real.cos_zero]; exact fl_of_double double_one
    have c1 := Real.one_sub_sq_div_two_le_cos (x := halfAngle d)
    have c2 : Real.cos (halfAngle d) < 1 := by
      have := Real.cos_lt_cos_of_nonneg_of_le_pi le_rfl (by have := Real.pi_gt_three; linarith)
        (lt_of_le_of_ne x0 (Ne.symm hx))
      rwa [Real.cos_zero] at this
    have hsq : halfAngle d ^ 2 ≤ 1.0517e-8 ^ 2 := pow_le_pow_left₀ x0 x1 2
    norm_num at hsq
    have key := fl_eq_of (x := Real.cos (halfAngle d)) (n := 2 ^ 53) (e := -53) (by norm_num)
      (by rw [abs_of_nonneg (by linarith)]; norm_num; linarith)
      (by rw [abs_of_nonneg (by linarith)]; norm_num; linarith)
      (by rw [abs_lt]; norm_num; constructor <;> linarith)
    rw [key]; norm_num
  show fl (earthMeanRadius - fl (earthMeanRadius * fl (Real.cos (halfAngle d)))) = 0
  rw [hcos, mul_one, fl_of_double radius_double, sub_self, fl_zero]

/-! ## Other distances -/

theorem cos_at {d : ℝ} (h0 : 0.135 ≤ d) (h1 : d ≤ 40000000) : fl (Real.cos (halfAngle d)) ≤ 1 - 1 / 2 ^ 53 := by
  have x0 := halfAngle_nonneg (d := 0.135) (by norm_num)
  have x1 : 1.0594e-8 ≤ halfAngle 0.135 := by
    refine le_trans ?_ (halfAngle_close (by norm_num)).1
    unfold earthMeanRadius; norm_num
  have x2 : halfAngle 0.135 ≤ 1.0596e-8 := by
    refine (halfAngle_close (by norm_num)).2.trans ?_
    unfold earthMeanRadius; norm_num
  have c0 := Real.cos_le_cos_of_nonneg_of_le_pi x0 (halfAngle_lt_pi h1).le (halfAngle_mono h0)
  refine (fl_mono c0).trans ?_
  have c1 := Real.one_sub_sq_div_two_le_cos (x := halfAngle 0.135)
  have c2 := Real.cos_bound (x := halfAngle 0.135) (by rw [abs_of_nonneg x0]; norm_num at x2 ⊢; linarith)
  rw [abs_of_nonneg x0, abs_le] at c2
  have s1 : (1.0594e-8 : ℝ) ^ 2 ≤ halfAngle 0.135 ^ 2 := pow_le_pow_left₀ (by norm_num) x1 2
  have s2 : halfAngle 0.135 ^ 2 ≤ (1.0596e-8 : ℝ) ^ 2 := pow_le_pow_left₀ x0 x2 2
  have s4 : halfAngle 0.135 ^ 4 ≤ (1.0596e-8 : ℝ) ^ 4 := pow_le_pow_left₀ x0 x2 4
  norm_num at s1 s2 s4
  have key := fl_eq_of (x := Real.cos (halfAngle 0.135)) (n := 2 ^ 53 - 1) (e := -53) (by norm_num)
    (by rw [abs_of_nonneg (by linarith)]; norm_num; linarith)
    (by rw [abs_of_nonneg (by linarith)]; norm_num; linarith [c2.2])
    (by rw [abs_lt]; norm_num; constructor <;> linarith [c2.2])
  rw [key]; norm_num

theorem height_pos {d : ℝ} (h0 : 0.135 ≤ d) (h1 : d ≤ 40000000) : 1 / 2 ^ 30 ≤ sampleHeight d := by
  have hR := radius_pos
  have c := cos_at h0 h1
  have r1 : fl (earthMeanRadius * fl (Real.cos (halfAngle d))) ≤ earthMeanRadius - 1 / 2 ^ 30 := by
    refine (fl_mono (mul_le_mul_of_nonneg_left c hR.le)).trans ?_
    have key := fl_eq_of (x := earthMeanRadius * (1 - 1 / 2 ^ 53)) (n := 6840818578939204) (e := -30) (by norm_num)
      (by rw [abs_of_nonneg (mul_nonneg hR.le (by norm_num))]; unfold earthMeanRadius; norm_num)
      (by rw [abs_of_nonneg (mul_nonneg hR.le (by norm_num))]; unfold earthMeanRadius; norm_num)
      (by unfold earthMeanRadius; rw [abs_lt]; norm_num)
    rw [key]
    unfold earthMeanRadius; norm_num
  refine le_fl ?_ (by unfold halfAngle at r1; linarith)
  exact ⟨1, -30, by norm_num, by norm_num, by rw [zpow_neg]; norm_num⟩

theorem height_mono {d e : ℝ} (h0 : 0 ≤ d) (hde : d ≤ e) (h1 : e ≤ 40000000) : sampleHeight d ≤ sampleHeight e := by
  have hR := radius_pos
  have c0 := Real.cos_le_cos_of_nonneg_of_le_pi (halfAngle_nonneg h0) (halfAngle_lt_pi h1).le (halfAngle_mono hde)
  refine fl_mono ?_
  have := fl_mono (mul_le_mul_of_nonneg_left (fl_mono c0) hR.le)
  exact sub_le_sub_left this _

theorem perimeter_ge : 4 ≤ fl (fl (2 * Ieee.pi) * earthMeanRadius) := by
  have h1 : 4 ≤ fl (2 * Ieee.pi) := le_fl double_four (by unfold Ieee.pi; norm_num)
  refine le_fl double_four ?_
  have : 1 ≤ earthMeanRadius := by unfold earthMeanRadius; norm_num
  nlinarith

theorem area_mono {d e : ℝ} (h0 : 0 ≤ d) (hde : d ≤ e) (h1 : e ≤ 40000000) : Ieee.sampleArea d ≤ Ieee.sampleArea e := by
  have := perimeter_ge
  exact fl_mono (mul_le_mul_of_nonneg_left (height_mono h0 hde h1) (by linarith))

theorem area_pos {d : ℝ} (h0 : 0.135 ≤ d) (h1 : d ≤ 40000000) : 0 < Ieee.sampleArea d := by
  have h := height_pos h0 h1
  have hp := perimeter_ge
  have h28 : IsDouble (1 / 2 ^ 28 : ℝ) := ⟨1, -28, by norm_num, by norm_num, by rw [zpow_neg]; norm_num⟩
  have : (1 / 2 ^ 28 : ℝ) ≤ Ieee.sampleArea d := by
    refine le_fl h28 ?_
    calc (1 / 2 ^ 28 : ℝ) = 4 * (1 / 2 ^ 30) := by norm_num
      _ ≤ _ := mul_le_mul hp h (by positivity) (by linarith)
  exact lt_of_lt_of_le (by positivity) this

theorem samples_ok {surface d : ℝ} (h0 : 0.135 ≤ d) (h1 : d ≤ 40000000) :
    Ieee.numberSamples surface d = .ok ⌊fl (surface / Ieee.sampleArea d)⌋₊ := by
  unfold Ieee.numberSamples
  simp only [bind_eq_ok, require_eq_ok, pure, Except.pure]
  exact ⟨(), (area_pos h0 h1).ne', trivial⟩

/-- C145, full statement: for every positive distance up to the circumference of the Earth a number of samples is returned.
False: not for distances up to 13.4 cm, however the surface of the Earth is rounded. -/
theorem C145_small_false (surface d : ℝ) (h0 : 0 < d) (h1 : d ≤ 0.134) :
    Ieee.numberSamples surface d = .error .zeroDivisionError := by
  unfold Ieee.numberSamples require
  have : Ieee.sampleArea d = 0 := by
    unfold Ieee.sampleArea
    rw [height_zero h0 h1, mul_zero, fl_zero]
  rw [if_neg (by simpa using this)]
  rfl

/-- C145, the part that holds: from 13.5 cm on there is a number, and no larger distance gives a larger one. -/
theorem C145_monotone_partial (surface d e : ℝ) (hs : 0 ≤ surface) (h0 : 0.135 ≤ d) (hde : d ≤ e) (h1 : e ≤ 40000000) :
    ∃ n m, Ieee.numberSamples surface d = .ok n ∧ Ieee.numberSamples surface e = .ok m ∧ m ≤ n := by
  refine ⟨_, _, samples_ok h0 (hde.trans h1), samples_ok (h0.trans hde) h1, Nat.floor_mono (fl_mono ?_)⟩
  exact div_le_div_of_nonneg_left hs (area_pos h0 (hde.trans h1)) (area_mono (by norm_num at h0; linarith) hde h1)

/-! ## How accurate the number is -/

theorem tiny : (2 : ℝ) ^ (-1075 : ℤ) ≤ 1 / 2 ^ 100 := by
  rw [show (1 : ℝ) / 2 ^ 100 = 2 ^ (-100 : ℤ) by rw [zpow_neg]; norm_num]
  exact zpow_le_zpow_right₀ (by norm_num) (by norm_num)

theorem fl_close' (x : ℝ) : |fl x - x| ≤ |x| / 2 ^ 53 + 1 / 2 ^ 100 := (fl_close x).trans (by have := tiny; linarith)

/-- The height of the cap the code means. -/
theorem height_lower {z : ℝ} (h0 : 0 ≤ z) (h1 : z ≤ Real.pi) : z ^ 2 / 5 ≤ 1 - Real.cos z := by
  have h := Real.cos_le_one_sub_mul_cos_sq (x := z) (by rw [abs_of_nonneg h0]; exact h1)
  have hp := Real.pi_lt_d2
  have hp0 := Real.pi_pos
  have : z ^ 2 / 5 ≤ 2 / Real.pi ^ 2 * z ^ 2 := by
    rw [div_eq_mul_inv, mul_comm]
    apply mul_le_mul_of_nonneg_right _ (sq_nonneg z)
    rw [inv_eq_one_div, div_le_div_iff₀ (by norm_num) (by positivity)]
    nlinarith
  linarith

theorem cos_shift {x z δ : ℝ} (h0 : 0 ≤ z) (hx : 0 ≤ x) (hδ0 : 0 ≤ δ) (hδ : δ ≤ 1) (h1 : z ≤ Real.pi)
    (h2 : |x - z| ≤ z * δ) : |Real.cos x - Real.cos z| ≤ (1 - Real.cos z) * (10 * δ) := by
  have hl := height_lower h0 h1
  rw [Real.cos_sub_cos, abs_mul, abs_mul]
  have s1 := Real.abs_sin_le_abs (x := (x + z) / 2)
  have s2 := Real.abs_sin_le_abs (x := (x - z) / 2)
  rw [abs_of_nonneg (by positivity : 0 ≤ (x + z) / 2)] at s1
  rw [abs_div, abs_of_pos (by norm_num : (0 : ℝ) < 2)] at s2
  have hxz : x ≤ 2 * z := by
    have := (abs_le.1 h2).2
    nlinarith
  have a : |Real.sin ((x + z) / 2)| * |Real.sin ((x - z) / 2)| ≤ (3 * z / 2) * (z * δ / 2) :=
    mul_le_mul (by linarith) (by linarith) (abs_nonneg _) (by linarith)
  have b : |(-2 : ℝ)| = 2 := by norm_num
  rw [b, mul_assoc]
  nlinarith [mul_nonneg (sub_nonneg.2 hl) hδ0, mul_nonneg (sq_nonneg z) hδ0]

theorem radius_lt : earthMeanRadius < 6371008.78 ∧ 6371008.77 < earthMeanRadius := by
  unfold earthMeanRadius; constructor <;> norm_num

theorem abs_fl_cos (x : ℝ) : |fl (Real.cos x)| ≤ 1 := by
  rw [abs_le]
  exact ⟨le_fl (double_neg double_one) (Real.neg_one_le_cos x), fl_le double_one (Real.cos_le_one x)⟩

theorem radius_error {x z δ : ℝ} (h0 : 0 ≤ z) (hx : 0 ≤ x) (hδ0 : 0 ≤ δ) (hδ : δ ≤ 1) (h1 : z ≤ Real.pi)
    (h2 : |x - z| ≤ z * δ) :
    |earthMeanRadius - fl (earthMeanRadius * fl (Real.cos x)) - earthMeanRadius * (1 - Real.cos z)| ≤
      earthMeanRadius * (1 - Real.cos z) * (10 * δ) + 1.4149e-9 := by
  obtain ⟨r1, r2⟩ := radius_lt
  have hR := radius_pos
  have e1 := cos_shift h0 hx hδ0 hδ h1 h2
  have e2 := fl_close' (Real.cos x)
  have e3 := fl_close' (earthMeanRadius * fl (Real.cos x))
  have c1 := Real.abs_cos_le_one x
  have c2 := abs_fl_cos x
  rw [abs_mul, abs_of_pos hR] at e3
  have f1 : earthMeanRadius * |fl (Real.cos x)| ≤ earthMeanRadius := by nlinarith
  set c := fl (Real.cos x)
  have g1 : |earthMeanRadius * (Real.cos z - Real.cos x)| ≤ earthMeanRadius * ((1 - Real.cos z) * (10 * δ)) := by
    rw [abs_mul, abs_of_pos hR, abs_sub_comm]; exact mul_le_mul_of_nonneg_left e1 hR.le
  have g2 : |earthMeanRadius * (Real.cos x - c)| ≤ earthMeanRadius * 1.1103e-16 := by
    rw [abs_mul, abs_of_pos hR, abs_sub_comm]
    refine mul_le_mul_of_nonneg_left (e2.trans ?_) hR.le
    have : |Real.cos x| / 2 ^ 53 ≤ 1 / 2 ^ 53 := div_le_div_of_nonneg_right c1 (by positivity)
    refine (add_le_add_left this _).trans ?_
    norm_num
  have g3 : |earthMeanRadius * c - fl (earthMeanRadius * c)| ≤ 7.0734e-10 := by
    rw [abs_sub_comm]
    refine e3.trans ?_
    have : earthMeanRadius * |c| / 2 ^ 53 ≤ 6371008.78 / 2 ^ 53 := div_le_div_of_nonneg_right (by linarith) (by positivity)
    refine (add_le_add_left this _).trans ?_
    norm_num
  have e : earthMeanRadius - fl (earthMeanRadius * c) - earthMeanRadius * (1 - Real.cos z) =
      earthMeanRadius * (Real.cos z - Real.cos x) + earthMeanRadius * (Real.cos x - c) +
        (earthMeanRadius * c - fl (earthMeanRadius * c)) := by ring
  rw [e]
  have t1 := abs_add_le (earthMeanRadius * (Real.cos z - Real.cos x) + earthMeanRadius * (Real.cos x - c))
    (earthMeanRadius * c - fl (earthMeanRadius * c))
  have t2 := abs_add_le (earthMeanRadius * (Real.cos z - Real.cos x)) (earthMeanRadius * (Real.cos x - c))
  norm_num at *
  linarith

/-- The height computed, compared with that of the cap meant. -/
theorem height_close {d : ℝ} (h0 : 1 ≤ d) (h1 : d ≤ 20000000) :
    |sampleHeight d - earthMeanRadius * (1 - Real.cos (d / 2 / earthMeanRadius))| ≤
      earthMeanRadius * (1 - Real.cos (d / 2 / earthMeanRadius)) * (0.185 / d ^ 2 + 2e-14) := by
  obtain ⟨r1, r2⟩ := radius_lt
  have hR := radius_pos
  have hd : (0 : ℝ) < d := by linarith
  have hz : d / earthMeanRadius / 2 = d / 2 / earthMeanRadius := by ring
  obtain ⟨x1, x2⟩ := halfAngle_close (d := d) (by linarith)
  rw [hz] at x1 x2
  set z := d / 2 / earthMeanRadius with hzd
  have z0 : 0 ≤ z := by positivity
  have z1 : z ≤ Real.pi := by
    rw [hzd, div_div, div_le_iff₀ (by positivity)]
    have := Real.pi_gt_three
    nlinarith
  have hx : |halfAngle d - z| ≤ z * (1 / 2 ^ 50) := by rw [abs_le]; constructor <;> linarith
  have e := radius_error z0 (halfAngle_nonneg hd.le) (by positivity) (by norm_num) z1 hx
  have hl := height_lower z0 z1
  have hH : d ^ 2 / (20 * earthMeanRadius) ≤ earthMeanRadius * (1 - Real.cos z) := by
    have : d ^ 2 / (20 * earthMeanRadius) = earthMeanRadius * (z ^ 2 / 5) := by rw [hzd]; field_simp; norm_num
    rw [this]; exact mul_le_mul_of_nonneg_left hl hR.le
  have hs : sampleHeight d = fl (earthMeanRadius - fl (earthMeanRadius * fl (Real.cos (halfAngle d)))) := rfl
  rw [hs]
  set u := earthMeanRadius - fl (earthMeanRadius * fl (Real.cos (halfAngle d)))
  set H := earthMeanRadius * (1 - Real.cos z)
  have hHd : 1.4149e-9 ≤ H * (0.182 / d ^ 2) := by
    rw [div_le_iff₀ (by positivity)] at hH
    rw [mul_div_assoc', le_div_iff₀ (by positivity)]
    nlinarith
  have hH0 : 1 / 2 ^ 28 ≤ H := by
    refine le_trans ?_ hH
    rw [div_le_div_iff₀ (by positivity) (by positivity)]
    nlinarith
  have hHd2 : H * (0.182 / d ^ 2) ≤ H := by
    have : 0.182 / d ^ 2 ≤ 1 := by rw [div_le_one (by positivity)]; nlinarith
    have hH1 : 0 < H := lt_of_lt_of_le (by positivity) hH0
    nlinarith
  have e' : |u - H| ≤ H * (10 / 2 ^ 50) + H * (0.182 / d ^ 2) := by
    have : H * (10 * (1 / 2 ^ 50)) = H * (10 / 2 ^ 50) := by ring
    rw [this] at e; linarith
  have f := fl_close' u
  have hu : |u| ≤ 3 * H := by
    have := abs_add_le (u - H) H
    rw [sub_add_cancel, abs_of_pos (lt_of_lt_of_le (by positivity) hH0)] at this
    norm_num at e' hHd2 ⊢
    linarith
  have t := abs_sub_le (fl u) u H
  rw [mul_add]
  have k : 0.185 / d ^ 2 = 0.182 / d ^ 2 + 0.003 / d ^ 2 := by ring
  have k0 : 0 ≤ H * (0.003 / d ^ 2) := mul_nonneg (le_trans (by positivity) hH0) (by positivity)
  rw [k, mul_add]
  generalize H * (0.182 / d ^ 2) = a at *
  generalize H * (0.003 / d ^ 2) = b at *
  norm_num at e' f hu hH0 ⊢
  linarith

theorem perimeter_close : 2 * Real.pi * earthMeanRadius * (1 - 1e-15) ≤ fl (fl (2 * Ieee.pi) * earthMeanRadius) ∧
    fl (fl (2 * Ieee.pi) * earthMeanRadius) ≤ 2 * Real.pi * earthMeanRadius * (1 + 1e-15) := by
  have hR := radius_pos
  have hp1 := Real.pi_gt_d20
  have hp2 := Real.pi_lt_d20
  have hd : IsDouble (2 * Ieee.pi) := ⟨884279719003555, -47, by norm_num, by norm_num, by
    unfold Ieee.pi; rw [zpow_neg]; norm_num⟩
  rw [fl_of_double hd]
  have q1 : 2 * Real.pi * (1 - 1e-16) ≤ 2 * Ieee.pi := by unfold Ieee.pi; norm_num at *; linarith
  have q2 : 2 * Ieee.pi ≤ 2 * Real.pi * (1 + 1e-16) := by unfold Ieee.pi; norm_num at *; linarith
  have l : (1 : ℝ) / 2 ^ 100 ≤ 2 * Ieee.pi * earthMeanRadius := by unfold Ieee.pi earthMeanRadius; norm_num
  obtain ⟨a, b⟩ := fl_between l
  have m1 := mul_le_mul_of_nonneg_right q1 hR.le
  have m2 := mul_le_mul_of_nonneg_right q2 hR.le
  have hP : 0 < 2 * Real.pi * earthMeanRadius := by have := Real.pi_pos; positivity
  have w1 : 2 * Real.pi * (1 - 1e-16) * earthMeanRadius = 2 * Real.pi * earthMeanRadius * (1 - 1e-16) := by ring
  have w2 : 2 * Real.pi * (1 + 1e-16) * earthMeanRadius = 2 * Real.pi * earthMeanRadius * (1 + 1e-16) := by ring
  rw [w1] at m1
  rw [w2] at m2
  generalize 2 * Real.pi * earthMeanRadius = P at *
  generalize 2 * Ieee.pi * earthMeanRadius = Q at *
  generalize fl Q = F at *
  norm_num at *
  constructor <;> linarith

/-- Two factors, each within its part, and a rounding. -/
theorem product_between {P H p h δ : ℝ} (hP : 0 < P) (hH : 0 < H) (d0 : 0 ≤ δ) (d1 : δ ≤ 1 / 4)
    (p1 : P * (1 - 1e-15) ≤ p) (p2 : p ≤ P * (1 + 1e-15)) (h1 : H * (1 - δ) ≤ h) (h2 : h ≤ H * (1 + δ))
    (hl : 1 / 2 ^ 100 ≤ p * h) : P * H * (1 - δ - 3e-15) ≤ fl (p * h) ∧ fl (p * h) ≤ P * H * (1 + δ + 3e-15) := by
  obtain ⟨a, b⟩ := fl_between hl
  have hp0 : 0 ≤ p := le_trans (mul_nonneg hP.le (by norm_num)) p1
  have hh0 : 0 ≤ h := le_trans (mul_nonneg hH.le (by linarith)) h1
  have m1 : P * (1 - 1e-15) * (H * (1 - δ)) ≤ p * h := mul_le_mul p1 h1 (mul_nonneg hH.le (by linarith)) hp0
  have m2 : p * h ≤ P * (1 + 1e-15) * (H * (1 + δ)) := mul_le_mul p2 h2 hh0 (mul_nonneg hP.le (by norm_num))
  have hPH : 0 < P * H := mul_pos hP hH
  have w1 : P * (1 - 1e-15) * (H * (1 - δ)) = P * H * ((1 - 1e-15) * (1 - δ)) := by ring
  have w2 : P * (1 + 1e-15) * (H * (1 + δ)) = P * H * ((1 + 1e-15) * (1 + δ)) := by ring
  rw [w1] at m1
  rw [w2] at m2
  constructor
  · refine le_trans ?_ (le_trans (mul_le_mul_of_nonneg_right m1 (by norm_num)) a)
    rw [mul_assoc (P * H)]
    apply mul_le_mul_of_nonneg_left _ hPH.le
    norm_num
    linarith
  · refine le_trans b (le_trans (mul_le_mul_of_nonneg_right m2 (by norm_num)) ?_)
    rw [mul_assoc (P * H)]
    apply mul_le_mul_of_nonneg_left _ hPH.le
    norm_num
    linarith

/-- The area computed, compared with that of the cap meant. -/
theorem area_close {d : ℝ} (h0 : 1 ≤ d) (h1 : d ≤ 20000000) :
    capArea earthMeanRadius d * (1 - 0.185 / d ^ 2 - 3e-14) ≤ Ieee.sampleArea d ∧
      Ieee.sampleArea d ≤ capArea earthMeanRadius d * (1 + 0.185 / d ^ 2 + 3e-14) ∧ 0 < capArea earthMeanRadius d ∧
      capArea earthMeanRadius d ≤ 2 ^ 60 := by
  obtain ⟨r1, r2⟩ := radius_lt
  have hR := radius_pos
  have hd : (0 : ℝ) < d := by linarith
  have hc := height_close h0 h1
  have z0 : 0 < d / 2 / earthMeanRadius := by positivity
  have z1 : d / 2 / earthMeanRadius ≤ Real.pi := by
    rw [div_div, div_le_iff₀ (by positivity)]
    have := Real.pi_gt_three
    nlinarith
  have hl := height_lower z0.le z1
  have hcl := Real.neg_one_le_cos (d / 2 / earthMeanRadius)
  have hcap : capArea earthMeanRadius d =
      2 * Real.pi * earthMeanRadius * (earthMeanRadius * (1 - Real.cos (d / 2 / earthMeanRadius))) := by
    unfold capArea; ring
  rw [hcap]
  have hH : 0 < earthMeanRadius * (1 - Real.cos (d / 2 / earthMeanRadius)) := mul_pos hR (lt_of_lt_of_le (by positivity) hl)
  have hH2 : earthMeanRadius * (1 - Real.cos (d / 2 / earthMeanRadius)) ≤ 2 * 6371009 := by nlinarith
  have hP : 0 < 2 * Real.pi * earthMeanRadius := by have := Real.pi_pos; positivity
  have hP2 : 2 * Real.pi * earthMeanRadius ≤ 2 * 4 * 6371009 := by
    have := Real.pi_lt_four; have := Real.pi_pos; nlinarith
  obtain ⟨p1, p2⟩ := perimeter_close
  have hq : 0.185 / d ^ 2 ≤ 0.185 := div_le_self (by norm_num) (by nlinarith)
  have hq0 : 0 ≤ 0.185 / d ^ 2 := by positivity
  have hh := height_pos (d := d) (by norm_num; linarith) (by linarith)
  have hp := perimeter_ge
  have hlow : (1 : ℝ) / 2 ^ 100 ≤ fl (fl (2 * Ieee.pi) * earthMeanRadius) * sampleHeight d :=
    le_trans (by norm_num) (mul_le_mul hp hh (by positivity) (by linarith))
  unfold Ieee.sampleArea
  rw [abs_le] at hc
  generalize earthMeanRadius * (1 - Real.cos (d / 2 / earthMeanRadius)) = H at *
  generalize 2 * Real.pi * earthMeanRadius = P at *
  generalize fl (fl (2 * Ieee.pi) * earthMeanRadius) = p at *
  generalize sampleHeight d = h at *
  generalize 0.185 / d ^ 2 = q at *
  obtain ⟨a, b⟩ := product_between hP hH (δ := q + 2e-14) (by linarith) (by norm_num at *; linarith) p1 p2
    (by linarith [hc.1]) (by linarith [hc.2]) hlow
  have hPH := mul_pos hP hH
  refine ⟨le_trans (mul_le_mul_of_nonneg_left (by norm_num; linarith) hPH.le) a,
    b.trans (mul_le_mul_of_nonneg_left (by norm_num; linarith) hPH.le), hPH, ?_⟩
  refine (mul_le_mul hP2 hH2 hH.le (by norm_num)).trans ?_
  norm_num

/-- C145, how accurate the number is: for distances from a metre to halfway round the Earth the caps of the given diameter
cover the surface to within one cap and a part `1 / (4 d²)` of the surface. -/
theorem C145_accuracy_partial (surface d : ℝ) (hs : 1 ≤ surface) (h0 : 1 ≤ d) (h1 : d ≤ 20000000) :
    ∃ n : Nat, Ieee.numberSamples surface d = .ok n ∧
      n * capArea earthMeanRadius d ≤ surface * (1 + 1 / (4 * d ^ 2) + 1 / 10 ^ 13) ∧
      surface * (1 - 1 / (4 * d ^ 2) - 1 / 10 ^ 13) < (n + 1) * capArea earthMeanRadius d := by
  have h35 : 0.135 ≤ d := by norm_num; linarith
  refine ⟨_, samples_ok h35 (by linarith), ?_⟩
  obtain ⟨a1, a2, a3, a4⟩ := area_close h0 h1
  have hd : (0 : ℝ) < d := by linarith
  have ha := area_pos (d := d) h35 (by linarith)
  have hq : 0.185 / d ^ 2 = 0.74 * (1 / (4 * d ^ 2)) := by field_simp; norm_num
  have hr : 1 / (4 * d ^ 2) ≤ 1 / 4 := by rw [div_le_div_iff₀ (by positivity) (by norm_num)]; nlinarith
  have hr0 : 0 < 1 / (4 * d ^ 2) := by positivity
  rw [hq] at a1 a2
  generalize 1 / (4 * d ^ 2) = r at *
  generalize capArea earthMeanRadius d = A at *
  generalize Ieee.sampleArea d = a at *
  have hlow : 1 / 2 ^ 100 ≤ surface / a := by
    rw [div_le_div_iff₀ (by positivity) ha]
    norm_num at a2 a4 ⊢
    nlinarith
  obtain ⟨b1, b2⟩ := fl_between hlow
  have hsa : 0 < surface / a := by positivity
  have hfl : 0 ≤ fl (surface / a) := le_trans (mul_nonneg hsa.le (by norm_num)) b1
  have n1 := Nat.floor_le hfl
  have n2 := Nat.lt_floor_add_one (fl (surface / a))
  generalize (⌊fl (surface / a)⌋₊ : ℝ) = n at *
  generalize fl (surface / a) = f at *
  have e : surface / a * a = surface := by field_simp
  generalize surface / a = s at *
  subst e
  constructor
  · have : n * A ≤ s * (1 + 1 / 2 ^ 52) * A := mul_le_mul_of_nonneg_right (n1.trans b2) a3.le
    refine this.trans ?_
    rw [mul_assoc s, mul_assoc s]
    apply mul_le_mul_of_nonneg_left _ hsa.le
    have : A * (1 - 0.74 * r - 3e-14) * (1 + r + 1 / 10 ^ 13) ≤ a * (1 + r + 1 / 10 ^ 13) :=
      mul_le_mul_of_nonneg_right a1 (by positivity)
    refine le_trans ?_ this
    rw [mul_comm, mul_assoc]
    apply mul_le_mul_of_nonneg_left _ a3.le
    norm_num
    nlinarith
  · have : s * (1 - 1 / 2 ^ 52) * A < (n + 1) * A := mul_lt_mul_of_pos_right (b1.trans_lt n2) a3
    refine lt_of_le_of_lt ?_ this
    rw [mul_assoc s, mul_assoc s]
    apply mul_le_mul_of_nonneg_left _ hsa.le
    by_cases hneg : 1 - r - 1 / 10 ^ 13 ≤ 0
    · have := mul_nonpos_of_nonneg_of_nonpos ha.le hneg
      have h2 : 0 ≤ (1 - 1 / 2 ^ 52) * A := mul_nonneg (by norm_num) a3.le
      linarith
    push Not at hneg
    have : a * (1 - r - 1 / 10 ^ 13) ≤ A * (1 + 0.74 * r + 3e-14) * (1 - r - 1 / 10 ^ 13) :=
      mul_le_mul_of_nonneg_right a2 hneg.le
    refine this.trans ?_
    rw [mul_comm (1 - 1 / 2 ^ 52 : ℝ), mul_assoc]
    apply mul_le_mul_of_nonneg_left _ a3.le
    norm_num
    nlinarith

/-- The hypotheses are met: a kilometre; 13 cm. -/
example : ∃ n : Nat, Ieee.numberSamples 5.1e14 1000 = .ok n ∧ n * capArea earthMeanRadius 1000 ≤ 5.1e14 * (1 + 1 / (4 * 1000 ^ 2) + 1 / 10 ^ 13) := by
  obtain ⟨n, a, b, -⟩ := C145_accuracy_partial 5.1e14 1000 (by norm_num) (by norm_num) (by norm_num)
  exact ⟨n, a, b⟩
example : Ieee.numberSamples 5.1e14 0.13 = .error .zeroDivisionError := C145_small_false _ _ (by norm_num) (by norm_num)

end Tatc.Props
