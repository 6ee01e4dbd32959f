import Verif.Model.IeeeViewing
import Verif.Props.RoundedLattice
import Verif.Model.Geometry

/-!
# C148: the viewing geometry, computed with double precision numbers
-/

namespace Tatc.Props
open Tatc.Num Tatc.Ieee
open scoped Classical

/-! ## Inverse sines and cosines near one -/

theorem arccos_clamp (x : ℝ) : Real.arccos x = Real.arccos (max (-1) (min 1 x)) := by
  rcases le_total x (-1) with h | h
  · rw [Real.arccos_of_le_neg_one h, min_eq_right (by linarith), max_eq_left h, Real.arccos_neg_one]
  · rcases le_total 1 x with h1 | h1
    · rw [Real.arccos_of_one_le h1, min_eq_left h1, max_eq_right (by norm_num), Real.arccos_one]
    · rw [min_eq_right h1, max_eq_right h]

theorem arccos_near_aux {a b : ℝ} (ha : -1 ≤ a) (hb : b ≤ 1) (hab : a ≤ b) :
    (Real.arccos a - Real.arccos b) ^ 2 ≤ Real.pi ^ 2 / 2 * (b - a) := by
  have hpi := Real.pi_pos
  set y := Real.arccos a with hy
  set x := Real.arccos b with hx
  have hxy : x ≤ y := Real.arccos_le_arccos hab
  have x0 := Real.arccos_nonneg b
  have y1 := Real.arccos_le_pi a
  have ca : Real.cos y = a := Real.cos_arccos ha (by linarith)
  have cb : Real.cos x = b := Real.cos_arccos (by linarith) hb
  rw [← ca, ← cb, Real.cos_sub_cos]
  have s1 : Real.sin ((y - x) / 2) ≤ Real.sin ((x + y) / 2) := by
    rcases le_total ((x + y) / 2) (Real.pi / 2) with h | h
    · exact Real.sin_le_sin_of_le_of_le_pi_div_two (by linarith) h (by linarith)
    · rw [← Real.sin_pi_sub ((x + y) / 2)]
      exact Real.sin_le_sin_of_le_of_le_pi_div_two (by linarith) (by linarith) (by linarith)
  have s2 := Real.mul_le_sin (x := (y - x) / 2) (by linarith) (by linarith)
  have e : Real.sin ((x - y) / 2) = -Real.sin ((y - x) / 2) := by rw [← Real.sin_neg]; congr 1; ring
  rw [e]
  have s0 : 0 ≤ 2 / Real.pi * ((y - x) / 2) := mul_nonneg (by positivity) (by linarith)
  have p : (2 / Real.pi * ((y - x) / 2)) ^ 2 ≤ Real.sin ((x + y) / 2) * Real.sin ((y - x) / 2) := by
    rw [sq]; exact mul_le_mul (s2.trans s1) s2 s0 (by linarith)
  have q : (y - x) ^ 2 = Real.pi ^ 2 * (2 / Real.pi * ((y - x) / 2)) ^ 2 := by field_simp
  rw [q]
  nlinarith [sq_nonneg Real.pi, mul_le_mul_of_nonneg_left p (sq_nonneg Real.pi)]

theorem arccos_near (a b : ℝ) : (Real.arccos a - Real.arccos b) ^ 2 ≤ Real.pi ^ 2 / 2 * |a - b| := by
  have hpi := Real.pi_pos
  rw [arccos_clamp a, arccos_clamp b]
  have hl : ∀ x : ℝ, -1 ≤ max (-1) (min 1 x) := fun x => le_max_left _ _
  have hu : ∀ x : ℝ, max (-1) (min 1 x) ≤ 1 := fun x => max_le (by norm_num) (min_le_left _ _)
  have hd : |max (-1) (min 1 a) - max (-1) (min 1 b)| ≤ |a - b| := by
    have h1 := abs_max_sub_max_le_max (-1 : ℝ) (min 1 a) (-1) (min 1 b)
    have h2 := abs_min_sub_min_le_max (1 : ℝ) a 1 b
    have e : ∀ x : ℝ, max |(-1 : ℝ) - -1| |x| = |x| := fun x => by rw [sub_self, abs_zero]; exact max_eq_right (abs_nonneg _)
    have e' : ∀ x : ℝ, max |(1 : ℝ) - 1| |x| = |x| := fun x => by rw [sub_self, abs_zero]; exact max_eq_right (abs_nonneg _)
    rw [e] at h1
    rw [e'] at h2
    exact h1.trans h2
  refine le_trans ?_ (mul_le_mul_of_nonneg_left hd (by positivity))
  have ha1 := hl a
  have ha2 := hu a
  have hb1 := hl b
  have hb2 := hu b
  generalize max (-1) (min 1 a) = u at *
  generalize max (-1) (min 1 b) = v at *
  rcases le_total u v with h | h
  · rw [abs_of_nonpos (by linarith), neg_sub]
    exact arccos_near_aux ha1 hb2 h
  · rw [abs_of_nonneg (by linarith), ← neg_sq, neg_sub]
    exact arccos_near_aux hb1 ha2 h

/-- Errors of six units of `10⁻¹⁵` in the argument. -/
theorem arccos_small {a b : ℝ} (h : |a - b| ≤ 6e-15) : |Real.arccos a - Real.arccos b| ≤ 1.73e-7 := by
  have h1 := arccos_near a b
  have hpi := Real.pi_pos
  have hpi2 := Real.pi_lt_d4
  apply abs_le_of_sq_le_sq _ (by norm_num)
  refine h1.trans ?_
  have : Real.pi ^ 2 ≤ 3.1416 ^ 2 := pow_le_pow_left₀ hpi.le hpi2.le 2
  have : Real.pi ^ 2 / 2 * |a - b| ≤ 3.1416 ^ 2 / 2 * 6e-15 := mul_le_mul (by linarith) h (abs_nonneg _) (by norm_num)
  refine this.trans ?_
  norm_num

theorem arcsin_small {a b : ℝ} (h : |a - b| ≤ 6e-15) : |Real.arcsin a - Real.arcsin b| ≤ 1.73e-7 := by
  have := arccos_small h
  rw [Real.arccos_eq_pi_div_two_sub_arcsin, Real.arccos_eq_pi_div_two_sub_arcsin] at this
  rw [abs_sub_comm]
  convert this using 2
  ring

/-! ## Angles -/

theorem radianFactor_close : |radianFactor - Real.pi / 180| ≤ Real.pi / 180 * (1 / 2 ^ 52) := by
  have h1 := Real.pi_gt_d20
  have h2 := Real.pi_lt_d20
  unfold radianFactor
  rw [abs_le]
  norm_num at *
  constructor <;> linarith

theorem radianFactor_pos : 0 < radianFactor := by unfold radianFactor; positivity

/-- The angle in radians, as computed. -/
noncomputable def rad (x : ℝ) : ℝ := fl (x * radianFactor)

theorem rad_mono {x y : ℝ} (h : x ≤ y) : rad x ≤ rad y := fl_mono (mul_le_mul_of_nonneg_right h radianFactor_pos.le)

theorem rad_nonneg {x : ℝ} (h : 0 ≤ x) : 0 ≤ rad x := le_fl double_zero (mul_nonneg h radianFactor_pos.le)

theorem rad_180 : rad 180 = 884279719003555 / 2 ^ 48 := by
  unfold rad
  rw [fl_eq_of (n := 7074237752028440) (e := -51) (by norm_num)
      (by rw [abs_of_nonneg (by unfold radianFactor; positivity)]; unfold radianFactor; norm_num)
      (by rw [abs_of_nonneg (by unfold radianFactor; positivity)]; unfold radianFactor; norm_num)
      (by rw [abs_lt]; unfold radianFactor; norm_num)]
  norm_num

theorem rad_90 : rad 90 = 884279719003555 / 2 ^ 49 := by
  unfold rad
  rw [fl_eq_of (n := 7074237752028440) (e := -52) (by norm_num)
      (by rw [abs_of_nonneg (by unfold radianFactor; positivity)]; unfold radianFactor; norm_num)
      (by rw [abs_of_nonneg (by unfold radianFactor; positivity)]; unfold radianFactor; norm_num)
      (by rw [abs_lt]; unfold radianFactor; norm_num)]
  norm_num

theorem quarter_lt : (884279719003555 / 2 ^ 49 : ℝ) < Real.pi / 2 := by
  have h1 := Real.pi_gt_d20
  norm_num at *
  linarith

theorem double_quarter : IsDouble (884279719003555 / 2 ^ 49) :=
  ⟨884279719003555, -49, by norm_num, by norm_num, by rw [zpow_neg]; norm_num⟩

theorem rad_close {x : ℝ} (h : 0 ≤ x) : |rad x - radians x| ≤ radians x * (3 / 2 ^ 52) + 1 / 2 ^ 100 := by
  have hp := Real.pi_pos
  have c := fl_close' (x * radianFactor)
  have r := radianFactor_close
  rw [abs_of_nonneg (mul_nonneg h radianFactor_pos.le)] at c
  have e : |x * radianFactor - radians x| ≤ radians x * (1 / 2 ^ 52) := by
    have : x * radianFactor - radians x = x * (radianFactor - Real.pi / 180) := by unfold radians; ring
    rw [this, abs_mul, abs_of_nonneg h]
    calc x * |radianFactor - Real.pi / 180| ≤ x * (Real.pi / 180 * (1 / 2 ^ 52)) := mul_le_mul_of_nonneg_left r h
      _ = radians x * (1 / 2 ^ 52) := by unfold radians; ring
  have t := abs_sub_le (rad x) (x * radianFactor) (radians x)
  have hr : 0 ≤ radians x := by unfold radians; positivity
  have c' : |rad x - x * radianFactor| ≤ x * radianFactor / 2 ^ 53 + 1 / 2 ^ 100 := c
  have u : x * radianFactor ≤ radians x * 2 := by
    have := (abs_le.1 e).2
    norm_num at this ⊢
    linarith
  generalize |rad x - x * radianFactor| = p at *
  generalize |x * radianFactor - radians x| = q at *
  generalize radians x = y at *
  norm_num at *
  linarith

/-- Half the field of regard in radians, as computed. -/
noncomputable def half (f : ℝ) : ℝ := fl (rad f / 2)

theorem half_mono {f g : ℝ} (h : f ≤ g) : half f ≤ half g := fl_mono (div_le_div_of_nonneg_right (rad_mono h) (by norm_num))

theorem half_nonneg {f : ℝ} (h : 0 ≤ f) : 0 ≤ half f := le_fl double_zero (div_nonneg (rad_nonneg h) (by norm_num))

theorem half_lt {f : ℝ} (h : f ≤ 180) : half f < Real.pi / 2 := by
  refine lt_of_le_of_lt ?_ quarter_lt
  refine (half_mono h).trans ?_
  unfold half
  rw [rad_180, show (884279719003555 / 2 ^ 48 / 2 : ℝ) = 884279719003555 / 2 ^ 49 by norm_num, fl_of_double double_quarter]

theorem half_close {f : ℝ} (h : 0 ≤ f) : |half f - radians f / 2| ≤ radians f / 2 * (5 / 2 ^ 52) + 1 / 2 ^ 99 := by
  have a := rad_close h
  have hp := Real.pi_pos
  have hr : 0 ≤ radians f := by unfold radians; positivity
  have hrd := rad_nonneg h
  have c := fl_close' (rad f / 2)
  rw [abs_of_nonneg (by positivity : 0 ≤ rad f / 2)] at c
  have u := (abs_le.1 a).2
  have t := abs_sub_le (half f) (rad f / 2) (radians f / 2)
  have e : |rad f / 2 - radians f / 2| = |rad f - radians f| / 2 := by
    rw [← sub_div, abs_div, abs_of_pos (by norm_num : (0 : ℝ) < 2)]
  rw [e] at t
  have c' : |half f - rad f / 2| ≤ rad f / 2 / 2 ^ 53 + 1 / 2 ^ 100 := c
  generalize |half f - rad f / 2| = p at *
  generalize |rad f - radians f| = q at *
  generalize radians f = y at *
  norm_num at *
  linarith

theorem sinHalf_mono {f g : ℝ} (h0 : 0 ≤ f) (h : f ≤ g) (h1 : g ≤ 180) : sinHalf f ≤ sinHalf g := by
  have a := half_nonneg h0
  have b := half_lt h1
  have hp := Real.pi_pos
  show fl (Real.sin (half f)) ≤ fl (Real.sin (half g))
  exact fl_mono (Real.sin_le_sin_of_le_of_le_pi_div_two (by linarith) b.le (half_mono h))

theorem sinHalf_range {f : ℝ} (h0 : 0 ≤ f) (h1 : f ≤ 180) : 0 ≤ sinHalf f ∧ sinHalf f ≤ 1 := by
  have a := half_nonneg h0
  have b := half_lt h1
  show 0 ≤ fl (Real.sin (half f)) ∧ fl (Real.sin (half f)) ≤ 1
  exact ⟨le_fl double_zero (Real.sin_nonneg_of_nonneg_of_le_pi a (by linarith [Real.pi_pos])), fl_le double_one (Real.sin_le_one _)⟩

theorem sinHalf_close {f : ℝ} (h0 : 0 ≤ f) (h1 : f ≤ 180) :
    |sinHalf f - Real.sin (radians f / 2)| ≤ Real.sin (radians f / 2) * 3e-15 + 1 / 2 ^ 98 := by
  have hp := Real.pi_pos
  have hp4 := Real.pi_lt_d4
  have hr : 0 ≤ radians f := by unfold radians; positivity
  have hr1 : radians f / 2 ≤ Real.pi / 2 := by unfold radians; nlinarith
  have a := half_close h0
  have s := Real.abs_sin_sub_sin_le (half f) (radians f / 2)
  have m := Real.mul_le_sin (x := radians f / 2) (by positivity) hr1
  have m' : radians f / 2 ≤ Real.sin (radians f / 2) * 1.5708 := by
    have e : 2 / Real.pi * (radians f / 2) * (Real.pi / 2) = radians f / 2 := by field_simp
    have h2 := mul_le_mul_of_nonneg_right m (by positivity : 0 ≤ Real.pi / 2)
    rw [e] at h2
    have s0 : 0 ≤ Real.sin (radians f / 2) := Real.sin_nonneg_of_nonneg_of_le_pi (by positivity) (by linarith)
    refine h2.trans (mul_le_mul_of_nonneg_left (by linarith) s0)
  have c := fl_close' (Real.sin (half f))
  rw [abs_of_nonneg (Real.sin_nonneg_of_nonneg_of_le_pi (half_nonneg h0) (by linarith [half_lt h1]))] at c
  have t := abs_sub_le (sinHalf f) (Real.sin (half f)) (Real.sin (radians f / 2))
  have c' : |sinHalf f - Real.sin (half f)| ≤ Real.sin (half f) / 2 ^ 53 + 1 / 2 ^ 100 := c
  have s2 := (abs_le.1 s).2
  have s0 : 0 ≤ Real.sin (radians f / 2) := Real.sin_nonneg_of_nonneg_of_le_pi (by positivity) (by linarith)
  generalize |sinHalf f - Real.sin (half f)| = p at *
  generalize |Real.sin (half f) - Real.sin (radians f / 2)| = q at *
  generalize Real.sin (half f) = v at *
  generalize Real.sin (radians f / 2) = w at *
  generalize |half f - radians f / 2| = z at *
  generalize radians f / 2 = y at *
  norm_num at *
  linarith

/-! ## The angular radius of the Earth -/

/-- Altitudes and elevations considered. -/
structure Viewing (altitude elevation : ℝ) : Prop where
  low : -10000 ≤ elevation
  above : elevation ≤ altitude
  high : altitude ≤ 1000000000

theorem radius_near : |earthMeanRadius - meanRadius| ≤ 1e-9 ∧ 6371008 ≤ meanRadius := by
  unfold earthMeanRadius meanRadius equatorialRadius polarRadius
  rw [abs_le]
  norm_num

theorem sum_near {h : ℝ} (h0 : -10000 ≤ h) : (meanRadius + h) * (1 - 4e-16) ≤ fl (earthMeanRadius + h) ∧
    fl (earthMeanRadius + h) ≤ (meanRadius + h) * (1 + 4e-16) := by
  obtain ⟨a, b⟩ := radius_near
  rw [abs_le] at a
  obtain ⟨c, d⟩ := fl_between (x := earthMeanRadius + h) (by norm_num at *; linarith)
  have := a.1; have := a.2
  constructor
  · refine le_trans ?_ c
    norm_num at *; linarith
  · refine d.trans ?_
    norm_num at *; linarith

theorem rho_range {altitude elevation : ℝ} (h : Viewing altitude elevation) :
    0.006 ≤ Geometry.sinRho altitude elevation ∧ Geometry.sinRho altitude elevation ≤ 1 := by
  obtain ⟨-, b⟩ := radius_near
  obtain ⟨h1, h2, h3⟩ := h
  have hR := meanRadius_lt
  unfold Geometry.sinRho
  constructor
  · rw [le_div_iff₀ (by linarith)]; norm_num; linarith
  · rw [div_le_one (by linarith)]; linarith

theorem rho_near {altitude elevation : ℝ} (h : Viewing altitude elevation) :
    Geometry.sinRho altitude elevation * (1 - 1.2e-15) ≤ Ieee.sinRho altitude elevation ∧
      Ieee.sinRho altitude elevation ≤ Geometry.sinRho altitude elevation * (1 + 1.2e-15) := by
  obtain ⟨-, b⟩ := radius_near
  obtain ⟨r1, r2⟩ := rho_range h
  obtain ⟨h1, h2, h3⟩ := h
  obtain ⟨a1, a2⟩ := sum_near h1
  obtain ⟨b1, b2⟩ := sum_near (h := altitude) (by linarith)
  have hA : 0 < meanRadius + elevation := by linarith
  have hB : 0 < meanRadius + altitude := by linarith
  have e : Geometry.sinRho altitude elevation * (meanRadius + altitude) = meanRadius + elevation := by
    unfold Geometry.sinRho; field_simp
  unfold Ieee.sinRho
  have hy : 0 < fl (earthMeanRadius + altitude) := lt_of_lt_of_le (mul_pos hB (by norm_num)) b1
  generalize Geometry.sinRho altitude elevation = r at *
  generalize meanRadius + altitude = B at *
  generalize meanRadius + elevation = A at *
  generalize fl (earthMeanRadius + altitude) = y at *
  generalize fl (earthMeanRadius + elevation) = x at *
  have hr : 0 < r := by norm_num at r1; linarith
  have c1 : r * (1 - 9e-16) ≤ x / y := by
    rw [le_div_iff₀ hy]
    have : r * (1 - 9e-16) * y ≤ r * (1 - 9e-16) * (B * (1 + 4e-16)) := mul_le_mul_of_nonneg_left b2 (mul_nonneg hr.le (by norm_num))
    refine this.trans (le_trans ?_ a1)
    rw [← e]
    have : 0 < r * B := mul_pos hr hB
    norm_num at this ⊢
    nlinarith
  have c2 : x / y ≤ r * (1 + 9e-16) := by
    rw [div_le_iff₀ hy]
    have : r * (1 + 9e-16) * (B * (1 - 4e-16)) ≤ r * (1 + 9e-16) * y := mul_le_mul_of_nonneg_left b1 (mul_nonneg hr.le (by norm_num))
    refine le_trans (a2.trans ?_) this
    rw [← e]
    have : 0 < r * B := mul_pos hr hB
    norm_num at this ⊢
    nlinarith
  obtain ⟨d1, d2⟩ := fl_between (x := x / y) (le_trans (by norm_num at *; linarith) c1)
  constructor
  · refine le_trans ?_ d1; norm_num at *; linarith
  · refine d2.trans ?_; norm_num at *; linarith

theorem rho_le_one {altitude elevation : ℝ} (h : Viewing altitude elevation) :
    0 < Ieee.sinRho altitude elevation ∧ Ieee.sinRho altitude elevation ≤ 1 := by
  obtain ⟨r1, r2⟩ := rho_range h
  obtain ⟨n1, -⟩ := rho_near h
  obtain ⟨-, b⟩ := radius_near
  obtain ⟨h1, h2, h3⟩ := h
  obtain ⟨a1, a2⟩ := sum_near h1
  obtain ⟨b1, b2⟩ := sum_near (h := altitude) (by linarith)
  constructor
  · refine lt_of_lt_of_le ?_ n1
    norm_num at *; linarith
  · refine fl_le double_one ?_
    rw [div_le_one (lt_of_lt_of_le (mul_pos (by linarith) (by norm_num)) b1)]
    exact fl_mono (by linarith)

/-! ## The cosine of the elevation angle -/

/-- The cosine computed, compared with the exact one, both not above one. -/
theorem cosine_near {altitude elevation f : ℝ} (h : Viewing altitude elevation) (h0 : 0 ≤ f) (h1 : f ≤ 180) :
    |min 1 (fl (sinHalf f / Ieee.sinRho altitude elevation)) -
      min 1 (Real.sin (radians f / 2) / Geometry.sinRho altitude elevation)| ≤ 6e-15 := by
  have hp := Real.pi_pos
  obtain ⟨r1, r2⟩ := rho_range h
  obtain ⟨n1, n2⟩ := rho_near h
  obtain ⟨o1, o2⟩ := rho_le_one h
  have hc := sinHalf_close h0 h1
  obtain ⟨s0, -⟩ := sinHalf_range h0 h1
  have hr : 0 ≤ radians f := by unfold radians; positivity
  have hr1 : radians f / 2 ≤ Real.pi / 2 := by unfold radians; nlinarith
  have hs : 0 ≤ Real.sin (radians f / 2) := Real.sin_nonneg_of_nonneg_of_le_pi (by positivity) (by linarith)
  generalize Real.sin (radians f / 2) = s at *
  generalize Geometry.sinRho altitude elevation = r at *
  generalize Ieee.sinRho altitude elevation = r' at *
  generalize sinHalf f = s' at *
  have hr0 : 0 < r := by norm_num at r1; linarith
  set c := s / r with hcd
  have hc0 : 0 ≤ c := by positivity
  have hcr : s = c * r := by rw [hcd]; field_simp
  have fc := fl_close' (s' / r')
  rw [abs_of_nonneg (div_nonneg s0 o1.le)] at fc
  rw [abs_le] at fc hc
  have u1 : s' / r' ≤ c * (1 + 4.3e-15) + 1 / 2 ^ 80 := by
    rw [div_le_iff₀ o1]
    have : (c * (1 + 4.3e-15) + 1 / 2 ^ 80) * (r * (1 - 1.2e-15)) ≤ (c * (1 + 4.3e-15) + 1 / 2 ^ 80) * r' :=
      mul_le_mul_of_nonneg_left n1 (by positivity)
    refine le_trans ?_ this
    have cr : 0 ≤ c * r := mul_nonneg hc0 hr0.le
    have h2 := hc.2
    rw [hcr] at h2
    norm_num at h2 r1 ⊢
    nlinarith
  have u2 : c * (1 - 4.3e-15) - 1 / 2 ^ 80 ≤ s' / r' := by
    rw [le_div_iff₀ o1]
    by_cases hneg : c * (1 - 4.3e-15) - 1 / 2 ^ 80 ≤ 0
    · exact (mul_nonpos_of_nonpos_of_nonneg hneg o1.le).trans s0
    push Not at hneg
    have : (c * (1 - 4.3e-15) - 1 / 2 ^ 80) * r' ≤ (c * (1 - 4.3e-15) - 1 / 2 ^ 80) * (r * (1 + 1.2e-15)) :=
      mul_le_mul_of_nonneg_left n2 hneg.le
    refine this.trans ?_
    have cr : 0 ≤ c * r := mul_nonneg hc0 hr0.le
    have h2 := hc.1
    rw [hcr] at h2
    norm_num at h2 r1 ⊢
    nlinarith
  generalize s' / r' = q at *
  have w1 : fl q ≤ c * (1 + 5e-15) + 1 / 2 ^ 79 := by
    have := fc.2; norm_num at *; linarith
  have w2 : c * (1 - 5e-15) - 1 / 2 ^ 79 ≤ fl q := by
    have := fc.1; norm_num at *; linarith
  generalize fl q = z at *
  rw [abs_le]
  rcases le_total 1 c with k | k
  · rw [min_eq_left k]
    have : 1 - 6e-15 ≤ z := by norm_num at *; linarith
    constructor
    · have : 1 - 6e-15 ≤ min 1 z := le_min (by norm_num) this
      linarith
    · have p : (0 : ℝ) ≤ 6e-15 := by norm_num
      have := min_le_left 1 z
      linarith
  · rw [min_eq_right k]
    constructor
    · have : c - 6e-15 ≤ min 1 z := le_min (by norm_num at *; linarith) (by norm_num at *; linarith)
      linarith
    · have p : z ≤ c + 6e-15 := by norm_num at *; linarith
      have := min_le_right 1 z
      linarith

theorem arccos_min (x : ℝ) : Real.arccos (min 1 x) = Real.arccos x := by
  rcases le_total 1 x with h | h
  · rw [min_eq_left h, Real.arccos_of_one_le h, Real.arccos_one]
  · rw [min_eq_right h]

theorem deg_close {v : ℝ} (h0 : -(Real.pi / 2) ≤ v) (h1 : v ≤ Real.pi / 2) : |fl (fl v * degreeFactor) - degrees v| ≤ 1e-13 := by
  have a := lat_close (Real.sin v)
  rw [Real.arcsin_sin h0 h1] at a
  obtain ⟨f1, f2⟩ := degreeFactor_between
  have hp := Real.pi_pos
  have hv : |v| ≤ 1.5708 := by have := abs_arcsin_le (Real.sin v); rwa [Real.arcsin_sin h0 h1] at this
  have hpi := Real.pi_gt_d2
  have e1 : |degreeFactor - 180 / Real.pi| ≤ 58 / 2 ^ 52 := by
    have : 180 / Real.pi ≤ 58 := by rw [div_le_iff₀ hp]; linarith
    rw [abs_le]; norm_num at *; constructor <;> linarith
  have e2 : |v * degreeFactor - degrees v| ≤ 1.5708 * (58 / 2 ^ 52) := by
    have : v * degreeFactor - degrees v = v * (degreeFactor - 180 / Real.pi) := by unfold degrees; ring
    rw [this, abs_mul]
    exact mul_le_mul hv e1 (abs_nonneg _) (by norm_num)
  refine (abs_sub_le _ (v * degreeFactor) _).trans ?_
  norm_num at *
  linarith

theorem degrees_small {x : ℝ} (h : |x| ≤ 1.73e-7) : |degrees x| ≤ 9.95e-6 := by
  have hp := Real.pi_gt_d4
  have hp0 := Real.pi_pos
  unfold degrees
  rw [abs_mul, abs_of_pos (by positivity : 0 < 180 / Real.pi)]
  have : 180 / Real.pi ≤ 57.3 := by rw [div_le_iff₀ hp0]; norm_num at *; linarith
  exact (mul_le_mul h this (by positivity) (by norm_num)).trans (by norm_num)

/-- The minimum elevation angle in one formula. -/
theorem minElevation_eq {altitude elevation f : ℝ} (h : Viewing altitude elevation) (h0 : 0 ≤ f) (h1 : f ≤ 180) :
    Ieee.minElevation altitude f elevation =
      some (fl (fl (Real.arccos (fl (sinHalf f / Ieee.sinRho altitude elevation))) * degreeFactor)) := by
  obtain ⟨s0, -⟩ := sinHalf_range h0 h1
  obtain ⟨o1, -⟩ := rho_le_one h
  have c0 : 0 ≤ fl (sinHalf f / Ieee.sinRho altitude elevation) := le_fl double_zero (div_nonneg s0 o1.le)
  unfold Ieee.minElevation
  simp only
  split_ifs with hc
  · rw [Real.arccos_of_one_le hc.le, fl_zero, zero_mul, fl_zero]
  · unfold npArccos
    rw [if_pos ⟨by linarith, not_lt.1 hc⟩]
    rfl

/-- C148, minimum elevation angle: it is a number between 0 and 90 degrees, no larger for a wider field of regard, and within
`10⁻⁵` degrees of the exact one. -/
theorem C148_min_elevation (altitude elevation f g : ℝ) (h : Viewing altitude elevation) (h0 : 0 ≤ f) (hfg : f ≤ g) (h1 : g ≤ 180) :
    ∃ x y, Ieee.minElevation altitude f elevation = some x ∧ Ieee.minElevation altitude g elevation = some y ∧
      0 ≤ y ∧ y ≤ x ∧ x ≤ 90 ∧ |x - Geometry.minElevation altitude f elevation| ≤ 1e-5 := by
  have hf1 : f ≤ 180 := hfg.trans h1
  have hg0 : 0 ≤ g := h0.trans hfg
  refine ⟨_, _, minElevation_eq h h0 hf1, minElevation_eq h hg0 h1, ?_, ?_, ?_, ?_⟩
  · obtain ⟨f1, f2⟩ := factor_num
    exact le_fl double_zero (mul_nonneg (le_fl double_zero (Real.arccos_nonneg _)) (by norm_num at *; linarith))
  · obtain ⟨f1, f2⟩ := factor_num
    obtain ⟨o1, -⟩ := rho_le_one h
    have hc := fl_mono (div_le_div_of_nonneg_right (sinHalf_mono h0 hfg h1) o1.le)
    exact fl_mono (mul_le_mul_of_nonneg_right (fl_mono (Real.arccos_le_arccos hc)) (by norm_num at *; linarith))
  · obtain ⟨f1, f2⟩ := factor_num
    obtain ⟨s0, -⟩ := sinHalf_range h0 hf1
    obtain ⟨o1, -⟩ := rho_le_one h
    have c0 : 0 ≤ fl (sinHalf f / Ieee.sinRho altitude elevation) := le_fl double_zero (div_nonneg s0 o1.le)
    have : fl (Real.arccos (fl (sinHalf f / Ieee.sinRho altitude elevation))) ≤ 884279719003555 / 2 ^ 49 := by
      rw [← fl_quarter]
      exact fl_mono (Real.arccos_le_pi_div_two.2 c0)
    rw [← quarter_product]
    exact fl_mono (mul_le_mul_of_nonneg_right this (by norm_num at *; linarith))
  · have hn := arccos_small (cosine_near h h0 hf1)
    rw [arccos_min, arccos_min] at hn
    obtain ⟨s0, -⟩ := sinHalf_range h0 hf1
    obtain ⟨o1, -⟩ := rho_le_one h
    have c0 : 0 ≤ fl (sinHalf f / Ieee.sinRho altitude elevation) := le_fl double_zero (div_nonneg s0 o1.le)
    have hd := deg_close (v := Real.arccos (fl (sinHalf f / Ieee.sinRho altitude elevation)))
      (by have := Real.arccos_nonneg (fl (sinHalf f / Ieee.sinRho altitude elevation)); have := Real.pi_pos; linarith)
      (Real.arccos_le_pi_div_two.2 c0)
    have hs := degrees_small hn
    have e : Geometry.minElevation altitude f elevation =
        degrees (Real.arccos (Real.sin (radians f / 2) / Geometry.sinRho altitude elevation)) := by
      unfold Geometry.minElevation
      simp only
      split_ifs with hc
      · rw [Real.arccos_of_one_le hc.le]; unfold degrees; simp
      · rfl
    rw [e]
    generalize Real.arccos (fl (sinHalf f / Ieee.sinRho altitude elevation)) = u at *
    generalize Real.arccos (Real.sin (radians f / 2) / Geometry.sinRho altitude elevation) = v at *
    have e2 : degrees (u - v) = degrees u - degrees v := by unfold degrees; ring
    rw [e2] at hs
    refine (abs_sub_le _ (degrees u) _).trans ?_
    norm_num at *
    linarith

/-- C148, swath width: it is a number, and within `7·10⁻⁷` of the radius of the surface (4.5 m) of the exact one. -/
theorem C148_swath (altitude elevation f : ℝ) (h : Viewing altitude elevation) (h0 : 0 ≤ f) (h1 : f ≤ 180) :
    ∃ w, Ieee.forToSwath altitude f elevation = some w ∧
      |w - Geometry.forToSwath altitude f elevation| ≤ 7e-7 * (meanRadius + elevation) := by
  have hp := Real.pi_pos
  obtain ⟨s0, s1⟩ := sinHalf_range h0 h1
  obtain ⟨o1, o2⟩ := rho_le_one h
  obtain ⟨n1, n2⟩ := rho_near h
  obtain ⟨r1, r2⟩ := rho_range h
  have hcn := cosine_near h h0 h1
  have hsc := sinHalf_close h0 h1
  obtain ⟨a1, a2⟩ := sum_near h.low
  have hA6 : 6360000 ≤ meanRadius + elevation := by
    have := radius_near; have := h.low; norm_num at *; linarith
  have hA : 0 < meanRadius + elevation := by linarith
  have hr : 0 ≤ radians f := by unfold radians; positivity
  have hr1 : radians f / 2 ≤ Real.pi / 2 := by unfold radians; nlinarith
  have hs : 0 ≤ Real.sin (radians f / 2) := Real.sin_nonneg_of_nonneg_of_le_pi (by positivity) (by linarith)
  have hs1 := Real.sin_le_one (radians f / 2)
  unfold Ieee.forToSwath Geometry.forToSwath
  simp only
  generalize Real.sin (radians f / 2) = s at *
  generalize Geometry.sinRho altitude elevation = r at *
  generalize Ieee.sinRho altitude elevation = r' at *
  generalize sinHalf f = s' at *
  generalize meanRadius + elevation = A at *
  generalize fl (earthMeanRadius + elevation) = a at *
  have hr0 : 0 < r := by norm_num at r1; linarith
  -- the cosines
  have e1 : fl (min r' s' / r') = min 1 (fl (s' / r')) := by
    rcases le_total r' s' with k | k
    · rw [min_eq_left k, div_self o1.ne', fl_of_double double_one, min_eq_left]
      exact le_fl double_one (by rwa [le_div_iff₀ o1, one_mul])
    · rw [min_eq_right k, min_eq_right]
      exact fl_le double_one (by rwa [div_le_one o1])
  have e2 : min r s / r = min 1 (s / r) := by
    rw [← min_div_div_right hr0.le, div_self hr0.ne']
  rw [e1, e2]
  have ce := arccos_small hcn
  have c0 : 0 ≤ min 1 (fl (s' / r')) := le_min (by norm_num) (le_fl double_zero (div_nonneg s0 o1.le))
  have c1 : min 1 (fl (s' / r')) ≤ 1 := min_le_left _ _
  -- the sines
  have se : |min r' s' - min r s| ≤ 6e-15 := by
    refine (abs_min_sub_min_le_max _ _ _ _).trans (max_le ?_ ?_)
    · rw [abs_le]; norm_num at *; constructor <;> linarith
    · refine hsc.trans ?_
      norm_num at *; linarith
  have as := arcsin_small se
  have t0 : 0 ≤ min r' s' := le_min o1.le s0
  have t1 : min r' s' ≤ 1 := (min_le_right _ _).trans s1
  unfold npArcsin npArccos
  rw [if_pos ⟨by linarith, t1⟩, if_pos ⟨by linarith, c1⟩]
  refine ⟨_, rfl, ?_⟩
  have q1 := Real.arcsin_nonneg.2 t0
  have q2 := Real.arcsin_le_pi_div_two (min r' s')
  have q3 := Real.arccos_nonneg (min 1 (fl (s' / r')))
  have q4 := Real.arccos_le_pi_div_two.2 c0
  generalize Real.arcsin (min r' s') = u at *
  generalize Real.arccos (min 1 (fl (s' / r'))) = v at *
  generalize Real.arcsin (min r s) = u₀ at *
  generalize Real.arccos (min 1 (s / r)) = v₀ at *
  have fu := fl_close' u
  have fv := fl_close' v
  rw [abs_of_nonneg q1] at fu
  rw [abs_of_nonneg q3] at fv
  have hpi := Real.pi_lt_d4
  have hpd : |Ieee.pi / 2 - Real.pi / 2| ≤ 1e-15 := by
    have := Real.pi_gt_d20; have := Real.pi_lt_d20
    unfold Ieee.pi; rw [abs_le]; norm_num at *; constructor <;> linarith
  rw [abs_le] at fu fv hpd as ce
  have g1 := fl_close' (Ieee.pi / 2 - fl u)
  have g1' : |Ieee.pi / 2 - fl u| ≤ 2 := by
    rw [abs_le]; norm_num at *; constructor <;> linarith [fu.1, fu.2, hpd.1, hpd.2]
  have g2 := fl_close' (fl (Ieee.pi / 2 - fl u) - fl v)
  generalize hm : fl (Ieee.pi / 2 - fl u) = m at *
  have g1'' : |m - (Ieee.pi / 2 - fl u)| ≤ 1e-15 := by norm_num at *; linarith
  rw [abs_le] at g1''
  have g2' : |m - fl v| ≤ 4 := by
    have := abs_le.1 g1'
    rw [abs_le]; norm_num at *; constructor <;> linarith [fu.1, fu.2, fv.1, fv.2, hpd.1, hpd.2, g1''.1, g1''.2]
  have g2'' : |fl (m - fl v) - (m - fl v)| ≤ 1e-15 := by norm_num at *; linarith
  rw [abs_le] at g2''
  have lam : |fl (m - fl v) - (Real.pi / 2 - u₀ - v₀)| ≤ 3.47e-7 := by
    rw [abs_le]
    have := g2''.1; have := g2''.2; have := g1''.1; have := g1''.2; have := fu.1; have := fu.2; have := fv.1; have := fv.2
    have := hpd.1; have := hpd.2; have := as.1; have := as.2; have := ce.1; have := ce.2
    norm_num at *
    constructor <;> linarith
  have lam0 : |fl (m - fl v)| ≤ 5 := by
    have := abs_le.1 g2'
    rw [abs_le]; norm_num at *; constructor <;> linarith [g2''.1, g2''.2]
  generalize fl (m - fl v) = l at *
  generalize Real.pi / 2 - u₀ - v₀ = l₀ at *
  have ha : 0 ≤ a := le_trans (mul_nonneg hA.le (by norm_num)) a1
  have k1 := fl_close' (2 * a)
  rw [abs_of_nonneg (by positivity : 0 ≤ 2 * a)] at k1
  have k2 : |fl (2 * a) - 2 * A| ≤ A * 2e-15 + 1 / 2 ^ 100 := by
    rw [abs_le] at k1 ⊢
    norm_num at *
    constructor <;> linarith [k1.1, k1.2]
  have k3 : |fl (2 * a)| ≤ 3 * A + 1 := by
    have := abs_le.1 k2
    rw [abs_le]; norm_num at *; constructor <;> linarith
  have k4 := fl_close' (fl (2 * a) * l)
  have k5 : |fl (2 * a) * l| ≤ (3 * A + 1) * 5 := by
    rw [abs_mul]; exact mul_le_mul k3 lam0 (abs_nonneg _) (by linarith)
  have k6 : |fl (2 * a) * l - 2 * A * l₀| ≤ (A * 2e-15 + 1 / 2 ^ 100) * 5 + 2 * A * 3.47e-7 := by
    have : fl (2 * a) * l - 2 * A * l₀ = (fl (2 * a) - 2 * A) * l + 2 * A * (l - l₀) := by ring
    rw [this]
    refine (abs_add_le _ _).trans (add_le_add ?_ ?_)
    · rw [abs_mul]; exact mul_le_mul k2 lam0 (abs_nonneg _) (by positivity)
    · rw [abs_mul, abs_of_pos (by positivity : 0 < 2 * A)]
      exact mul_le_mul_of_nonneg_left lam (by positivity)
  refine (abs_sub_le _ (fl (2 * a) * l) _).trans ?_
  norm_num at *
  linarith

/-- The cosine of the minimum elevation angle as computed. -/
theorem cosAt_range {e : ℝ} (h0 : 0 ≤ e) (h1 : e ≤ 90) :
    0 ≤ rad e ∧ rad e ≤ Real.pi / 2 ∧ 0 ≤ fl (Real.cos (rad e)) ∧ fl (Real.cos (rad e)) ≤ 1 := by
  have a := rad_nonneg h0
  have b : rad e ≤ Real.pi / 2 := by
    have := rad_mono h1
    rw [rad_90] at this
    exact this.trans quarter_lt.le
  exact ⟨a, b, le_fl double_zero (Real.cos_nonneg_of_neg_pi_div_two_le_of_le (by have := Real.pi_pos; linarith) b),
    fl_le double_one (Real.cos_le_one _)⟩

theorem half_product : fl (fl (884279719003555 / 2 ^ 49 * 2) * degreeFactor) = 180 := by
  have e : fl (884279719003555 / 2 ^ 49 * 2) = 884279719003555 / 2 ^ 48 := by
    rw [show (884279719003555 / 2 ^ 49 * 2 : ℝ) = 884279719003555 / 2 ^ 48 by norm_num, ← rad_180]
    exact fl_of_double (fl_double _)
  rw [e, fl_eq_of (n := 180 * 2 ^ 45) (e := -45) (by norm_num)
      (by rw [abs_of_nonneg (by unfold degreeFactor; positivity)]; unfold degreeFactor; norm_num)
      (by rw [abs_of_nonneg (by unfold degreeFactor; positivity)]; unfold degreeFactor; norm_num)
      (by rw [abs_lt]; unfold degreeFactor; norm_num)]
  norm_num

theorem fieldOfRegard_eq {altitude elevation e : ℝ} (h : Viewing altitude elevation) (h0 : 0 ≤ e) (h1 : e ≤ 90) :
    Ieee.fieldOfRegard altitude e elevation =
      some (fl (fl (fl (Real.arcsin (fl (Ieee.sinRho altitude elevation * fl (Real.cos (rad e))))) * 2) * degreeFactor)) := by
  obtain ⟨-, -, c0, c1⟩ := cosAt_range h0 h1
  obtain ⟨o1, o2⟩ := rho_le_one h
  have t0 : 0 ≤ fl (Ieee.sinRho altitude elevation * fl (Real.cos (rad e))) := le_fl double_zero (mul_nonneg o1.le c0)
  have t1 : fl (Ieee.sinRho altitude elevation * fl (Real.cos (rad e))) ≤ 1 := fl_le double_one (mul_le_one₀ o2 c0 c1)
  unfold Ieee.fieldOfRegard npArcsin
  change (do let eta ← (if -1 ≤ fl (Ieee.sinRho altitude elevation * fl (Real.cos (rad e))) ∧
      fl (Ieee.sinRho altitude elevation * fl (Real.cos (rad e))) ≤ 1 then
        some (fl (Real.arcsin (fl (Ieee.sinRho altitude elevation * fl (Real.cos (rad e)))))) else none); _) = _
  rw [if_pos ⟨by linarith, t1⟩]
  rfl

/-- C148, field of regard: it is a number between 0 and 180 degrees, no larger for a larger minimum elevation angle, and within
`2·10⁻⁵` degrees of the exact one. -/
theorem C148_field_of_regard (altitude elevation e d : ℝ) (h : Viewing altitude elevation) (h0 : 0 ≤ e) (hed : e ≤ d)
    (h1 : d ≤ 90) :
    ∃ x y, Ieee.fieldOfRegard altitude e elevation = some x ∧ Ieee.fieldOfRegard altitude d elevation = some y ∧
      0 ≤ y ∧ y ≤ x ∧ x ≤ 180 ∧ |x - Geometry.fieldOfRegard altitude e elevation| ≤ 2e-5 := by
  have he1 : e ≤ 90 := hed.trans h1
  have hd0 : 0 ≤ d := h0.trans hed
  obtain ⟨f1, f2⟩ := factor_num
  have f0 : 0 ≤ degreeFactor := by norm_num at *; linarith
  obtain ⟨o1, o2⟩ := rho_le_one h
  obtain ⟨a0, a1, c0, c1⟩ := cosAt_range h0 he1
  obtain ⟨b0, b1, d0, d1⟩ := cosAt_range hd0 h1
  refine ⟨_, _, fieldOfRegard_eq h h0 he1, fieldOfRegard_eq h hd0 h1, ?_, ?_, ?_, ?_⟩
  · have : 0 ≤ fl (Real.arcsin (fl (Ieee.sinRho altitude elevation * fl (Real.cos (rad d))))) :=
      le_fl double_zero (Real.arcsin_nonneg.2 (le_fl double_zero (mul_nonneg o1.le d0)))
    exact le_fl double_zero (mul_nonneg (le_fl double_zero (by linarith)) f0)
  · have hc : Real.cos (rad d) ≤ Real.cos (rad e) :=
      Real.cos_le_cos_of_nonneg_of_le_pi a0 (by have := Real.pi_pos; linarith) (rad_mono hed)
    have := fl_mono (Real.monotone_arcsin (fl_mono (mul_le_mul_of_nonneg_left (fl_mono hc) o1.le)))
    exact fl_mono (mul_le_mul_of_nonneg_right (fl_mono (mul_le_mul_of_nonneg_right this (by norm_num))) f0)
  · have := fl_mono (Real.arcsin_le_pi_div_two (fl (Ieee.sinRho altitude elevation * fl (Real.cos (rad e)))))
    rw [fl_quarter] at this
    rw [← half_product]
    exact fl_mono (mul_le_mul_of_nonneg_right (fl_mono (mul_le_mul_of_nonneg_right this (by norm_num))) f0)
  · obtain ⟨n1, n2⟩ := rho_near h
    obtain ⟨r1, r2⟩ := rho_range h
    have rc := rad_close h0
    have rn : 0 ≤ radians e := by unfold radians; have := Real.pi_pos; positivity
    have rq : radians e ≤ 1.5708 := by
      have : radians e ≤ Real.pi / 2 := by unfold radians; have := Real.pi_pos; nlinarith
      have := Real.pi_lt_d4
      norm_num at *; linarith
    have k1 : |Real.cos (rad e) - Real.cos (radians e)| ≤ 1.3e-15 := by
      refine (Real.abs_cos_sub_cos_le _ _).trans (rc.trans ?_)
      norm_num at *; linarith
    have k2 := fl_close' (Real.cos (rad e))
    have k3 := Real.abs_cos_le_one (rad e)
    have k4 := Real.abs_cos_le_one (radians e)
    have k5 : |fl (Real.cos (rad e)) - Real.cos (radians e)| ≤ 1.5e-15 := by
      refine (abs_sub_le _ (Real.cos (rad e)) _).trans ?_
      norm_num at *; linarith
    have k6 := fl_close' (Ieee.sinRho altitude elevation * fl (Real.cos (rad e)))
    unfold Geometry.fieldOfRegard
    simp only
    generalize fl (Real.cos (rad e)) = c at *
    generalize Real.cos (radians e) = c₀ at *
    generalize Ieee.sinRho altitude elevation = r' at *
    generalize Geometry.sinRho altitude elevation = r at *
    have k7 : |r' * c - r * c₀| ≤ 3e-15 := by
      have e1 : r' * c - r * c₀ = r' * (c - c₀) + (r' - r) * c₀ := by ring
      have e2 : |r' - r| ≤ 1.2e-15 := by rw [abs_le]; norm_num at *; constructor <;> linarith
      rw [e1]
      refine (abs_add_le _ _).trans ?_
      rw [abs_mul, abs_mul, abs_of_pos o1]
      have := mul_le_mul o2 k5 (abs_nonneg _) (by norm_num)
      have := mul_le_mul e2 k4 (abs_nonneg _) (by norm_num)
      norm_num at *; linarith
    have k8 : |r' * c| ≤ 1 := by rw [abs_of_nonneg (mul_nonneg o1.le c0)]; exact mul_le_one₀ o2 c0 c1
    have k9 : |fl (r' * c) - r * c₀| ≤ 6e-15 := by
      refine (abs_sub_le _ (r' * c) _).trans ?_
      norm_num at *; linarith
    have l1 := arcsin_small k9
    have l2 := abs_arcsin_le (fl (r' * c))
    generalize Real.arcsin (fl (r' * c)) = u at *
    generalize Real.arcsin (r * c₀) = v at *
    have m1 := fl_close' u
    have m2 : |fl u - u| ≤ 2e-16 := by norm_num at *; linarith
    have m3 : |fl u| ≤ 1.6 := by
      have := abs_sub_abs_le_abs_sub (fl u) u
      norm_num at *; linarith
    have m4 := fl_close' (fl u * 2)
    rw [abs_mul, abs_two] at m4
    have m5 : |fl (fl u * 2) - u * 2| ≤ 1e-15 := by
      have : fl (fl u * 2) - u * 2 = (fl (fl u * 2) - fl u * 2) + (fl u - u) * 2 := by ring
      rw [this]
      refine (abs_add_le _ _).trans ?_
      rw [abs_mul (fl u - u), abs_two]
      norm_num at *; linarith
    have m6 : |fl (fl u * 2)| ≤ 3.2 := by
      have := abs_sub_abs_le_abs_sub (fl (fl u * 2)) (u * 2)
      rw [abs_mul u, abs_two] at this
      norm_num at *; linarith
    generalize fl (fl u * 2) = w at *
    have p1 := fl_close' (w * degreeFactor)
    have p2 : |w * degreeFactor| ≤ 184 := by
      rw [abs_mul, abs_of_nonneg f0]
      exact (mul_le_mul m6 f2.le f0 (by norm_num)).trans (by norm_num)
    have q1 : |w - v * 2| ≤ 3.4601e-7 := by
      have : w - v * 2 = (w - u * 2) + (u - v) * 2 := by ring
      rw [this]
      refine (abs_add_le _ _).trans ?_
      rw [abs_mul (u - v), abs_two]
      norm_num at *; linarith
    have hp := Real.pi_gt_d4
    have hp0 := Real.pi_pos
    have q2 : 180 / Real.pi ≤ 57.3 := by rw [div_le_iff₀ hp0]; norm_num at *; linarith
    have q3 : |degreeFactor - 180 / Real.pi| ≤ 1e-13 := by
      obtain ⟨z1, z2⟩ := degreeFactor_between
      rw [abs_le]; norm_num at *; constructor <;> linarith
    have q4 : |w * degreeFactor - degrees (v * 2)| ≤ 1.99e-5 := by
      have : w * degreeFactor - degrees (v * 2) = w * (degreeFactor - 180 / Real.pi) + (w - v * 2) * (180 / Real.pi) := by
        unfold degrees; ring
      rw [this]
      refine (abs_add_le _ _).trans ?_
      rw [abs_mul, abs_mul, abs_of_pos (by positivity : 0 < 180 / Real.pi)]
      have := mul_le_mul m6 q3 (abs_nonneg _) (by norm_num)
      have := mul_le_mul q1 q2 (by positivity) (by norm_num)
      norm_num at *; linarith
    refine (abs_sub_le _ (w * degreeFactor) _).trans ?_
    norm_num at *; linarith

/-- The field of regard as computed is relatively close to twice the angle. -/
theorem double_angle_close {u : ℝ} (h0 : 0 ≤ u) :
    |radians (fl (fl (fl u * 2) * degreeFactor)) / 2 - u| ≤ u * 7e-16 + 1 / 2 ^ 98 := by
  obtain ⟨z1, z2⟩ := degreeFactor_between
  have hp := Real.pi_pos
  have hp4 := Real.pi_gt_d4
  have f0 : 0 ≤ degreeFactor := by have := factor_num.1; norm_num at *; linarith
  have f2 := factor_num.2
  have k1 := fl_close' u
  rw [abs_of_nonneg h0] at k1
  have n1 : 0 ≤ fl u := le_fl double_zero h0
  have k2 := fl_close' (fl u * 2)
  rw [abs_of_nonneg (by positivity : 0 ≤ fl u * 2)] at k2
  have n2 : 0 ≤ fl (fl u * 2) := le_fl double_zero (by positivity)
  have k3 := fl_close' (fl (fl u * 2) * degreeFactor)
  rw [abs_of_nonneg (mul_nonneg n2 f0)] at k3
  generalize fl u = a at *
  generalize fl (a * 2) = b at *
  generalize fl (b * degreeFactor) = c at *
  have b1 : |b - u * 2| ≤ u * 2 * (2.3e-16) + 4 / 2 ^ 100 := by
    rw [abs_le] at *
    norm_num at *
    constructor <;> linarith [k1.1, k1.2, k2.1, k2.2]
  have e : radians c / 2 - u = Real.pi / 360 * (c - b * degreeFactor) + b * (Real.pi / 360 * degreeFactor - 1 / 2)
      + (b - u * 2) / 2 := by unfold radians; ring
  have g1 : |Real.pi / 360 * degreeFactor - 1 / 2| ≤ 1 / 2 ^ 53 := by
    have w : Real.pi / 360 * (180 / Real.pi) = 1 / 2 := by field_simp; norm_num
    have w1 := mul_le_mul_of_nonneg_left z1 (by positivity : 0 ≤ Real.pi / 360)
    have w2 := mul_le_mul_of_nonneg_left z2 (by positivity : 0 ≤ Real.pi / 360)
    rw [← mul_assoc, w] at w1 w2
    rw [abs_le]; norm_num at *; constructor <;> linarith
  have b2 : b ≤ u * 2.0001 + 5 / 2 ^ 100 := by
    have := (abs_le.1 b1).2
    norm_num at *; linarith
  have g2 : |b * (Real.pi / 360 * degreeFactor - 1 / 2)| ≤ (u * 2.0001 + 5 / 2 ^ 100) * (1 / 2 ^ 53) := by
    rw [abs_mul, abs_of_nonneg n2]
    exact mul_le_mul b2 g1 (abs_nonneg _) (by positivity)
  have g3 : |Real.pi / 360 * (c - b * degreeFactor)| ≤ (u * 2.0001 + 5 / 2 ^ 100) * (0.5001 / 2 ^ 53) + 1 / 2 ^ 100 := by
    rw [abs_mul, abs_of_pos (by positivity : 0 < Real.pi / 360)]
    have w := mul_le_mul_of_nonneg_left k3 (by positivity : 0 ≤ Real.pi / 360)
    have w3 : Real.pi / 360 * (b * degreeFactor / 2 ^ 53 + 1 / 2 ^ 100) =
        b * (Real.pi / 360 * degreeFactor) / 2 ^ 53 + Real.pi / 360 / 2 ^ 100 := by ring
    rw [w3] at w
    have w4 : Real.pi / 360 * degreeFactor ≤ 0.5001 := by
      have := (abs_le.1 g1).2
      norm_num at *; linarith
    have w5 := mul_le_mul b2 w4 (by positivity) (by positivity)
    have w6 := Real.pi_lt_d4
    norm_num at *; linarith
  rw [e]
  refine (abs_add_le _ _).trans ?_
  have g4 := abs_add_le (Real.pi / 360 * (c - b * degreeFactor)) (b * (Real.pi / 360 * degreeFactor - 1 / 2))
  rw [abs_div (b - u * 2), abs_two]
  norm_num at *; linarith

/-- C148, there and back: the minimum elevation angle of the field of regard of a minimum elevation angle is within `10⁻⁵`
degrees of it. -/
theorem C148_round_trip (altitude elevation e : ℝ) (h : Viewing altitude elevation) (h0 : 0 ≤ e) (h1 : e ≤ 90) :
    ∃ f x, Ieee.fieldOfRegard altitude e elevation = some f ∧ Ieee.minElevation altitude f elevation = some x ∧
      |x - e| ≤ 1e-5 := by
  obtain ⟨f, f', hf, hf', l0, l1, l2, -⟩ := C148_field_of_regard altitude elevation e e h h0 le_rfl h1
  have f0 : 0 ≤ f := l0.trans l1
  refine ⟨f, _, hf, minElevation_eq h f0 l2, ?_⟩
  rw [fieldOfRegard_eq h h0 h1] at hf
  have sc := sinHalf_close f0 l2
  obtain ⟨s0, s1⟩ := sinHalf_range f0 l2
  obtain ⟨o1, o2⟩ := rho_le_one h
  obtain ⟨a0, a1, c0, c1⟩ := cosAt_range h0 h1
  obtain ⟨n1, n2⟩ := rho_near h
  obtain ⟨r1, r2⟩ := rho_range h
  have hr : 6e-3 * (1 - 1.2e-15) ≤ Ieee.sinRho altitude elevation := by
    refine le_trans ?_ n1
    exact mul_le_mul_of_nonneg_right r1 (by norm_num)
  have rc := rad_close h0
  have rn : 0 ≤ radians e := by unfold radians; have := Real.pi_pos; positivity
  have rq : radians e ≤ Real.pi / 2 := by unfold radians; have := Real.pi_pos; nlinarith
  have rq' : radians e ≤ 1.5708 := by
    have := Real.pi_lt_d4
    norm_num at *; linarith
  have k1 : |Real.cos (rad e) - Real.cos (radians e)| ≤ 1.1e-15 := by
    refine (Real.abs_cos_sub_cos_le _ _).trans (rc.trans ?_)
    norm_num at *; linarith
  have k2 := fl_close' (Real.cos (rad e))
  have k3 := Real.abs_cos_le_one (rad e)
  have k5 : |fl (Real.cos (rad e)) - Real.cos (radians e)| ≤ 1.22e-15 := by
    refine (abs_sub_le _ (Real.cos (rad e)) _).trans ?_
    norm_num at *; linarith
  have k6 := fl_close' (Ieee.sinRho altitude elevation * fl (Real.cos (rad e)))
  rw [abs_of_nonneg (mul_nonneg o1.le c0)] at k6
  have c0' : 0 ≤ fl (sinHalf f / Ieee.sinRho altitude elevation) := le_fl double_zero (div_nonneg s0 o1.le)
  have key : |fl (sinHalf f / Ieee.sinRho altitude elevation) - Real.cos (radians e)| ≤ 6e-15 := by
    clear n1 n2 r1 r2 hf' l0 l1 rc k1 k2 k3
    have t0 : 0 ≤ fl (Ieee.sinRho altitude elevation * fl (Real.cos (rad e))) := le_fl double_zero (mul_nonneg o1.le c0)
    have t1 : fl (Ieee.sinRho altitude elevation * fl (Real.cos (rad e))) ≤ 1 := fl_le double_one (mul_le_one₀ o2 c0 c1)
    generalize fl (Real.cos (rad e)) = c at *
    generalize Real.cos (radians e) = c₀ at *
    generalize Ieee.sinRho altitude elevation = r at *
    have hd := fl_close' (sinHalf f / r)
    have hu := Real.sin_arcsin (x := fl (r * c)) (by linarith) t1
    have hu0 := Real.arcsin_nonneg.2 t0
    have hu1 := Real.arcsin_le_pi_div_two (fl (r * c))
    simp only [Option.some.injEq] at hf
    generalize Real.arcsin (fl (r * c)) = u at *
    have hp4 := Real.pi_lt_d4
    have da := double_angle_close hu0
    rw [hf] at da
    have hj : 2 / Real.pi * u ≤ Real.sin u := Real.mul_le_sin hu0 hu1
    have hp0 := Real.pi_pos
    have hj' : u ≤ 1.5708 * Real.sin u := by
      rw [div_mul_eq_mul_div, div_le_iff₀ hp0] at hj
      have : 0 ≤ Real.sin u := by rw [hu]; exact t0
      norm_num at *
      nlinarith
    rw [hu] at hj'
    have sd : |Real.sin (radians f / 2) - Real.sin u| ≤ fl (r * c) * 1.2e-15 + 1 / 2 ^ 98 := by
      refine (Real.abs_sin_sub_sin_le _ _).trans (da.trans ?_)
      norm_num at *; linarith
    rw [hu] at sd
    generalize fl (r * c) = t at *
    generalize Real.sin (radians f / 2) = s at *
    generalize sinHalf f = q at *
    generalize fl (q / r) = w at *
    -- relative to `r c`
    have v1 : |q - r * c| ≤ r * c * 4.5e-15 + 1 / 2 ^ 96 := by
      rw [abs_le] at *
      have hrc : 0 ≤ r * c := mul_nonneg o1.le c0
      norm_num at *
      constructor <;> linarith [sc.1, sc.2, sd.1, sd.2, k6.1, k6.2]
    have v2 : |q / r - c| ≤ c * 4.5e-15 + 1 / 2 ^ 88 := by
      have : q / r - c = (q - r * c) / r := by field_simp
      rw [this, abs_div, abs_of_pos o1, div_le_iff₀ o1]
      refine v1.trans ?_
      norm_num at *
      nlinarith
    rw [abs_of_nonneg (div_nonneg s0 o1.le)] at hd
    rw [abs_le] at *
    norm_num at *
    constructor <;> linarith [hd.1, hd.2, v2.1, v2.2, k5.1, k5.2]
  have hn := arccos_small key
  rw [Real.arccos_cos rn (by have := Real.pi_pos; linarith)] at hn
  have hs := degrees_small hn
  have hd := deg_close (v := Real.arccos (fl (sinHalf f / Ieee.sinRho altitude elevation)))
      (by have := Real.arccos_nonneg (fl (sinHalf f / Ieee.sinRho altitude elevation)); have := Real.pi_pos; linarith)
      (Real.arccos_le_pi_div_two.2 c0')
  generalize Real.arccos (fl (sinHalf f / Ieee.sinRho altitude elevation)) = v at *
  have e2 : degrees (v - radians e) = degrees v - e := by
    unfold degrees radians; have := Real.pi_pos; field_simp
  rw [e2] at hs
  refine (abs_sub_le _ (degrees v) _).trans ?_
  norm_num at *
  linarith

/-- Where the surface is above the instrument, the field of regard is not a number: altitude 0, elevation 8848 m. -/
theorem C148_below_false : Ieee.fieldOfRegard 0 0 8848 = none := by
  have e1 : fl (Real.cos (rad 0)) = 1 := by
    have : rad 0 = 0 := by unfold rad; rw [zero_mul, fl_zero]
    rw [this, Real.cos_zero, fl_of_double double_one]
  have e2 : (6379856 : ℝ) ≤ fl (earthMeanRadius + 8848) :=
    le_fl ⟨6379856, 0, by norm_num, by norm_num, by norm_num⟩ (by unfold earthMeanRadius; norm_num)
  have e3 : fl (earthMeanRadius + 0) ≤ 6371009 :=
    fl_le ⟨6371009, 0, by norm_num, by norm_num, by norm_num⟩ (by unfold earthMeanRadius; norm_num)
  have e4 : (6371008 : ℝ) ≤ fl (earthMeanRadius + 0) :=
    le_fl ⟨6371008, 0, by norm_num, by norm_num, by norm_num⟩ (by unfold earthMeanRadius; norm_num)
  have e5 : (1025 / 1024 : ℝ) ≤ Ieee.sinRho 0 8848 := by
    refine le_fl ⟨1025, -10, by norm_num, by norm_num, by norm_num⟩ ?_
    rw [le_div_iff₀ (by linarith)]
    linarith
  have e6 : (1025 / 1024 : ℝ) ≤ fl (Ieee.sinRho 0 8848 * fl (Real.cos (rad 0))) := by
    rw [e1, mul_one]
    exact le_fl ⟨1025, -10, by norm_num, by norm_num, by norm_num⟩ e5
  unfold Ieee.fieldOfRegard npArcsin
  change (do let eta ← (if -1 ≤ fl (Ieee.sinRho 0 8848 * fl (Real.cos (rad 0))) ∧
      fl (Ieee.sinRho 0 8848 * fl (Real.cos (rad 0))) ≤ 1 then
        some (fl (Real.arcsin (fl (Ieee.sinRho 0 8848 * fl (Real.cos (rad 0)))))) else none); _) = _
  rw [if_neg (by rintro ⟨-, k⟩; linarith)]
  rfl

/-- Rounding may put the field of regard on either side of the exact one, but a number results at the edge of the domain too:
an instrument on the surface it looks at. -/
example : ∃ x, Ieee.fieldOfRegard 0 0 0 = some x := by
  obtain ⟨x, _, h, -⟩ := C148_field_of_regard 0 0 0 0 ⟨by norm_num, by norm_num, by norm_num⟩ (by norm_num) le_rfl (by norm_num)
  exact ⟨x, h⟩

/-- The hypotheses are met by an instrument at 500 km with a field of regard of 60 degrees. -/
example : Viewing 500000 0 ∧ (0 : ℝ) ≤ 60 ∧ (60 : ℝ) ≤ 180 := ⟨⟨by norm_num, by norm_num, by norm_num⟩, by norm_num, by norm_num⟩

end Tatc.Props
