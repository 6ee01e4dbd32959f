import Verif.Model.Geometry
import Verif.Spec.Orbit
import Verif.Props.Derived
import Mathlib.Analysis.SpecialFunctions.Trigonometric.Inverse
import Mathlib.Tactic.FieldSimp

/-!
# C44 to C51: viewing geometry
-/

namespace Tatc.Props
open Tatc.Num Tatc.Geometry Tatc.Spec
open scoped Classical

/-- An observed surface above the centre of the Earth and below the satellite. -/
def Below (altitude elevation : ℝ) : Prop := 0 < meanRadius + elevation ∧ elevation < altitude

theorem sinRho_range {h z : ℝ} (hz : Below h z) : 0 < sinRho h z ∧ sinRho h z < 1 := by
  obtain ⟨h1, h2⟩ := hz
  unfold sinRho
  exact ⟨div_pos h1 (by linarith), by rw [div_lt_one (by linarith)]; linarith⟩

theorem radians_half (f : ℝ) : radians f / 2 = (f / 2) * Real.pi / 180 := by unfold radians; ring

/-! ### The triangle of centre, ground point and satellite -/

/-- The central angle seen at nadir angle `eta` when the ray meets the sphere. -/
theorem central_angle {k s : ℝ} (hk0 : 0 < k) (hk1 : k < 1) (hs0 : 0 ≤ s) (hs1 : s ≤ k) :
    let l := Real.pi / 2 - Real.arcsin s - Real.arccos (s / k)
    0 ≤ l ∧ l ≤ Real.pi / 2 ∧ l ≤ Real.arccos k ∧ s = k * Real.sin (Real.arcsin s + l) ∧
      s * (1 - k * Real.cos l) = Real.cos (Real.arcsin s) * (k * Real.sin l) := by
  intro l
  have hsk0 : 0 ≤ s / k := div_nonneg hs0 hk0.le
  have hsk1 : s / k ≤ 1 := by rw [div_le_one hk0]; exact hs1
  have hs1' : s ≤ 1 := by linarith
  have hsle : s ≤ s / k := by rw [le_div_iff₀ hk0]; nlinarith
  have hl : l = Real.arcsin (s / k) - Real.arcsin s := by
    show Real.pi / 2 - Real.arcsin s - Real.arccos (s / k) = _
    rw [Real.arccos]; ring
  have hmono : Real.arcsin s ≤ Real.arcsin (s / k) := Real.monotone_arcsin hsle
  have ha0 : 0 ≤ Real.arcsin s := Real.arcsin_nonneg.mpr hs0
  have hb1 : Real.arcsin (s / k) ≤ Real.pi / 2 := Real.arcsin_le_pi_div_two _
  have hsin : Real.sin (Real.arcsin s + l) = s / k := by
    rw [hl, show Real.arcsin s + (Real.arcsin (s / k) - Real.arcsin s) = Real.arcsin (s / k) by ring]
    exact Real.sin_arcsin (by linarith) hsk1
  have hsa : Real.sin (Real.arcsin s) = s := Real.sin_arcsin (by linarith) hs1'
  have h4 : s = k * Real.sin (Real.arcsin s + l) := by rw [hsin]; field_simp
  refine ⟨by rw [hl]; linarith, by rw [hl]; linarith, ?_, h4, ?_⟩
  · -- the horizon is the farthest: sine of half the difference
    rw [hl]
    by_contra hgt
    push Not at hgt
    have hcos := Real.cos_lt_cos_of_nonneg_of_le_pi (Real.arccos_nonneg k)
      (show Real.arcsin (s / k) - Real.arcsin s ≤ Real.pi by linarith [Real.pi_pos]) hgt
    rw [Real.cos_arccos (by linarith) hk1.le, Real.cos_sub, hsa, Real.sin_arcsin (by linarith) hsk1,
      Real.cos_arcsin, Real.cos_arcsin] at hcos
    have e1 : (0 : ℝ) ≤ 1 - (s / k) ^ 2 := by nlinarith
    have e2 : (0 : ℝ) ≤ 1 - s ^ 2 := by nlinarith
    have c1 := Real.sq_sqrt e1
    have c2 := Real.sq_sqrt e2
    set A := Real.sqrt (1 - (s / k) ^ 2)
    set B := Real.sqrt (1 - s ^ 2)
    have hA0 : 0 ≤ A := Real.sqrt_nonneg _
    have hB0 : 0 ≤ B := Real.sqrt_nonneg _
    -- A B + s²/k < k, but k A ≤ B and so A B ≥ k A² = k - s²/k
    have hkA : k * A ≤ B := by
      apply le_of_sq_le_sq _ hB0
      rw [mul_pow, c1, c2]
      have : k ^ 2 * (1 - (s / k) ^ 2) = k ^ 2 - s ^ 2 := by field_simp
      nlinarith
    have : k * A ^ 2 = k - s / k * s := by rw [c1]; field_simp
    nlinarith
  · have := h4
    rw [Real.sin_add, hsa] at this
    linarith

/-- The nadir angle at which a ground point at central angle `l` is seen. -/
theorem nadir_angle {k l : ℝ} (hk0 : 0 < k) (hk1 : k < 1) :
    Real.tan (Real.arctan (k * Real.sin l / (1 - k * Real.cos l))) * (1 - k * Real.cos l) = k * Real.sin l := by
  rw [Real.tan_arctan]
  have : 0 < 1 - k * Real.cos l := by nlinarith [Real.cos_le_one l, Real.neg_one_le_cos l]
  field_simp

theorem swathToFor_of_central {h w z l : ℝ} (hl : w / 2 / (meanRadius + z) = l) (hl0 : -(Real.pi / 2) ≤ l)
    (hl1 : l ≤ Real.pi / 2) : swathToFor h w z =
      degrees (2 * Real.arctan (sinRho h z * Real.sin l / (1 - sinRho h z * Real.cos l))) := by
  unfold swathToFor
  simp only [hl, Real.arcsin_sin hl0 hl1]

/-- C45: field of regard to swath width and back, up to the horizon. -/
theorem C45_for_swath_for (altitude elevation f : ℝ) (hz : Below altitude elevation) (hf0 : 0 ≤ f) (hf1 : f ≤ 180)
    (hor : sinDeg (f / 2) ≤ (meanRadius + elevation) / (meanRadius + altitude)) :
    swathToFor altitude (forToSwath altitude f elevation) elevation = f := by
  obtain ⟨hk0, hk1⟩ := sinRho_range hz
  have hpi := Real.pi_pos
  set k := sinRho altitude elevation with hk
  have hrad : radians f / 2 = f / 2 * Real.pi / 180 := radians_half f
  have hs : Real.sin (radians f / 2) = sinDeg (f / 2) := by rw [hrad]; rfl
  have hs0 : 0 ≤ Real.sin (radians f / 2) :=
    Real.sin_nonneg_of_nonneg_of_le_pi (by rw [hrad]; positivity) (by rw [hrad]; nlinarith)
  have hsk : Real.sin (radians f / 2) ≤ k := by rw [hs]; exact hor
  obtain ⟨c1, c2, -, -, c5⟩ := central_angle hk0 hk1 hs0 hsk
  set l := Real.pi / 2 - Real.arcsin (Real.sin (radians f / 2)) -
    Real.arccos (Real.sin (radians f / 2) / k) with hldef
  have hsw : forToSwath altitude f elevation = 2 * (meanRadius + elevation) * l := by
    unfold forToSwath
    simp only [← hk, min_eq_right hsk]
    rw [hldef]
  have hR := hz.1
  rw [swathToFor_of_central (l := l) (by rw [hsw]; field_simp) (by linarith) c2, ← hk]
  have hasin : Real.arcsin (Real.sin (radians f / 2)) = radians f / 2 :=
    Real.arcsin_sin (by rw [hrad]; nlinarith) (by rw [hrad]; nlinarith)
  rw [hasin] at c5
  have hlt : radians f / 2 < Real.pi / 2 := by
    by_contra hge
    have : radians f / 2 = Real.pi / 2 := le_antisymm (by rw [hrad]; nlinarith) (not_lt.mp hge)
    rw [this, Real.sin_pi_div_two] at hsk
    linarith
  have hcos : 0 < Real.cos (radians f / 2) :=
    Real.cos_pos_of_mem_Ioo ⟨by rw [hrad]; nlinarith, hlt⟩
  have hden : 0 < 1 - k * Real.cos l := by nlinarith [Real.cos_le_one l, Real.neg_one_le_cos l]
  have htan : k * Real.sin l / (1 - k * Real.cos l) = Real.tan (radians f / 2) := by
    rw [Real.tan_eq_sin_div_cos, div_eq_div_iff hden.ne' hcos.ne']
    linarith
  rw [htan, Real.arctan_tan (by rw [hrad]; nlinarith) hlt]
  rw [show 2 * (radians f / 2) = radians f by ring, degrees_radians]

/-- Relations of the nadir angle `eta` of a ground point at central angle `l` within the horizon. -/
theorem within_horizon {k l : ℝ} (hk0 : 0 < k) (hk1 : k < 1) (hl0 : 0 ≤ l) (hl1 : l ≤ Real.pi / 2)
    (hor : k ≤ Real.cos l) :
    let eta := Real.arctan (k * Real.sin l / (1 - k * Real.cos l))
    0 ≤ eta ∧ eta + l ≤ Real.pi / 2 ∧ Real.sin eta = k * Real.sin (eta + l) := by
  intro eta
  have hden : 0 < 1 - k * Real.cos l := by nlinarith [Real.cos_le_one l, Real.neg_one_le_cos l]
  have hsl : 0 ≤ Real.sin l := Real.sin_nonneg_of_nonneg_of_le_pi hl0 (by linarith [Real.pi_pos])
  have he0 : 0 ≤ eta := Real.arctan_nonneg.mpr (div_nonneg (mul_nonneg hk0.le hsl) hden.le)
  have hcos : 0 < Real.cos eta := Real.cos_arctan_pos _
  have htan : Real.sin eta * (1 - k * Real.cos l) = Real.cos eta * (k * Real.sin l) := by
    have := nadir_angle (l := l) hk0 hk1
    rw [Real.tan_eq_sin_div_cos] at this
    have h2 : Real.sin eta / Real.cos eta * (1 - k * Real.cos l) = k * Real.sin l := this
    field_simp at h2
    linarith
  have hsin : Real.sin eta = k * Real.sin (eta + l) := by rw [Real.sin_add]; linarith
  refine ⟨he0, ?_, hsin⟩
  have he1 : eta < Real.pi / 2 := Real.arctan_lt_pi_div_two _
  by_contra hgt
  push Not at hgt
  have hneg : Real.cos (eta + l) < 0 := Real.cos_neg_of_pi_div_two_lt_of_lt hgt (by linarith [Real.pi_pos])
  -- cos (eta + l) (1 - k cos l) = cos eta (cos l - k)
  have hsq := Real.sin_sq_add_cos_sq l
  have : Real.cos (eta + l) * (1 - k * Real.cos l) = Real.cos eta * (Real.cos l - k) := by
    rw [Real.cos_add]
    linear_combination (-Real.sin l) * htan - Real.cos eta * k * hsq
  nlinarith [mul_nonneg hcos.le (sub_nonneg.mpr hor)]

/-- C45: swath width to field of regard and back, for swaths within the horizon. -/
theorem C45_swath_for_swath (altitude elevation w : ℝ) (hz : Below altitude elevation) (hw : 0 ≤ w)
    (hw1 : w / 2 / (meanRadius + elevation) ≤ Real.pi / 2)
    (hor : (meanRadius + elevation) / (meanRadius + altitude) ≤ Real.cos (w / 2 / (meanRadius + elevation))) :
    forToSwath altitude (swathToFor altitude w elevation) elevation = w := by
  obtain ⟨hk0, hk1⟩ := sinRho_range hz
  have hpi := Real.pi_pos
  have hR := hz.1
  set l := w / 2 / (meanRadius + elevation) with hl
  have hl0 : 0 ≤ l := by rw [hl]; positivity
  obtain ⟨e0, e1, e2⟩ := within_horizon hk0 hk1 hl0 hw1 hor
  rw [swathToFor_of_central hl.symm (by linarith) hw1]
  set k := sinRho altitude elevation with hk
  set eta := Real.arctan (k * Real.sin l / (1 - k * Real.cos l)) with heta
  have hrad : radians (degrees (2 * eta)) / 2 = eta := by rw [radians_degrees]; ring
  have hle1 : Real.sin (eta + l) ≤ 1 := Real.sin_le_one _
  have hmin : min k (Real.sin eta) = Real.sin eta := min_eq_right (by rw [e2]; nlinarith)
  unfold forToSwath
  simp only [← hk, hrad, hmin]
  have hdiv : Real.sin eta / k = Real.sin (eta + l) := by rw [e2]; field_simp
  rw [hdiv, Real.arcsin_sin (by linarith) (by linarith), Real.arccos,
    Real.arcsin_sin (by linarith) e1]
  rw [show Real.pi / 2 - eta - (Real.pi / 2 - (eta + l)) = l by ring, hl]
  field_simp

/-- What the two numbers mean: a ground point half a swath from nadir is seen half a field of regard from
nadir.  The satellite is at `(meanRadius + altitude)` above the centre, the point at central angle `l`. -/
theorem C45_geometry (altitude elevation w : ℝ) (hz : Below altitude elevation) (hw : 0 ≤ w)
    (hw1 : w / 2 / (meanRadius + elevation) ≤ Real.pi / 2) :
    Real.tan (swathToFor altitude w elevation / 2 * Real.pi / 180) *
        ((meanRadius + altitude) - (meanRadius + elevation) * Real.cos (w / 2 / (meanRadius + elevation))) =
      (meanRadius + elevation) * Real.sin (w / 2 / (meanRadius + elevation)) := by
  obtain ⟨hk0, hk1⟩ := sinRho_range hz
  have hpi := Real.pi_pos
  have hR := hz.1
  have hH : 0 < meanRadius + altitude := by have := hz.2; linarith
  set l := w / 2 / (meanRadius + elevation) with hl
  have hl0 : 0 ≤ l := by rw [hl]; positivity
  rw [swathToFor_of_central hl.symm (by linarith) hw1]
  have hd : degrees (2 * Real.arctan (sinRho altitude elevation * Real.sin l /
      (1 - sinRho altitude elevation * Real.cos l))) / 2 * Real.pi / 180 =
      Real.arctan (sinRho altitude elevation * Real.sin l / (1 - sinRho altitude elevation * Real.cos l)) := by
    unfold degrees; field_simp
  rw [hd]
  have h := nadir_angle (l := l) hk0 hk1
  have hk : sinRho altitude elevation * (meanRadius + altitude) = meanRadius + elevation := by
    unfold sinRho; field_simp
  set T := Real.tan (Real.arctan (sinRho altitude elevation * Real.sin l /
    (1 - sinRho altitude elevation * Real.cos l)))
  rw [← hk]
  linear_combination (meanRadius + altitude) * h

/-- The hypotheses are met: 500 km up, a field of regard of 60 degrees. -/
example : Below 500000 0 ∧ sinDeg (60 / 2) ≤ (meanRadius + 0) / (meanRadius + 500000) := by
  have hR : 6000000 < meanRadius := by unfold meanRadius equatorialRadius polarRadius; norm_num
  refine ⟨⟨by linarith, by norm_num⟩, ?_⟩
  have : sinDeg (60 / 2) = 1 / 2 := by
    unfold sinDeg
    rw [show (60 : ℝ) / 2 * Real.pi / 180 = Real.pi / 6 by ring, Real.sin_pi_div_six]
  rw [this, le_div_iff₀ (by linarith)]; linarith

/-! ## C46 -/

/-- C46: minimum elevation angle to field of regard and back. -/
theorem C46_elevation (altitude elevation e : ℝ) (hz : Below altitude elevation) (he0 : 0 ≤ e) (he1 : e ≤ 90) :
    minElevation altitude (fieldOfRegard altitude e elevation) elevation = e := by
  obtain ⟨hk0, hk1⟩ := sinRho_range hz
  have hpi := Real.pi_pos
  have hr0 : 0 ≤ radians e := mul_nonneg he0 (by positivity)
  have hr1 : radians e ≤ Real.pi / 2 := by unfold radians; nlinarith
  have hc0 : 0 ≤ Real.cos (radians e) := Real.cos_nonneg_of_neg_pi_div_two_le_of_le (by linarith) hr1
  have hc1 := Real.cos_le_one (radians e)
  unfold minElevation fieldOfRegard
  simp only [radians_degrees]
  have hs : Real.sin (Real.arcsin (sinRho altitude elevation * Real.cos (radians e)) * 2 / 2) =
      sinRho altitude elevation * Real.cos (radians e) := by
    rw [mul_div_cancel_right₀ _ (two_ne_zero)]
    exact Real.sin_arcsin (by nlinarith) (by nlinarith)
  rw [hs, mul_div_cancel_left₀ _ hk0.ne', if_neg (by linarith), Real.arccos_cos hr0 (by linarith), degrees_radians]

/-- C46: field of regard to minimum elevation angle and back, up to the horizon. -/
theorem C46_field_of_regard (altitude elevation f : ℝ) (hz : Below altitude elevation) (hf0 : 0 ≤ f) (hf1 : f ≤ 180)
    (hor : sinDeg (f / 2) ≤ (meanRadius + elevation) / (meanRadius + altitude)) :
    fieldOfRegard altitude (minElevation altitude f elevation) elevation = f := by
  obtain ⟨hk0, hk1⟩ := sinRho_range hz
  have hpi := Real.pi_pos
  have hrad : radians f / 2 = f / 2 * Real.pi / 180 := radians_half f
  have hs0 : 0 ≤ Real.sin (radians f / 2) :=
    Real.sin_nonneg_of_nonneg_of_le_pi (by rw [hrad]; positivity) (by rw [hrad]; nlinarith)
  have hsk : Real.sin (radians f / 2) ≤ sinRho altitude elevation := by rw [hrad]; exact hor
  have hd1 : Real.sin (radians f / 2) / sinRho altitude elevation ≤ 1 := by rw [div_le_one hk0]; exact hsk
  have hd0 : 0 ≤ Real.sin (radians f / 2) / sinRho altitude elevation := div_nonneg hs0 hk0.le
  unfold minElevation fieldOfRegard
  simp only [if_neg (not_lt.mpr hd1), radians_degrees]
  rw [Real.cos_arccos (by linarith) hd1, mul_div_cancel₀ _ hk0.ne',
    Real.arcsin_sin (by rw [hrad]; nlinarith) (by rw [hrad]; nlinarith),
    show radians f / 2 * 2 = radians f by ring, degrees_radians]

/-! ## C47 -/

/-- Larger sines give larger central angles. -/
theorem central_mono {k s t : ℝ} (hk0 : 0 < k) (hk1 : k < 1) (hs0 : 0 ≤ s) (hst : s ≤ t) (ht : t ≤ k) :
    Real.pi / 2 - Real.arcsin s - Real.arccos (s / k) ≤ Real.pi / 2 - Real.arcsin t - Real.arccos (t / k) := by
  rcases eq_or_lt_of_le hst with rfl | hlt
  · exact le_rfl
  have hpi := Real.pi_pos
  have hsk1 : s / k < 1 := by rw [div_lt_one hk0]; linarith
  have htk1 : t / k ≤ 1 := by rw [div_le_one hk0]; exact ht
  have hsk0 : 0 ≤ s / k := div_nonneg hs0 hk0.le
  have hstk : s / k < t / k := by rw [div_lt_div_iff_of_pos_right hk0]; exact hlt
  have hle_s : s ≤ s / k := by rw [le_div_iff₀ hk0]; nlinarith
  have hle_t : t ≤ t / k := by rw [le_div_iff₀ hk0]; nlinarith
  rw [Real.arccos, Real.arccos]
  have sA : Real.sin (Real.arcsin (s / k)) = s / k := Real.sin_arcsin (by linarith) hsk1.le
  have sB : Real.sin (Real.arcsin (t / k)) = t / k := Real.sin_arcsin (by linarith) htk1
  have sa : Real.sin (Real.arcsin s) = s := Real.sin_arcsin (by linarith) (by linarith)
  have sb : Real.sin (Real.arcsin t) = t := Real.sin_arcsin (by linarith) (by linarith)
  have a0 : 0 ≤ Real.arcsin s := Real.arcsin_nonneg.mpr hs0
  have aA : Real.arcsin s ≤ Real.arcsin (s / k) := Real.monotone_arcsin hle_s
  have bB : Real.arcsin t ≤ Real.arcsin (t / k) := Real.monotone_arcsin hle_t
  have ab : Real.arcsin s ≤ Real.arcsin t := Real.monotone_arcsin hst
  have AB : Real.arcsin (s / k) ≤ Real.arcsin (t / k) := Real.monotone_arcsin hstk.le
  have A2 : Real.arcsin (s / k) < Real.pi / 2 := by
    rw [← Real.arcsin_one]
    exact Real.arcsin_lt_arcsin (by linarith) hsk1 le_rfl
  have B2 : Real.arcsin (t / k) ≤ Real.pi / 2 := Real.arcsin_le_pi_div_two _
  generalize Real.arcsin (s / k) = A at *
  generalize Real.arcsin (t / k) = B at *
  generalize Real.arcsin s = a at *
  generalize Real.arcsin t = b at *
  by_contra hcon
  push Not at hcon
  have hlt2 : (B - A) / 2 < (b - a) / 2 := by linarith
  have h1 : Real.sin ((B - A) / 2) < Real.sin ((b - a) / 2) :=
    Real.sin_lt_sin_of_lt_of_le_pi_div_two (by linarith) (by linarith) hlt2
  have h2 : Real.cos ((B + A) / 2) ≤ Real.cos ((b + a) / 2) :=
    Real.cos_le_cos_of_nonneg_of_le_pi (by linarith) (by linarith) (by linarith)
  have h3 : 0 < Real.cos ((B + A) / 2) :=
    Real.cos_pos_of_mem_Ioo ⟨by linarith, by linarith⟩
  have e1 := Real.sin_sub_sin B A
  have e2 := Real.sin_sub_sin b a
  rw [sA, sB] at e1
  rw [sa, sb] at e2
  have e3 : t - s ≤ t / k - s / k := by
    rw [← sub_div, le_div_iff₀ hk0]; nlinarith
  have h4 : 0 ≤ Real.sin ((B - A) / 2) := Real.sin_nonneg_of_nonneg_of_le_pi (by linarith) (by linarith)
  nlinarith [mul_le_mul h1.le h2 h3.le (le_trans h4 h1.le), mul_lt_mul_of_pos_right h1 h3]

theorem half_sine {f : ℝ} (hf0 : 0 ≤ f) (hf1 : f ≤ 360) : 0 ≤ Real.sin (radians f / 2) := by
  have hpi := Real.pi_pos
  rw [radians_half]
  exact Real.sin_nonneg_of_nonneg_of_le_pi (by positivity) (by nlinarith)

/-- C47, bounds, for every field of regard the schema accepts: swath width between nothing and horizon to
horizon, minimum elevation between 0 and 90 degrees. -/
theorem C47_bounds (altitude elevation f : ℝ) (hz : Below altitude elevation) (hf0 : 0 ≤ f) (hf1 : f ≤ 360) :
    0 ≤ forToSwath altitude f elevation ∧
    forToSwath altitude f elevation ≤
      2 * (meanRadius + elevation) * Real.arccos ((meanRadius + elevation) / (meanRadius + altitude)) ∧
    0 ≤ minElevation altitude f elevation ∧ minElevation altitude f elevation ≤ 90 := by
  obtain ⟨hk0, hk1⟩ := sinRho_range hz
  have hR := hz.1
  have hpi := Real.pi_pos
  have hs0 := half_sine hf0 hf1
  have hm0 : 0 ≤ min (sinRho altitude elevation) (Real.sin (radians f / 2)) := le_min hk0.le hs0
  have hm1 : min (sinRho altitude elevation) (Real.sin (radians f / 2)) ≤ sinRho altitude elevation := min_le_left _ _
  obtain ⟨c1, -, c3, -, -⟩ := central_angle hk0 hk1 hm0 hm1
  refine ⟨?_, ?_, ?_, ?_⟩
  · unfold forToSwath; exact mul_nonneg (by linarith) c1
  · unfold forToSwath; exact mul_le_mul_of_nonneg_left c3 (by linarith)
  · unfold minElevation
    simp only
    split_ifs
    · exact le_rfl
    · exact mul_nonneg (Real.arccos_nonneg _) (by positivity)
  · unfold minElevation
    simp only
    split_ifs
    · norm_num
    · have : Real.arccos (Real.sin (radians f / 2) / sinRho altitude elevation) ≤ Real.pi / 2 :=
        Real.arccos_le_pi_div_two.mpr (div_nonneg hs0 hk0.le)
      unfold degrees
      calc _ ≤ Real.pi / 2 * (180 / Real.pi) := mul_le_mul_of_nonneg_right this (by positivity)
        _ = 90 := by field_simp; norm_num

/-- C47, full statement: for all `0 < f ≤ g ≤ 360`.  Proved for fields of regard up to 180 degrees; beyond
it is false. -/
theorem C47_monotone_partial (altitude elevation f g : ℝ) (hz : Below altitude elevation) (hf0 : 0 ≤ f) (hfg : f ≤ g)
    (hg : g ≤ 180) :
    forToSwath altitude f elevation ≤ forToSwath altitude g elevation ∧
      minElevation altitude g elevation ≤ minElevation altitude f elevation := by
  obtain ⟨hk0, hk1⟩ := sinRho_range hz
  have hR := hz.1
  have hpi := Real.pi_pos
  have hs0 := half_sine hf0 (by linarith : f ≤ 360)
  have hmono : Real.sin (radians f / 2) ≤ Real.sin (radians g / 2) := by
    rw [radians_half, radians_half]
    refine Real.sin_le_sin_of_le_of_le_pi_div_two ?_ ?_ ?_
    · have : 0 ≤ f / 2 * Real.pi / 180 := by positivity
      linarith
    · nlinarith
    · have : f * Real.pi ≤ g * Real.pi := mul_le_mul_of_nonneg_right hfg hpi.le
      linarith
  constructor
  · unfold forToSwath
    exact mul_le_mul_of_nonneg_left (central_mono hk0 hk1 (le_min hk0.le hs0) (min_le_min_left _ hmono)
      (min_le_left _ _)) (by linarith)
  · have hdiv : Real.sin (radians f / 2) / sinRho altitude elevation ≤
        Real.sin (radians g / 2) / sinRho altitude elevation := div_le_div_of_nonneg_right hmono hk0.le
    unfold minElevation
    simp only
    split_ifs with h1 h2 h2
    · exact le_rfl
    · exact mul_nonneg (Real.arccos_nonneg _) (by positivity)
    · exact absurd (lt_of_lt_of_le h2 hdiv) h1
    · exact mul_le_mul_of_nonneg_right (Real.antitone_arccos hdiv) (by positivity)

/-- A field of regard of 360 degrees sees nothing: no swath, and minimum elevation 90 degrees. -/
theorem C47_monotone_false (altitude elevation : ℝ) (hz : Below altitude elevation) :
    forToSwath altitude 360 elevation = 0 ∧ 0 < forToSwath altitude 180 elevation ∧
      minElevation altitude 360 elevation = 90 ∧ minElevation altitude 180 elevation = 0 := by
  obtain ⟨hk0, hk1⟩ := sinRho_range hz
  have hR := hz.1
  have hpi := Real.pi_pos
  have h360 : Real.sin (radians 360 / 2) = 0 := by
    rw [radians_half, show (360 : ℝ) / 2 * Real.pi / 180 = Real.pi by ring, Real.sin_pi]
  have h180 : Real.sin (radians 180 / 2) = 1 := by
    rw [radians_half, show (180 : ℝ) / 2 * Real.pi / 180 = Real.pi / 2 by ring, Real.sin_pi_div_two]
  refine ⟨?_, ?_, ?_, ?_⟩
  · unfold forToSwath
    simp only [h360, min_eq_right hk0.le, zero_div, Real.arcsin_zero, Real.arccos_zero]
    ring
  · unfold forToSwath
    simp only [h180, min_eq_left hk1.le, div_self hk0.ne', Real.arccos_one]
    have : Real.arcsin (sinRho altitude elevation) < Real.pi / 2 := by
      rw [← Real.arcsin_one]
      exact Real.arcsin_lt_arcsin (by linarith) hk1 le_rfl
    have : 0 < Real.pi / 2 - Real.arcsin (sinRho altitude elevation) - 0 := by linarith
    positivity
  · unfold minElevation
    simp only [h360, zero_div, Real.arccos_zero]
    rw [if_neg (by norm_num)]
    unfold degrees; field_simp; norm_num
  · unfold minElevation
    simp only [h180]
    rw [if_pos]
    show 1 < 1 / sinRho altitude elevation
    rw [lt_div_iff₀ hk0]; linarith

/-! ## C51 -/

open Tatc.Orbit

/-- C51: circular orbits, perigee and apogee. -/
theorem C51_coincide (x e : ℝ) :
    meanToTrue x 0 = x ∧ trueToMean x 0 = x ∧ meanToTrue 0 e = 0 ∧ trueToMean 0 e = 0 ∧
      meanToTrue 180 e = 180 ∧ trueToMean 180 e = 180 := by
  have h : radians 180 = Real.pi := by unfold radians; ring
  have hd : degrees Real.pi = 180 := by unfold degrees; field_simp
  have s2 : Real.sin (2 * Real.pi) = 0 := Real.sin_two_pi
  have s3 : Real.sin (3 * Real.pi) = 0 := by
    have := Real.sin_nat_mul_pi 3; simpa using this
  have s4 : Real.sin (4 * Real.pi) = 0 := by
    have := Real.sin_nat_mul_pi 4; simpa using this
  refine ⟨meanToTrue_zero x, trueToMean_zero x, ?_, ?_, ?_, ?_⟩
  · simp [meanToTrue, radians, degrees]
  · simp [trueToMean, radians, degrees]
  · simp [meanToTrue, h, s2, s3, hd]
  · simp [trueToMean, h, s2, s3, s4, hd]

/-- C51: full turns and reflection about the line of apsides. -/
theorem C51_symmetry (x e : ℝ) (k : ℤ) :
    meanToTrue (x + 360 * k) e = meanToTrue x e + 360 * k ∧ meanToTrue (-x) e = -meanToTrue x e ∧
      trueToMean (x + 360 * k) e = trueToMean x e + 360 * k ∧ trueToMean (-x) e = -trueToMean x e := by
  have hpi := Real.pi_pos
  have hr : radians (x + 360 * k) = radians x + k * (2 * Real.pi) := by unfold radians; ring
  have hn : radians (-x) = -radians x := by unfold radians; ring
  have t1 : Real.sin (radians x + k * (2 * Real.pi)) = Real.sin (radians x) := Real.sin_add_int_mul_two_pi _ _
  have t2 : Real.sin (2 * (radians x + k * (2 * Real.pi))) = Real.sin (2 * radians x) := by
    rw [show 2 * (radians x + k * (2 * Real.pi)) = 2 * radians x + ((2 * k : ℤ) : ℝ) * (2 * Real.pi) by
      push_cast; ring]
    exact Real.sin_add_int_mul_two_pi _ _
  have t3 : Real.sin (3 * (radians x + k * (2 * Real.pi))) = Real.sin (3 * radians x) := by
    rw [show 3 * (radians x + k * (2 * Real.pi)) = 3 * radians x + ((3 * k : ℤ) : ℝ) * (2 * Real.pi) by
      push_cast; ring]
    exact Real.sin_add_int_mul_two_pi _ _
  have t4 : Real.sin (4 * (radians x + k * (2 * Real.pi))) = Real.sin (4 * radians x) := by
    rw [show 4 * (radians x + k * (2 * Real.pi)) = 4 * radians x + ((4 * k : ℤ) : ℝ) * (2 * Real.pi) by
      push_cast; ring]
    exact Real.sin_add_int_mul_two_pi _ _
  have n2 : Real.sin (2 * -radians x) = -Real.sin (2 * radians x) := by rw [mul_neg, Real.sin_neg]
  have n3 : Real.sin (3 * -radians x) = -Real.sin (3 * radians x) := by rw [mul_neg, Real.sin_neg]
  have n4 : Real.sin (4 * -radians x) = -Real.sin (4 * radians x) := by rw [mul_neg, Real.sin_neg]
  refine ⟨?_, ?_, ?_, ?_⟩
  · unfold meanToTrue; simp only [hr, t1, t2, t3]; unfold degrees; field_simp; ring
  · unfold meanToTrue; simp only [hn, n2, n3, Real.sin_neg]; unfold degrees; ring
  · unfold trueToMean; simp only [hr, t1, t2, t3, t4]; unfold degrees; field_simp; ring
  · unfold trueToMean; simp only [hn, n2, n3, n4, Real.sin_neg]; unfold degrees; ring

end Tatc.Props
