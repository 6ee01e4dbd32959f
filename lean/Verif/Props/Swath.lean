import Verif.Model.Swath
import Verif.Spec.Swath
import Verif.Props.Regard

/-!
# C120: the swath is what the instrument sees
-/

namespace Tatc.Props
open Tatc Tatc.Num Tatc.Geometry Tatc.Spec Tatc.Instruments Tatc.Coverage
open scoped Classical

/-- A satellite at the distance `a` from the centre stands at the elevation `e` (radians) above a place at the distance
`r` exactly within the angle from the point below it that the law of sines gives. -/
theorem within_iff_elevation {s p : V3} {a r e : ℝ} (hs : len s = a) (hp : len p = r) (hr : 0 < r) (hra : r < a)
    (he0 : 0 ≤ e) (he1 : e ≤ Real.pi / 2) :
    Real.arccos (s.dot p / (a * r)) ≤ Real.pi / 2 - Real.arcsin (r / a * Real.cos e) - e ↔
      Real.sin e * (len (sub s p) * r) ≤ (sub s p).dot p := by
  have hpi := Real.pi_pos
  have ha : 0 < a := by linarith
  set c := Real.cos e with hc
  set q := s.dot p / (a * r) with hq
  have hc0 : 0 ≤ c := Real.cos_nonneg_of_neg_pi_div_two_le_of_le (by linarith) he1
  have hc1 : c ≤ 1 := Real.cos_le_one e
  have hse : 0 ≤ Real.sin e := Real.sin_nonneg_of_nonneg_of_le_pi he0 (by linarith)
  have hsc : Real.sin e ^ 2 + c ^ 2 = 1 := Real.sin_sq_add_cos_sq e
  have hpp : p.dot p = r ^ 2 := by rw [← hp, len_sq]
  have hss : s.dot s = a ^ 2 := by rw [← hs, len_sq]
  have hsp : s.dot p = a * r * q := by rw [hq]; field_simp
  have hcs : (s.dot p) ^ 2 ≤ (a * r) ^ 2 := by
    rw [mul_pow, ← hss, ← hpp]; unfold V3.dot
    nlinarith [sq_nonneg (s.x * p.y - s.y * p.x), sq_nonneg (s.x * p.z - s.z * p.x), sq_nonneg (s.y * p.z - s.z * p.y)]
  have har : 0 < a * r := by positivity
  have hq1 : -1 ≤ q ∧ q ≤ 1 := by
    have h1 : |s.dot p| ≤ a * r := abs_le_of_sq_le_sq hcs har.le
    have h2 := abs_le.mp h1
    rw [hq]
    exact ⟨by rw [le_div_iff₀ har]; linarith, by rw [div_le_iff₀ har]; linarith⟩
  have hk0 : 0 ≤ r / a * c := by positivity
  have hk1 : r / a * c ≤ 1 := by
    have : r / a ≤ 1 := by rw [div_le_one ha]; exact hra.le
    nlinarith
  set eta := Real.arcsin (r / a * c) with heta
  have heta0 : 0 ≤ eta := Real.arcsin_nonneg.mpr hk0
  have hsineta : Real.sin eta = r / a * c := Real.sin_arcsin (by linarith) hk1
  -- the angle is within range
  have hle : eta ≤ Real.pi / 2 - e := by
    rw [heta, Real.arcsin_le_iff_le_sin ⟨by linarith, hk1⟩ ⟨by linarith, by linarith⟩, Real.sin_pi_div_two_sub]
    have : r / a ≤ 1 := by rw [div_le_one ha]; exact hra.le
    nlinarith
  set w := Real.sqrt (a ^ 2 - r ^ 2 * c ^ 2) with hw
  have hw2 : w ^ 2 = a ^ 2 - r ^ 2 * c ^ 2 := by
    rw [hw, Real.sq_sqrt]
    have h1 : r ^ 2 ≤ a ^ 2 := pow_le_pow_left₀ hr.le hra.le 2
    linarith [mul_le_mul_of_nonneg_left (show c ^ 2 ≤ 1 by nlinarith) (sq_nonneg r)]
  have hw0 : 0 ≤ w := Real.sqrt_nonneg _
  have hcoseta : a * Real.cos eta = w := by
    have h1 : 0 ≤ Real.cos eta := Real.cos_nonneg_of_neg_pi_div_two_le_of_le (by linarith) (by linarith)
    have h2 : (a * Real.cos eta) ^ 2 = w ^ 2 := by
      have : Real.sin eta ^ 2 + Real.cos eta ^ 2 = 1 := Real.sin_sq_add_cos_sq eta
      rw [hw2, mul_pow]
      have h3 : Real.cos eta ^ 2 = 1 - (r / a * c) ^ 2 := by rw [← hsineta]; linarith
      rw [h3]; field_simp
    exact (pow_left_inj₀ (by positivity) hw0 (by norm_num)).mp h2
  set l := Real.pi / 2 - eta - e with hl
  have hcosl : a * Real.cos l = r * c ^ 2 + w * Real.sin e := by
    have : Real.cos l = Real.sin eta * c + Real.cos eta * Real.sin e := by
      rw [hl, show Real.pi / 2 - eta - e = Real.pi / 2 - (eta + e) by ring, Real.cos_pi_div_two_sub, Real.sin_add]
    rw [this, hsineta, ← hcoseta]; field_simp
  -- the distance at that angle
  have hd0 : 0 ≤ w - r * Real.sin e := by
    have : (r * Real.sin e) ^ 2 ≤ w ^ 2 := by
      have h1 : r ^ 2 ≤ a ^ 2 := pow_le_pow_left₀ hr.le hra.le 2
      have h2 : (r * Real.sin e) ^ 2 = r ^ 2 - r ^ 2 * c ^ 2 := by linear_combination r ^ 2 * hsc
      rw [hw2, h2]; linarith
    have := abs_le_of_sq_le_sq this hw0
    have := (abs_le.mp this).2
    linarith
  have hl0 : a * Real.cos l - r = Real.sin e * (w - r * Real.sin e) := by
    rw [hcosl]; linear_combination r * hsc
  have hld : (w - r * Real.sin e) ^ 2 = a ^ 2 + r ^ 2 - 2 * r * (a * Real.cos l) := by
    rw [hcosl]; linear_combination hw2 + r ^ 2 * hsc
  have hD : len (sub s p) ^ 2 = a ^ 2 + r ^ 2 - 2 * r * (a * q) := by
    rw [len_sq]
    have : (sub s p).dot (sub s p) = s.dot s + p.dot p - 2 * s.dot p := by unfold sub V3.dot; ring
    rw [this, hss, hpp, hsp]; ring
  have hD0 := len_nonneg (sub s p)
  have hdot : (sub s p).dot p = r * (a * q - r) := by
    have : (sub s p).dot p = s.dot p - p.dot p := by unfold sub V3.dot; ring
    rw [this, hpp, hsp]; ring
  rw [hdot, show Real.sin e * (len (sub s p) * r) = r * (Real.sin e * len (sub s p)) by ring,
    mul_le_mul_iff_right₀ hr]
  have hmono : Real.arccos q ≤ l ↔ Real.cos l ≤ q := by
    have : l = Real.arccos (Real.cos l) := (Real.arccos_cos (by rw [hl]; linarith) (by rw [hl]; linarith)).symm
    constructor
    · intro h
      have := Real.cos_le_cos_of_nonneg_of_le_pi (Real.arccos_nonneg q) (by rw [hl]; linarith) h
      rwa [Real.cos_arccos hq1.1 hq1.2] at this
    · intro h
      rw [this]
      exact Real.arccos_le_arccos h
  rw [hmono]
  constructor
  · intro h
    have h1 : a * Real.cos l ≤ a * q := mul_le_mul_of_nonneg_left h ha.le
    have h2 : len (sub s p) ≤ w - r * Real.sin e := by
      apply le_of_sq_le_sq _ hd0
      rw [hD, hld]
      linarith [mul_le_mul_of_nonneg_left h1 (show 0 ≤ 2 * r by linarith)]
    calc _ ≤ Real.sin e * (w - r * Real.sin e) := mul_le_mul_of_nonneg_left h2 hse
      _ = a * Real.cos l - r := hl0.symm
      _ ≤ _ := by linarith
  · intro h
    by_contra hlt
    push Not at hlt
    have h1 : a * q < a * Real.cos l := mul_lt_mul_of_pos_left hlt ha
    have h2 : w - r * Real.sin e ≤ len (sub s p) := by
      apply le_of_sq_le_sq _ hD0
      rw [hD, hld]
      linarith [mul_le_mul_of_nonneg_left h1.le (show 0 ≤ 2 * r by linarith)]
    have h3 : Real.sin e * (w - r * Real.sin e) ≤ Real.sin e * len (sub s p) := mul_le_mul_of_nonneg_left h2 hse
    linarith

/-- The swath width that a field of regard gives over ground at an elevation spans the places of that elevation above
which the satellite stands at least at the minimum elevation angle that the field of regard gives, for every field of
regard that the library accepts. -/
theorem C120_swath_elevation (altitude f elevation : ℝ) (s p : V3) (hz : Below altitude elevation)
    (hf0 : 0 ≤ f) (hf1 : f ≤ 360) (hs : len s = meanRadius + altitude) (hp : len p = meanRadius + elevation) :
    groundDistance s p ≤ forToSwath altitude f elevation / 2 ↔
      ElevationAtLeast (minElevation altitude f elevation) s p := by
  have hpi := Real.pi_pos
  obtain ⟨hk0, hk1⟩ := sinRho_range hz
  have hr : 0 < meanRadius + elevation := hz.1
  have hra : meanRadius + elevation < meanRadius + altitude := by linarith [hz.2]
  have hsf := half_sine hf0 hf1
  have key : ∀ e : ℝ, 0 ≤ e → e ≤ Real.pi / 2 →
      min (sinRho altitude elevation) (Real.sin (radians f / 2)) = sinRho altitude elevation * Real.cos e →
      minElevation altitude f elevation = degrees e →
      (groundDistance s p ≤ forToSwath altitude f elevation / 2 ↔
        ElevationAtLeast (minElevation altitude f elevation) s p) := by
    intro e he0 he1 hmin hdeg
    have h := within_iff_elevation hs hp hr hra he0 he1
    unfold ElevationAtLeast groundDistance forToSwath
    simp only
    have hsin : sinDeg (degrees e) = Real.sin e := by
      have := Real.pi_ne_zero
      unfold sinDeg degrees; congr 1; field_simp
    rw [hdeg, hsin, hmin, mul_div_cancel_left₀ _ hk0.ne', Real.arccos_cos he0 (by linarith), hs, hp, ← h]
    simp only [sinRho]
    rw [show 2 * (meanRadius + elevation) *
        (Real.pi / 2 - Real.arcsin ((meanRadius + elevation) / (meanRadius + altitude) * Real.cos e) - e) / 2 =
        (meanRadius + elevation) *
        (Real.pi / 2 - Real.arcsin ((meanRadius + elevation) / (meanRadius + altitude) * Real.cos e) - e) by ring]
    exact mul_le_mul_iff_right₀ hr
  by_cases h : Real.sin (radians f / 2) / sinRho altitude elevation > 1
  · refine key 0 le_rfl (by linarith) ?_ ?_
    · rw [Real.cos_zero, mul_one, min_eq_left]
      rw [gt_iff_lt, one_lt_div hk0] at h; exact h.le
    · unfold minElevation degrees; simp only [h, if_true, zero_mul]
  · push Not at h
    have h1 : Real.sin (radians f / 2) ≤ sinRho altitude elevation := by rwa [div_le_one hk0] at h
    have h0 : 0 ≤ Real.sin (radians f / 2) / sinRho altitude elevation := div_nonneg hsf hk0.le
    refine key (Real.arccos (Real.sin (radians f / 2) / sinRho altitude elevation)) (Real.arccos_nonneg _)
      (Real.arccos_le_pi_div_two.mpr h0) ?_ ?_
    · rw [Real.cos_arccos (by linarith) h, min_eq_right h1]
      field_simp
    · unfold minElevation
      simp only [gt_iff_lt, not_lt.mpr h, if_false]

/-- The same of the two answers of an instrument. -/
theorem C120_instrument (f height : ℝ) (s p : V3) (hh : 0 < height) (hf0 : 0 < f) (hf1 : f ≤ 360)
    (hs : len s = meanRadius + height) (hp : len p = meanRadius) :
    groundDistance s p ≤ getSwathWidth f height / 2 ↔ ElevationAtLeast (getMinElevationAngle f height) s p := by
  have hR := meanRadius_gt
  exact C120_swath_elevation height f 0 s p ⟨by linarith, hh⟩ hf0.le hf1 hs (by rw [hp, add_zero])

/-- While the satellite keeps the altitude it had at the start, a place at sea level is within half the `swath_width` of a
row of the orbit track exactly when it is above the threshold from which observations are collected. -/
theorem C120_track (f height : ℝ) (s p : V3) (hh : 0 < height) (hf0 : 0 < f) (hf1 : f ≤ 360)
    (hs : len s = meanRadius + height) (hp : len p = meanRadius) :
    groundDistance s p ≤ trackSwathWidth height f 0 / 2 ↔ ElevationAtLeast (regardThreshold height f) s p :=
  C120_instrument f height s p hh hf0 hf1 hs hp

/-- For fields of regard up to 180 degrees, the swath is what is within half the field of regard of the direction to the
centre of the Earth and not beyond the horizon. -/
theorem C120_regard (f height : ℝ) (s p : V3) (hh : 0 < height) (hf0 : 0 < f) (hf1 : f ≤ 180)
    (hs : len s = meanRadius + height) (hp : len p = meanRadius) :
    groundDistance s p ≤ getSwathWidth f height / 2 ↔ ElevationAtLeast 0 s p ∧ OffNadirAtMost (f / 2) s p := by
  rw [C120_instrument f height s p hh hf0 (by linarith) hs hp]
  change ElevationAtLeast (regardThreshold height f) s p ↔ _
  constructor
  · intro h
    have hor : ElevationAtLeast 0 s p := by
      refine le_trans (mul_le_mul_of_nonneg_right ?_ (mul_nonneg (len_nonneg _) (len_nonneg _))) h
      have : sinDeg 0 = 0 := by simp [sinDeg]
      rw [this]
      have hR := meanRadius_gt
      have hz : Below height 0 := ⟨by linarith, hh⟩
      have := C47_bounds height 0 f hz hf0.le (by linarith)
      have h3 := this.2.2.1
      have h4 := this.2.2.2
      have hpi := Real.pi_pos
      unfold regardThreshold
      exact Real.sin_nonneg_of_nonneg_of_le_pi (by positivity) (by nlinarith)
    exact ⟨hor, (C111_regard height f s p hh hf0.le hf1 hs hp hor).mp h⟩
  · rintro ⟨hor, hn⟩
    exact (C111_regard height f s p hh hf0.le hf1 hs hp hor).mpr hn

/-! ## A satellite one radius above the ground, and a place on its horizon -/

/-- The satellite. -/
noncomputable def oneUp : V3 := ⟨2 * meanRadius, 0, 0⟩

/-- The place. -/
noncomputable def onHorizon : V3 := ⟨meanRadius / 2, Real.sqrt 3 / 2 * meanRadius, 0⟩

theorem oneUp_len : len oneUp = meanRadius + meanRadius := by
  have hR := meanRadius_gt
  unfold len oneUp V3.dot
  rw [show 2 * meanRadius * (2 * meanRadius) + 0 * 0 + 0 * 0 = (meanRadius + meanRadius) ^ 2 by ring]
  exact Real.sqrt_sq (by linarith)

theorem onHorizon_len : len onHorizon = meanRadius := by
  have hR := meanRadius_gt
  have h3 : Real.sqrt 3 ^ 2 = 3 := Real.sq_sqrt (by norm_num)
  unfold len onHorizon V3.dot
  simp only
  rw [show meanRadius / 2 * (meanRadius / 2) + Real.sqrt 3 / 2 * meanRadius * (Real.sqrt 3 / 2 * meanRadius) + 0 * 0 =
    meanRadius ^ 2 by linear_combination meanRadius ^ 2 / 4 * h3]
  exact Real.sqrt_sq (by linarith)

theorem onHorizon_elevation : ElevationAtLeast 0 oneUp onHorizon := by
  have h3 : Real.sqrt 3 ^ 2 = 3 := Real.sq_sqrt (by norm_num)
  have h0 : sinDeg 0 = 0 := by simp [sinDeg]
  unfold ElevationAtLeast
  rw [h0, zero_mul]
  unfold sub oneUp onHorizon V3.dot
  simp only
  apply le_of_eq
  linear_combination meanRadius ^ 2 / 4 * h3

theorem onHorizon_distance : groundDistance oneUp onHorizon = meanRadius * (Real.pi / 3) := by
  have hR := meanRadius_gt
  unfold groundDistance
  rw [oneUp_len, onHorizon_len]
  have : oneUp.dot onHorizon / ((meanRadius + meanRadius) * meanRadius) = Real.cos (Real.pi / 3) := by
    rw [Real.cos_pi_div_three]
    unfold oneUp onHorizon V3.dot
    simp only
    have : meanRadius ≠ 0 := by linarith
    field_simp
    ring
  have hpi := Real.pi_pos
  rw [this, Real.arccos_cos (by positivity) (by linarith)]

/-- With a field of regard of 60 degrees the place is just in the swath. -/
theorem onHorizon_swath : groundDistance oneUp onHorizon ≤ getSwathWidth 60 meanRadius / 2 := by
  have hR := meanRadius_gt
  refine (C120_track 60 meanRadius oneUp onHorizon (by linarith) (by norm_num) (by norm_num) oneUp_len onHorizon_len).mpr ?_
  rw [threshold_60.1]
  exact onHorizon_elevation

/-- Beyond 180 degrees the swath is not what is within half the field of regard: an instrument that looks everywhere has
no swath. -/
theorem C120_wide_false : ∃ (f height : ℝ) (s p : V3), 0 < height ∧ 0 < f ∧ f ≤ 360 ∧ len s = meanRadius + height ∧
    len p = meanRadius ∧ ElevationAtLeast 0 s p ∧ OffNadirAtMost (f / 2) s p ∧
    ¬ groundDistance s p ≤ getSwathWidth f height / 2 := by
  have hR := meanRadius_gt
  have hpi := Real.pi_pos
  refine ⟨360, meanRadius, oneUp, onHorizon, by linarith, by norm_num, le_rfl, oneUp_len, onHorizon_len,
    onHorizon_elevation, ?_, ?_⟩
  · have hc : cosDeg (360 / 2) = -1 := by
      unfold cosDeg; rw [show (360 / 2 : ℝ) * Real.pi / 180 = Real.pi by ring, Real.cos_pi]
    unfold OffNadirAtMost
    rw [hc]
    have h1 : 0 ≤ len oneUp * len (sub onHorizon oneUp) := mul_nonneg (len_nonneg _) (len_nonneg _)
    have h2 : (sub onHorizon oneUp).dot (oneUp.smul (-1)) = 3 * meanRadius ^ 2 := by
      unfold sub oneUp onHorizon V3.dot V3.smul; ring
    rw [h2]; nlinarith
  · have h0 : Real.sin (radians 360 / 2) = 0 := by
      unfold radians; rw [show (360 : ℝ) * (Real.pi / 180) / 2 = Real.pi by ring, Real.sin_pi]
    have hk : 0 ≤ sinRho meanRadius 0 := by unfold sinRho; positivity
    have hw : getSwathWidth 360 meanRadius = 0 := by
      unfold getSwathWidth forToSwath
      simp only
      rw [h0, min_eq_right hk, zero_div, Real.arcsin_zero, Real.arccos_zero]; ring
    rw [hw, onHorizon_distance]
    push Not
    have : 0 < meanRadius * (Real.pi / 3) := by apply mul_pos <;> linarith
    linarith

end Tatc.Props
