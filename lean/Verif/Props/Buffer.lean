import Verif.Model.Buffer
import Verif.Spec.Sphere
import Verif.Props.FieldOfView

/-!
# C95: culling keeps every time at which the target is in view
-/

namespace Tatc.Props
open Tatc.Num Tatc.Geometry Tatc.Track Tatc.Spec

/-- What is seen within half the field of regard is within half the swath. -/
theorem SeenAt.within {h z eta l f : ℝ} (hz : Below h z) (hs : SeenAt h z eta l) (hl : 0 ≤ l) (hf0 : 0 ≤ f)
    (hf : f ≤ 180) (he : eta ≤ f / 2 * Real.pi / 180) : (meanRadius + z) * l ≤ forToSwath h f z / 2 := by
  obtain ⟨hk0, hk1⟩ := sinRho_range hz
  have hH : 0 < meanRadius + h := by have := hz.1; have := hz.2; linarith
  have hk : sinRho h z * (meanRadius + h) = meanRadius + z := by unfold sinRho; field_simp
  have hpi := Real.pi_pos
  have hfe : f / 2 * Real.pi / 180 = radians f / 2 := by unfold radians; ring
  have hg0 : 0 ≤ radians f / 2 := by rw [← hfe]; positivity
  have hg1 : radians f / 2 ≤ Real.pi / 2 := by rw [← hfe]; nlinarith
  rw [hfe] at he
  have hcos : sinRho h z ≤ Real.cos l := by have := hs.horizon; rw [← hk] at this; nlinarith
  have hlk : l ≤ Real.arccos (sinRho h z) := by
    have := Real.arccos_le_arccos hcos
    rwa [Real.arccos_cos hl (by linarith [hs.near.2])] at this
  -- the law of sines
  have law : ∀ l' : ℝ, SeenAt h z eta l' → 0 ≤ l' → 0 ≤ eta → Real.sin eta = sinRho h z * Real.sin (eta + l') ∧
      eta + l' ≤ Real.pi / 2 := by
    intro l' h' hl' he'
    have hd := h'.direction
    rw [← hk] at hd
    have hd2 : Real.sin eta * (1 - sinRho h z * Real.cos l') = Real.cos eta * (sinRho h z * Real.sin l') := by
      apply mul_left_cancel₀ hH.ne'
      linear_combination hd
    refine ⟨by rw [Real.sin_add]; linear_combination hd2, ?_⟩
    by_contra hcon
    push Not at hcon
    have hneg : Real.cos (eta + l') < 0 :=
      Real.cos_neg_of_pi_div_two_lt_of_lt hcon (by linarith [h'.ahead.2, h'.near.2])
    have hce : 0 < Real.cos eta := Real.cos_pos_of_mem_Ioo h'.ahead
    have hc' : sinRho h z ≤ Real.cos l' := by have := h'.horizon; rw [← hk] at this; nlinarith
    have hden : 0 < 1 - sinRho h z * Real.cos l' := by nlinarith [Real.cos_le_one l']
    have : Real.cos (eta + l') * (1 - sinRho h z * Real.cos l') = Real.cos eta * (Real.cos l' - sinRho h z) := by
      rw [Real.cos_add]
      have hsq := Real.sin_sq_add_cos_sq l'
      linear_combination -(Real.sin l') * hd2 - Real.cos eta * sinRho h z * hsq
    have h1 : 0 ≤ Real.cos eta * (Real.cos l' - sinRho h z) := mul_nonneg hce.le (by linarith)
    nlinarith
  unfold forToSwath
  simp only
  rw [show ∀ x y : ℝ, 2 * x * y / 2 = x * y by intro x y; ring]
  apply mul_le_mul_of_nonneg_left _ (by have := hz.1; linarith)
  rcases le_total (sinRho h z) (Real.sin (radians f / 2)) with hc | hc
  · rw [min_eq_left hc, div_self hk0.ne', Real.arccos_one, sub_zero]
    exact hlk
  · rw [min_eq_right hc]
    obtain ⟨c1, c2, c3, -, c5⟩ := central_angle hk0 hk1 (Real.sin_nonneg_of_nonneg_of_le_pi hg0 (by linarith)) hc
    have hasin : Real.arcsin (Real.sin (radians f / 2)) = radians f / 2 := Real.arcsin_sin (by linarith) hg1
    set l0 := Real.pi / 2 - Real.arcsin (Real.sin (radians f / 2)) -
      Real.arccos (Real.sin (radians f / 2) / sinRho h z) with hl0
    rw [hasin] at c5
    have hlt : radians f / 2 < Real.pi / 2 := by
      rcases lt_or_eq_of_le hg1 with h1 | h1
      · exact h1
      · rw [h1, Real.sin_pi_div_two] at hc
        linarith
    have hs0 : SeenAt h z (radians f / 2) l0 := by
      refine ⟨⟨by linarith, hlt⟩, ⟨by linarith, c2⟩, ?_, ?_⟩
      · have := Real.cos_le_cos_of_nonneg_of_le_pi c1 (Real.arccos_le_pi _) c3
        rw [Real.cos_arccos (by linarith) hk1.le] at this
        rw [← hk]
        nlinarith
      · rw [← hk]
        linear_combination (meanRadius + h) * c5
    by_contra hcon
    push Not at hcon
    have heq : eta = radians f / 2 := le_antisymm he (nadir_mono hz hs0 hs hcon.le)
    have he0 : 0 ≤ eta := by rw [heq]; exact hg0
    obtain ⟨a1, a2⟩ := law l hs hl he0
    obtain ⟨b1, b2⟩ := law l0 (by rw [heq]; exact hs0) c1 he0
    have : Real.sin (eta + l0) < Real.sin (eta + l) :=
      Real.sin_lt_sin_of_lt_of_le_pi_div_two (by linarith) a2 (by linarith)
    nlinarith

/-- Along a meridian the central angle is the difference of the latitudes. -/
theorem centralAngle_meridian (lon lat1 lat2 : ℝ) (turns : ℤ) (h1 : |lat1| ≤ 90) (h2 : |lat2| ≤ 90) :
    centralAngle (lon, lat1) (lon + 360 * turns, lat2) = |lat1 - lat2| * Real.pi / 180 := by
  have hpi := Real.pi_pos
  unfold centralAngle
  simp only
  rw [show (lon - (lon + 360 * turns)) * Real.pi / 180 = -(turns * (2 * Real.pi)) by ring, Real.cos_neg,
    Real.cos_int_mul_two_pi, mul_one,
    show ∀ a b : ℝ, Real.sin a * Real.sin b + Real.cos a * Real.cos b = Real.cos (a - b) by
      intro a b; rw [Real.cos_sub]; ring,
    ← Real.cos_abs, Real.arccos_cos (abs_nonneg _)]
  · rw [← sub_div, ← sub_mul, abs_div, abs_mul, abs_of_pos hpi, abs_of_pos (by norm_num : (0 : ℝ) < 180)]
  · rw [← sub_div, ← sub_mul, abs_div, abs_mul, abs_of_pos hpi, abs_of_pos (by norm_num : (0 : ℝ) < 180)]
    obtain ⟨a1, a2⟩ := abs_le.mp h1
    obtain ⟨b1, b2⟩ := abs_le.mp h2
    have : |lat1 - lat2| ≤ 180 := abs_le.mpr ⟨by linarith, by linarith⟩
    rw [div_le_iff₀ (by norm_num)]
    nlinarith

/-- C95 along a meridian: a time at which a point of the target on the meridian of the sub-satellite point is
in view is kept, if the satellite moves between two times by half a percent of half the swath.  Meridians of
the ellipsoid are nowhere curved with a radius above 6399.6 km.  (Missing: other directions, see
`C95_latitude_false`, and times that go backwards, see `C95_order_false`.) -/
theorem C95_meridian_partial (meridian : ℝ → ℝ)
    (hm : ∀ a b, |meridian a - meridian b| ≤ 6399594 * (|a - b| * Real.pi / 180))
    (target : Set (ℝ × ℝ)) (altitude inclination fieldOfRegard step : ℝ) (hz : Below altitude 0)
    (hf0 : 0 ≤ fieldOfRegard) (hf : fieldOfRegard ≤ 180)
    (hslack : forToSwath altitude fieldOfRegard 0 / 2 * 0.005 ≤ groundVelocity altitude inclination * step)
    (lon : ℝ) (turns : ℤ) (q : ℝ × ℝ) (hq : q.1 = lon + 360 * turns) (hq2 : |q.2| ≤ 90)
    (hview : InView {p ∈ target | p.1 = lon ∧ |p.2| ≤ 90} altitude fieldOfRegard q) :
    bufferTarget meridian target altitude inclination fieldOfRegard step q := by
  have hpi := Real.pi_pos
  obtain ⟨⟨lon', lat1⟩, ⟨hp, rfl, h1⟩, eta, hs, heta⟩ := hview
  obtain ⟨_, lat2⟩ := q
  simp only at hq h1 hq2
  subst hq
  rw [centralAngle_meridian _ _ _ _ h1 hq2] at hs
  have hR : 6371000 < meanRadius := by unfold meanRadius equatorialRadius polarRadius; norm_num
  have ha : 0 ≤ |lat1 - lat2| * Real.pi / 180 := by positivity
  have hview := SeenAt.within hz hs ha hf0 hf heta
  rw [add_zero] at hview
  have hd : 6399594 * (|lat1 - lat2| * Real.pi / 180) ≤
      bufferDistance altitude inclination fieldOfRegard step 1 := by
    show _ ≤ (groundVelocity altitude inclination * step + forToSwath altitude fieldOfRegard 0 / 2) * 1
    nlinarith
  refine ⟨-turns, ?_⟩
  unfold inBuffer
  rw [if_pos (le_trans (by positivity) hd)]
  refine ⟨_, ⟨_, hp, rfl⟩, ?_⟩
  have he : planar (project meridian (lon', lat1))
      (project meridian ((lon' + 360 * turns, lat2).1 + 360 * ((-turns : ℤ) : ℝ), (lon' + 360 * turns, lat2).2)) =
      |meridian lat1 - meridian lat2| := by
    unfold planar project
    simp only
    push_cast
    rw [show lon' + 360 * (turns : ℝ) + 360 * -(turns : ℝ) = lon' by ring, sub_self, ← Real.sqrt_sq_eq_abs]
    congr 1
    ring
  rw [he]
  exact le_trans (hm _ _) hd

/-- Half the swath of a field of regard of 180 degrees reaches the horizon. -/
theorem forToSwath_horizon (altitude : ℝ) (hz : Below altitude 0) :
    forToSwath altitude 180 0 / 2 = meanRadius * Real.arccos (meanRadius / (meanRadius + altitude)) := by
  obtain ⟨hk0, hk1⟩ := sinRho_range hz
  have hk : sinRho altitude 0 = meanRadius / (meanRadius + altitude) := by unfold sinRho; rw [add_zero]
  unfold forToSwath
  simp only
  have : Real.sin (radians 180 / 2) = 1 := by
    rw [show radians 180 / 2 = Real.pi / 2 by unfold radians; ring, Real.sin_pi_div_two]
  rw [this, min_eq_left hk1.le, div_self hk0.ne', Real.arccos_one, Real.arccos, hk]
  ring

/-- A point no farther than the horizon is seen. -/
theorem seenAt_horizon {altitude : ℝ} {p q : ℝ × ℝ} (hz : Below altitude 0)
    (h : centralAngle p q ≤ Real.arccos (meanRadius / (meanRadius + altitude))) :
    SeenAt altitude 0 (Real.arctan (sinRho altitude 0 * Real.sin (centralAngle p q) /
      (1 - sinRho altitude 0 * Real.cos (centralAngle p q)))) (centralAngle p q) := by
  have hpi := Real.pi_pos
  obtain ⟨hk0, hk1⟩ := sinRho_range hz
  have hk : sinRho altitude 0 = meanRadius / (meanRadius + altitude) := by unfold sinRho; rw [add_zero]
  have hH : 0 < meanRadius + altitude := by have := hz.1; have := hz.2; linarith
  have h0 : 0 ≤ centralAngle p q := Real.arccos_nonneg _
  rw [← hk] at h
  have hle : Real.arccos (sinRho altitude 0) ≤ Real.pi / 2 := Real.arccos_le_pi_div_two.mpr hk0.le
  apply seenAt_exists hz ⟨by linarith, by linarith⟩
  have := Real.cos_le_cos_of_nonneg_of_le_pi h0 (Real.arccos_le_pi _) h
  rw [Real.cos_arccos (by linarith) hk1.le] at this
  have hk' : sinRho altitude 0 * (meanRadius + altitude) = meanRadius + 0 := by unfold sinRho; field_simp
  rw [← hk']
  nlinarith

/-- The ground velocity 1000 km up is between 5 and 7 km/s, whatever the inclination. -/
theorem groundVelocity_bounds (inclination : ℝ) :
    5000 ≤ groundVelocity 1000000 inclination ∧ groundVelocity 1000000 inclination ≤ 7000 := by
  have hR1 : 6371000 < meanRadius := by unfold meanRadius equatorialRadius polarRadius; norm_num
  have hR2 : meanRadius < 6371010 := by unfold meanRadius equatorialRadius polarRadius; norm_num
  have hpi := Real.pi_gt_three
  have hpi' := Real.pi_lt_d2
  have ha : 0 < meanRadius + 1000000 := by linarith
  have hr1 : Real.sqrt (mu / (meanRadius + 1000000) ^ 3) ≤ 1 / 1000 := by
    rw [Real.sqrt_le_left (by norm_num), div_le_iff₀ (by positivity)]
    have : (7371000 : ℝ) ^ 3 ≤ (meanRadius + 1000000) ^ 3 := pow_le_pow_left₀ (by norm_num) (by linarith) 3
    unfold mu
    nlinarith
  have hr2 : 0.00099 ≤ Real.sqrt (mu / (meanRadius + 1000000) ^ 3) := by
    rw [Real.le_sqrt (by norm_num) (div_nonneg (by unfold mu; norm_num) (by positivity)), le_div_iff₀ (by positivity)]
    have : (meanRadius + 1000000) ^ 3 ≤ (7371010 : ℝ) ^ 3 := pow_le_pow_left₀ ha.le (by linarith) 3
    unfold mu
    nlinarith
  have hc1 := Real.cos_le_one (degrees inclination)
  have hc2 := Real.neg_one_le_cos (degrees inclination)
  have hb : |2 * Real.pi * Real.cos (degrees inclination) / siderealDay| ≤ 0.00008 := by
    rw [abs_div, abs_mul, abs_of_pos (by linarith : 0 < 2 * Real.pi)]
    have hs : |siderealDay| = 86164.0905 := by unfold siderealDay; norm_num
    rw [hs, div_le_iff₀ (by norm_num)]
    have := abs_le.mpr ⟨hc2, hc1⟩
    nlinarith
  obtain ⟨b1, b2⟩ := abs_le.mp hb
  unfold groundVelocity
  simp only
  constructor
  · have : 0.0009 ≤ Real.sqrt (mu / (meanRadius + 1000000) ^ 3) -
        2 * Real.pi * Real.cos (degrees inclination) / siderealDay := by norm_num at hr2 b2 ⊢; linarith
    nlinarith
  · have : Real.sqrt (mu / (meanRadius + 1000000) ^ 3) -
        2 * Real.pi * Real.cos (degrees inclination) / siderealDay ≤ 0.00108 := by norm_num at hr1 b1 ⊢; linarith
    nlinarith

/-- 1000 km up the horizon is between a seventh and a quarter of pi away. -/
theorem horizon_bounds : Real.arccos (meanRadius / (meanRadius + 1000000)) ≤ Real.pi / 4 ∧
    Real.pi / 12 ≤ Real.arccos (meanRadius / (meanRadius + 1000000)) := by
  have hR1 : 6371000 < meanRadius := by unfold meanRadius equatorialRadius polarRadius; norm_num
  have hR2 : meanRadius < 6371010 := by unfold meanRadius equatorialRadius polarRadius; norm_num
  have ha : 0 < meanRadius + 1000000 := by linarith
  have hpi := Real.pi_pos
  have hpi' := Real.pi_lt_d2
  constructor
  · have h2 := Real.sq_sqrt (show (0 : ℝ) ≤ 2 by norm_num)
    have h20 := Real.sqrt_nonneg 2
    have h21 : Real.sqrt 2 ≤ 1.42 := by nlinarith
    have : Real.cos (Real.pi / 4) ≤ meanRadius / (meanRadius + 1000000) := by
      rw [Real.cos_pi_div_four, le_div_iff₀ ha]
      nlinarith
    have h3 := Real.arccos_le_arccos this
    rwa [Real.arccos_cos (by linarith) (by linarith)] at h3
  · have : meanRadius / (meanRadius + 1000000) ≤ Real.cos (Real.pi / 12) := by
      have hc := Real.one_sub_sq_div_two_le_cos (x := Real.pi / 12)
      rw [div_le_iff₀ ha]
      nlinarith
    have h3 := Real.arccos_le_arccos this
    rwa [Real.arccos_cos (by linarith) (by linarith)] at h3

/-- C95 is false away from the equator: 1000 km up, from 60 degrees north, a target 60 degrees of longitude away on
the same parallel is in view, but the time is dropped, whatever the inclination, for time steps up to a
minute. -/
theorem C95_latitude_false (meridian : ℝ → ℝ) (inclination step : ℝ) (hs0 : 0 ≤ step) (hs : step ≤ 60) :
    ∃ target q, InView target 1000000 180 q ∧
      ¬ bufferTarget meridian target 1000000 inclination 180 step q := by
  have hR1 : 6371000 < meanRadius := by unfold meanRadius equatorialRadius polarRadius; norm_num
  have hR2 : meanRadius < 6371010 := by unfold meanRadius equatorialRadius polarRadius; norm_num
  have hz : Below 1000000 0 := ⟨by linarith, by norm_num⟩
  have hpi := Real.pi_gt_three
  refine ⟨{(0, 60)}, (60, 60), ⟨(0, 60), rfl, _, seenAt_horizon hz ?_, ?_⟩, ?_⟩
  · unfold centralAngle
    apply Real.arccos_le_arccos
    simp only
    rw [show (60 : ℝ) * Real.pi / 180 = Real.pi / 3 by ring,
      show (0 - 60 : ℝ) * Real.pi / 180 = -(Real.pi / 3) by ring, Real.cos_neg, Real.cos_pi_div_three,
      Real.sin_pi_div_three, div_le_iff₀ (by linarith)]
    have h3 := Real.sq_sqrt (show (0 : ℝ) ≤ 3 by norm_num)
    nlinarith
  · rw [show (180 : ℝ) / 2 * Real.pi / 180 = Real.pi / 2 by ring]
    exact (Real.arctan_lt_pi_div_two _).le
  · rintro ⟨turns, h⟩
    have hv := (groundVelocity_bounds inclination).2
    have hv0 := (groundVelocity_bounds inclination).1
    have hd : bufferDistance 1000000 inclination 180 step 1 ≤ 420000 + meanRadius * (Real.pi / 4) := by
      show (groundVelocity 1000000 inclination * step + forToSwath 1000000 180 0 / 2) * 1 ≤ _
      rw [forToSwath_horizon _ hz, mul_one]
      have := mul_le_mul_of_nonneg_left horizon_bounds.1 (show 0 ≤ meanRadius by linarith)
      nlinarith
    have hd0 : 0 ≤ bufferDistance 1000000 inclination 180 step 1 := by
      show 0 ≤ (groundVelocity 1000000 inclination * step + forToSwath 1000000 180 0 / 2) * 1
      rw [forToSwath_horizon _ hz, mul_one]
      have := Real.arccos_nonneg (meanRadius / (meanRadius + 1000000))
      have h2 : 0 ≤ meanRadius := by linarith
      positivity
    unfold inBuffer at h
    rw [if_pos hd0] at h
    obtain ⟨p, ⟨p', hp', rfl⟩, hle⟩ := h
    obtain rfl : p' = (0, 60) := hp'
    have hx : equatorialRadius * (Real.pi / 3) ≤
        planar (project meridian (0, 60)) (project meridian ((60, 60).1 + 360 * (turns : ℝ), (60, 60).2)) := by
      unfold planar project
      simp only
      apply Real.le_sqrt_of_sq_le
      rw [sub_self]
      have ht : (1 : ℝ) ≤ (1 + 6 * (turns : ℝ)) ^ 2 := by
        have : (1 : ℤ) ≤ (1 + 6 * turns) ^ 2 := by
          have : (1 + 6 * turns) ≠ 0 := by omega
          have := Int.one_le_abs this
          rw [← sq_abs]
          nlinarith
        exact_mod_cast this
      have e : (equatorialRadius * radians 0 - equatorialRadius * radians (60 + 360 * (turns : ℝ))) ^ 2 + 0 ^ 2 =
          (equatorialRadius * (Real.pi / 3)) ^ 2 * (1 + 6 * (turns : ℝ)) ^ 2 := by
        unfold radians; ring
      rw [e]
      have h0 : 0 ≤ (equatorialRadius * (Real.pi / 3)) ^ 2 := sq_nonneg _
      nlinarith
    have he : (6378137 : ℝ) = equatorialRadius := rfl
    rw [← he] at hx
    nlinarith

/-- C95 is false of times in descending order: the distance travelled is then negative.  1000 km up, twenty
minutes apart, a square is in view from the equator one degree beyond its edge; the time is kept going forwards
and dropped going backwards. -/
theorem C95_order_false (meridian : ℝ → ℝ) (inclination : ℝ) : ∃ (target : Set (ℝ × ℝ)) (q : ℝ × ℝ),
    InView target 1000000 180 q ∧
      bufferTarget meridian target 1000000 inclination 180 (timeStep [0, 1200000000, 2400000000]) q ∧
      ¬ bufferTarget meridian target 1000000 inclination 180 (timeStep [2400000000, 1200000000, 0]) q := by
  have hR1 : 6371000 < meanRadius := by unfold meanRadius equatorialRadius polarRadius; norm_num
  have hR2 : meanRadius < 6371010 := by unfold meanRadius equatorialRadius polarRadius; norm_num
  have hz : Below 1000000 0 := ⟨by linarith, by norm_num⟩
  have hpi := Real.pi_gt_three
  have hpi' := Real.pi_lt_d2
  have hv := groundVelocity_bounds inclination
  have hh := horizon_bounds
  have hf : timeStep [0, 1200000000, 2400000000] = 1200 := by unfold timeStep; norm_num
  have hb : timeStep [2400000000, 1200000000, 0] = -1200 := by unfold timeStep; norm_num
  refine ⟨{p | |p.1| ≤ 1 ∧ |p.2| ≤ 1}, (2, 0), ⟨(1, 0), by norm_num, _, seenAt_horizon hz ?_, ?_⟩, ?_, ?_⟩
  · refine le_trans ?_ hh.2
    unfold centralAngle
    simp only [zero_mul, zero_div, Real.sin_zero, Real.cos_zero, one_mul, zero_add, mul_zero]
    rw [show (1 - 2 : ℝ) * Real.pi / 180 = -(Real.pi / 180) by ring, Real.cos_neg,
      Real.arccos_cos (by linarith) (by linarith)]
    linarith
  · rw [show (180 : ℝ) / 2 * Real.pi / 180 = Real.pi / 2 by ring]
    exact (Real.arctan_lt_pi_div_two _).le
  · rw [hf]
    refine ⟨0, ?_⟩
    have hd : meanRadius * (Real.pi / 12) ≤ bufferDistance 1000000 inclination 180 1200 1 := by
      show _ ≤ (groundVelocity 1000000 inclination * 1200 + forToSwath 1000000 180 0 / 2) * 1
      rw [forToSwath_horizon _ hz, mul_one]
      have := mul_le_mul_of_nonneg_left hh.2 (show 0 ≤ meanRadius by linarith)
      linarith [hv.1]
    unfold inBuffer
    rw [if_pos (le_trans (by positivity) hd)]
    refine ⟨_, ⟨(1, 0), by norm_num, rfl⟩, ?_⟩
    refine le_trans ?_ hd
    unfold planar project
    simp only [Int.cast_zero, mul_zero, add_zero, sub_self]
    rw [show (equatorialRadius * radians 1 - equatorialRadius * radians 2) ^ 2 + 0 ^ 2 =
      (equatorialRadius * (Real.pi / 180)) ^ 2 by unfold radians; ring]
    have he : equatorialRadius = (6378137 : ℝ) := rfl
    rw [he, Real.sqrt_sq (by positivity)]
    nlinarith
  · rw [hb]
    rintro ⟨turns, h⟩
    have hd : bufferDistance 1000000 inclination 180 (-1200) 1 < 0 := by
      show (groundVelocity 1000000 inclination * (-1200) + forToSwath 1000000 180 0 / 2) * 1 < 0
      rw [forToSwath_horizon _ hz, mul_one]
      have := mul_le_mul_of_nonneg_left hh.1 (show 0 ≤ meanRadius by linarith)
      nlinarith [hv.1]
    unfold inBuffer at h
    rw [if_neg (not_le.mpr hd)] at h
    obtain ⟨p, ⟨hp, -⟩, he⟩ := h (project meridian ((2, 0).1 + 360 * (turns : ℝ), (2, 0).2)) (by
      unfold planar
      simp only [sub_self]
      norm_num
      linarith)
    have h1 := congrArg Prod.fst he
    unfold project at h1
    simp only at h1
    have ha : equatorialRadius ≠ 0 := by unfold equatorialRadius; norm_num
    have h2 := mul_left_cancel₀ ha h1
    unfold radians at h2
    have h3 : p.1 = 2 + 360 * (turns : ℝ) := by
      field_simp at h2
      exact h2
    rw [h3] at hp
    obtain ⟨a, b⟩ := abs_le.mp hp
    have a' : (-3 : ℝ) ≤ 360 * turns := by linarith
    have b' : (360 : ℝ) * turns ≤ -1 := by linarith
    have a'' : (-3 : ℤ) ≤ 360 * turns := by exact_mod_cast a'
    have b'' : 360 * turns ≤ -1 := by exact_mod_cast b'
    omega

/-- The hypotheses of `C95_meridian_partial` hold 1000 km up, a minute apart, ten degrees along a meridian. -/
example : ∃ meridian : ℝ → ℝ,
    (∀ a b, |meridian a - meridian b| ≤ 6399594 * (|a - b| * Real.pi / 180)) ∧
    forToSwath 1000000 180 0 / 2 * 0.005 ≤ groundVelocity 1000000 50 * 60 ∧
    InView {p ∈ ({(7, 35)} : Set (ℝ × ℝ)) | p.1 = (7 : ℝ) ∧ |p.2| ≤ (90 : ℝ)} 1000000 180 (7 + 360 * (1 : ℤ), 45) := by
  have hR1 : 6371000 < meanRadius := by unfold meanRadius equatorialRadius polarRadius; norm_num
  have hR2 : meanRadius < 6371010 := by unfold meanRadius equatorialRadius polarRadius; norm_num
  have hz : Below 1000000 0 := ⟨by linarith, by norm_num⟩
  have hpi := Real.pi_gt_three
  have hpi' := Real.pi_lt_d2
  have hh := horizon_bounds
  have hu := mul_le_mul_of_nonneg_left hh.1 (show 0 ≤ meanRadius by linarith)
  have hl := mul_le_mul_of_nonneg_left hh.2 (show 0 ≤ meanRadius by linarith)
  refine ⟨fun a => 6371000 * (a * Real.pi / 180), fun a b => ?_, ?_, ?_⟩
  · rw [show 6371000 * (a * Real.pi / 180) - 6371000 * (b * Real.pi / 180) =
      (a - b) * (6371000 * Real.pi / 180) by ring, abs_mul,
      abs_of_pos (show 0 < 6371000 * Real.pi / 180 by positivity)]
    have := abs_nonneg (a - b)
    have : 0 ≤ |a - b| * Real.pi := by positivity
    linarith
  · rw [forToSwath_horizon _ hz]
    have := (groundVelocity_bounds 50).1
    nlinarith
  · refine ⟨(7, 35), ⟨rfl, rfl, by norm_num⟩, _, seenAt_horizon hz ?_, ?_⟩
    · rw [centralAngle_meridian _ _ _ _ (by norm_num) (by norm_num)]
      refine le_trans ?_ hh.2
      norm_num [abs_of_neg]
      linarith
    · rw [show (180 : ℝ) / 2 * Real.pi / 180 = Real.pi / 2 by ring]
      exact (Real.arctan_lt_pi_div_two _).le

end Tatc.Props
