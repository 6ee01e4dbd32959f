import Verif.Model.GroundView
import Verif.Props.Buffer
import Mathlib.Analysis.Convex.SpecificFunctions.Deriv
import Mathlib.Analysis.Convex.Deriv

/-!
# C119: the ground track shows what the instrument sees
-/

namespace Tatc.Props
open Tatc.Num Tatc.Geometry Tatc.Track Tatc.Spec

/-- The satellite over `subpoint` sees the place, on the sphere at the elevation given, within half its field of regard
(degrees) from nadir. -/
def Sees (height fieldOfRegard elevation : ℝ) (subpoint q : ℝ × ℝ) : Prop :=
  ∃ eta, SeenAt height elevation eta (centralAngle subpoint q) ∧ eta ≤ fieldOfRegard / 2 * Real.pi / 180

/-! ## Distances -/

theorem sin_chord {k x : ℝ} (hk0 : 0 ≤ k) (hk1 : k ≤ 1) (hx0 : 0 ≤ x) (hx : x ≤ Real.pi) :
    k * Real.sin x ≤ Real.sin (k * x) := by
  have hs := strictConcaveOn_sin_Icc.concaveOn
  have h := hs.2 (show (0 : ℝ) ∈ Set.Icc 0 Real.pi from ⟨le_refl _, Real.pi_pos.le⟩) (show x ∈ Set.Icc 0 Real.pi from ⟨hx0, hx⟩)
    (show 0 ≤ 1 - k by linarith) hk0 (by ring)
  simpa using h

/-- The cosine as a function of the square is convex. -/
theorem convex_cos_sqrt : ConvexOn ℝ (Set.Icc 0 (Real.pi ^ 2)) fun s => Real.cos (Real.sqrt s) := by
  have hpi := Real.pi_pos
  have hder : ∀ s ∈ interior (Set.Icc (0 : ℝ) (Real.pi ^ 2)),
      HasDerivAt (fun s => Real.cos (Real.sqrt s)) (-Real.sin (Real.sqrt s) * (1 / (2 * Real.sqrt s))) s := by
    intro s hs
    rw [interior_Icc] at hs
    exact (Real.hasDerivAt_cos _).comp s (Real.hasDerivAt_sqrt hs.1.ne')
  apply MonotoneOn.convexOn_of_deriv (convex_Icc _ _)
  · exact (Real.continuous_cos.comp Real.continuous_sqrt).continuousOn
  · intro s hs
    exact (hder s hs).differentiableAt.differentiableWithinAt
  · intro s hs t ht hst
    rw [(hder s hs).deriv, (hder t ht).deriv]
    rw [interior_Icc] at hs ht
    have hs0 := Real.sqrt_pos.mpr hs.1
    have ht0 := Real.sqrt_pos.mpr ht.1
    have htp : Real.sqrt t ≤ Real.pi := by rw [Real.sqrt_le_left hpi.le]; exact ht.2.le
    have hle : Real.sqrt s ≤ Real.sqrt t := Real.sqrt_le_sqrt hst
    have hc := sin_chord (k := Real.sqrt s / Real.sqrt t) (x := Real.sqrt t) (by positivity)
      (by rw [div_le_one ht0]; exact hle) ht0.le htp
    rw [div_mul_cancel₀ _ ht0.ne', div_mul_eq_mul_div, div_le_iff₀ ht0] at hc
    rw [mul_one_div, mul_one_div, div_le_div_iff₀ (by positivity) (by positivity)]
    nlinarith

/-- The side of a right triangle is shorter on the sphere than in the plane. -/
theorem cos_mul_cos_ge {u v : ℝ} (h : u ^ 2 + v ^ 2 ≤ (Real.pi / 2) ^ 2) :
    Real.cos (Real.sqrt (u ^ 2 + v ^ 2)) ≤ Real.cos u * Real.cos v := by
  have hpi := Real.pi_pos
  have h1 : (u + v) ^ 2 ∈ Set.Icc (0 : ℝ) (Real.pi ^ 2) := ⟨sq_nonneg _, by nlinarith [sq_nonneg (u - v)]⟩
  have h2 : (u - v) ^ 2 ∈ Set.Icc (0 : ℝ) (Real.pi ^ 2) := ⟨sq_nonneg _, by nlinarith [sq_nonneg (u + v)]⟩
  have hc := convex_cos_sqrt.2 h1 h2 (show (0 : ℝ) ≤ 1 / 2 by norm_num) (show (0 : ℝ) ≤ 1 / 2 by norm_num) (by norm_num)
  simp only [smul_eq_mul, Real.sqrt_sq_eq_abs, Real.cos_abs, Real.cos_add, Real.cos_sub] at hc
  rw [show (1 : ℝ) / 2 * (u + v) ^ 2 + 1 / 2 * (u - v) ^ 2 = u ^ 2 + v ^ 2 by ring] at hc
  linarith

/-- The central angle is at most the distance in the plane of longitudes and latitudes. -/
theorem centralAngle_le (p q : ℝ × ℝ) :
    centralAngle p q ≤ Real.sqrt (((p.1 - q.1) * Real.pi / 180) ^ 2 + ((p.2 - q.2) * Real.pi / 180) ^ 2) := by
  have hpi := Real.pi_pos
  set u := (p.2 - q.2) * Real.pi / 180 / 2 with hu
  set v := (p.1 - q.1) * Real.pi / 180 / 2 with hv
  have hd : Real.sqrt (((p.1 - q.1) * Real.pi / 180) ^ 2 + ((p.2 - q.2) * Real.pi / 180) ^ 2) =
      2 * Real.sqrt (u ^ 2 + v ^ 2) := by
    rw [show ((p.1 - q.1) * Real.pi / 180) ^ 2 + ((p.2 - q.2) * Real.pi / 180) ^ 2 = 2 ^ 2 * (u ^ 2 + v ^ 2) by
      rw [hu, hv]; ring, Real.sqrt_mul (by norm_num), Real.sqrt_sq (by norm_num)]
  rw [hd]
  set w := Real.sqrt (u ^ 2 + v ^ 2) with hw
  have hw0 : 0 ≤ w := Real.sqrt_nonneg _
  rcases le_total (Real.pi / 2) w with h | h
  · exact (Real.arccos_le_pi _).trans (by linarith)
  · have hww : u ^ 2 + v ^ 2 ≤ (Real.pi / 2) ^ 2 := by
      have := Real.sq_sqrt (show 0 ≤ u ^ 2 + v ^ 2 by positivity)
      rw [← hw] at this
      nlinarith
    have hcc := cos_mul_cos_ge hww
    rw [← hw] at hcc
    have hcw : 0 ≤ Real.cos w := Real.cos_nonneg_of_mem_Icc ⟨by linarith, h⟩
    unfold centralAngle
    rw [← Real.arccos_cos (x := 2 * w) (by linarith) (by linarith)]
    apply Real.arccos_le_arccos
    set a := p.2 * Real.pi / 180 with ha
    set b := q.2 * Real.pi / 180 with hb
    have hab : a - b = 2 * u := by rw [ha, hb, hu]; ring
    have hlon : (p.1 - q.1) * Real.pi / 180 = 2 * v := by rw [hv]; ring
    rw [hlon, Real.cos_two_mul, Real.cos_two_mul]
    have e1 : Real.cos a * Real.cos b + Real.sin a * Real.sin b = 2 * Real.cos u ^ 2 - 1 := by
      rw [← Real.cos_sub, hab, Real.cos_two_mul]
    have e2 : Real.cos a * Real.cos b - Real.sin a * Real.sin b ≤ 1 := by
      rw [← Real.cos_add]; exact Real.cos_le_one _
    have e3 : 0 ≤ 1 - Real.cos v ^ 2 := by nlinarith [Real.sin_sq_add_cos_sq v, sq_nonneg (Real.sin v)]
    have e4 : Real.cos w ^ 2 ≤ (Real.cos u * Real.cos v) ^ 2 := by nlinarith
    nlinarith

/-- A place is where it is drawn. -/
theorem centralAngle_drawn {p q : ℝ × ℝ} (o : ℝ × ℝ) (h : DrawnAt q p) : centralAngle o p = centralAngle o q := by
  obtain ⟨k, rfl | rfl | rfl⟩ := h
  · unfold centralAngle
    simp only
    rw [show (o.1 - (q.1 + 360 * (k : ℝ))) * Real.pi / 180 = (o.1 - q.1) * Real.pi / 180 - k * (2 * Real.pi) by ring,
      Real.cos_sub_int_mul_two_pi]
  · unfold centralAngle
    simp only
    rw [show (o.1 - (q.1 + 180 + 360 * (k : ℝ))) * Real.pi / 180 =
        (o.1 - q.1) * Real.pi / 180 - Real.pi - k * (2 * Real.pi) by ring, Real.cos_sub_int_mul_two_pi,
      Real.cos_sub_pi, show (180 - q.2) * Real.pi / 180 = Real.pi - q.2 * Real.pi / 180 by ring, Real.sin_pi_sub,
      Real.cos_pi_sub]
    ring_nf
  · unfold centralAngle
    simp only
    rw [show (o.1 - (q.1 + 180 + 360 * (k : ℝ))) * Real.pi / 180 =
        (o.1 - q.1) * Real.pi / 180 - Real.pi - k * (2 * Real.pi) by ring, Real.cos_sub_int_mul_two_pi,
      Real.cos_sub_pi, show (-180 - q.2) * Real.pi / 180 = -(Real.pi + q.2 * Real.pi / 180) by ring, Real.sin_neg,
      Real.cos_neg, add_comm Real.pi, Real.sin_add_pi, Real.cos_add_pi]
    ring_nf

/-! ## The swath -/

/-- What is within half the swath is seen within half the field of regard. -/
theorem seen_of_within {h z f l : ℝ} (hz : Below h z) (hf0 : 0 ≤ f) (hf : f ≤ 180) (hl : 0 ≤ l)
    (hw : (meanRadius + z) * l ≤ forToSwath h f z / 2) :
    ∃ eta, SeenAt h z eta l ∧ eta ≤ f / 2 * Real.pi / 180 := by
  have hpi := Real.pi_pos
  obtain ⟨hk0, hk1⟩ := sinRho_range hz
  have hR := hz.1
  have hH : 0 < meanRadius + h := by have := hz.1; have := hz.2; linarith
  have hk : sinRho h z * (meanRadius + h) = meanRadius + z := by unfold sinRho; field_simp
  have hfe : f / 2 * Real.pi / 180 = radians f / 2 := by unfold radians; ring
  have hg0 : 0 ≤ radians f / 2 := by rw [← hfe]; positivity
  have hg1 : radians f / 2 ≤ Real.pi / 2 := by rw [← hfe]; nlinarith
  rw [hfe]
  unfold forToSwath at hw
  simp only at hw
  have hg : 0 ≤ Real.sin (radians f / 2) := Real.sin_nonneg_of_nonneg_of_le_pi hg0 (by linarith)
  set s := min (sinRho h z) (Real.sin (radians f / 2)) with hs
  have hs0 : 0 ≤ s := le_min hk0.le hg
  have hsk : s ≤ sinRho h z := min_le_left _ _
  have hsf : s ≤ Real.sin (radians f / 2) := min_le_right _ _
  obtain ⟨c1, c2, c3, -, c5⟩ := central_angle hk0 hk1 hs0 hsk
  set l0 := Real.pi / 2 - Real.arcsin s - Real.arccos (s / sinRho h z) with hl0
  have hle : l ≤ l0 := by
    have : (meanRadius + z) * l ≤ (meanRadius + z) * l0 := by linarith
    exact le_of_mul_le_mul_left this hR
  have hor : ∀ x, 0 ≤ x → x ≤ l0 → meanRadius + z ≤ (meanRadius + h) * Real.cos x := by
    intro x hx0 hx
    have := Real.cos_le_cos_of_nonneg_of_le_pi hx0 (Real.arccos_le_pi (sinRho h z)) (hx.trans c3)
    rw [Real.cos_arccos (by linarith) hk1.le] at this
    rw [← hk]
    nlinarith
  have hs1 : s < 1 := by linarith
  have hseen0 : SeenAt h z (Real.arcsin s) l0 := by
    refine ⟨⟨?_, ?_⟩, ⟨by linarith, c2⟩, hor l0 c1 (le_refl _), ?_⟩
    · have := Real.arcsin_nonneg.mpr hs0
      linarith
    · exact Real.arcsin_lt_pi_div_two.mpr hs1
    · rw [Real.sin_arcsin (by linarith) hs1.le, ← hk]
      linear_combination (meanRadius + h) * c5
  have hseen := seenAt_exists hz (l := l) ⟨by linarith, by linarith⟩ (hor l hl hle)
  refine ⟨_, hseen, (nadir_mono hz hseen hseen0 hle).trans ?_⟩
  have := Real.arcsin_le_arcsin hsf
  rwa [Real.arcsin_sin (by linarith) hg1] at this

/-! ## C119 -/

/-- C119, one half: the footprint of a row of the ground track contains only places that the instrument sees, if
the projection shortens no meridian of the sphere at the elevation.  (Missing: that it contains all of them, which is
false, see `C119_seen_false`.) -/
theorem C119_only_seen_partial (meridian : ℝ → ℝ) (subpoint q : ℝ × ℝ) (height fieldOfRegard elevation : ℝ)
    (hz : Below height elevation) (hf0 : 0 ≤ fieldOfRegard) (hf : fieldOfRegard ≤ 180)
    (hE : meanRadius + elevation ≤ equatorialRadius)
    (hm : ∀ a b, (meanRadius + elevation) * (|a - b| * Real.pi / 180) ≤ |meridian a - meridian b|)
    (h : groundFootprint meridian subpoint height fieldOfRegard elevation q) :
    Sees height fieldOfRegard elevation subpoint q := by
  have hR := hz.1
  have hpi := Real.pi_pos
  obtain ⟨p, hp, hd⟩ := h
  refine seen_of_within hz hf0 hf (Real.arccos_nonneg _) (le_trans ?_ hd)
  rw [← centralAngle_drawn subpoint hp]
  refine (mul_le_mul_of_nonneg_left (centralAngle_le subpoint p) hR.le).trans ?_
  unfold planar project
  apply Real.le_sqrt_of_sq_le
  rw [mul_pow, Real.sq_sqrt (by positivity), mul_add]
  simp only
  have h1 : (meanRadius + elevation) ^ 2 * ((subpoint.1 - p.1) * Real.pi / 180) ^ 2 ≤
      (equatorialRadius * radians subpoint.1 - equatorialRadius * radians p.1) ^ 2 := by
    rw [show equatorialRadius * radians subpoint.1 - equatorialRadius * radians p.1 =
      equatorialRadius * ((subpoint.1 - p.1) * Real.pi / 180) by unfold radians; ring, mul_pow]
    exact mul_le_mul_of_nonneg_right (pow_le_pow_left₀ hR.le hE 2) (sq_nonneg _)
  have h2 : (meanRadius + elevation) ^ 2 * ((subpoint.2 - p.2) * Real.pi / 180) ^ 2 ≤
      (meridian subpoint.2 - meridian p.2) ^ 2 := by
    rw [← mul_pow, ← sq_abs, ← sq_abs (meridian _ - _)]
    apply pow_le_pow_left₀ (abs_nonneg _)
    have := hm subpoint.2 p.2
    rwa [abs_mul, abs_of_pos hR, abs_div, abs_mul, abs_of_pos hpi, abs_of_pos (show (0 : ℝ) < 180 by norm_num)]
  linarith

/-- On the parallel of the sub-satellite point (up to a quarter turn away) the footprint reaches as far as half
the swath, measured on the equator. -/
theorem C119_parallel (meridian : ℝ → ℝ) (subpoint : ℝ × ℝ) (height fieldOfRegard elevation degrees : ℝ)
    (h0 : 0 ≤ degrees) (h90 : degrees ≤ 90) :
    groundFootprint meridian subpoint height fieldOfRegard elevation (subpoint.1 + degrees, subpoint.2) ↔
      equatorialRadius * (degrees * Real.pi / 180) ≤ forToSwath height fieldOfRegard elevation / 2 := by
  have hpi := Real.pi_pos
  have ha : 0 < equatorialRadius := by unfold equatorialRadius; norm_num
  constructor
  · rintro ⟨p, hp, hd⟩
    refine le_trans ?_ hd
    unfold planar project
    apply Real.le_sqrt_of_sq_le
    simp only
    have hx : (degrees : ℝ) ^ 2 ≤ (subpoint.1 - p.1) ^ 2 := by
      obtain ⟨k, rfl | rfl | rfl⟩ := hp
      · simp only
        rcases le_or_gt 0 k with hk | hk
        · have : (0 : ℝ) ≤ k := by exact_mod_cast hk
          nlinarith
        · have : (k : ℝ) + 1 ≤ 0 := by exact_mod_cast hk
          nlinarith
      all_goals
        simp only
        rcases le_or_gt 0 k with hk | hk
        · have : (0 : ℝ) ≤ k := by exact_mod_cast hk
          nlinarith
        · have : (k : ℝ) + 1 ≤ 0 := by exact_mod_cast hk
          nlinarith
    rw [show equatorialRadius * radians subpoint.1 - equatorialRadius * radians p.1 =
      (equatorialRadius * (Real.pi / 180)) * (subpoint.1 - p.1) by unfold radians; ring,
      show equatorialRadius * (degrees * Real.pi / 180) = (equatorialRadius * (Real.pi / 180)) * degrees by ring,
      mul_pow, mul_pow]
    have := mul_le_mul_of_nonneg_left hx (sq_nonneg (equatorialRadius * (Real.pi / 180)))
    have := sq_nonneg (meridian subpoint.2 - meridian p.2)
    linarith
  · intro h
    refine ⟨(subpoint.1 + degrees, subpoint.2), ⟨0, .inl (by simp)⟩, le_trans (le_of_eq ?_) h⟩
    unfold planar project
    simp only
    rw [sub_self, show (equatorialRadius * radians subpoint.1 - equatorialRadius * radians (subpoint.1 + degrees)) ^ 2 +
      0 ^ 2 = (equatorialRadius * (degrees * Real.pi / 180)) ^ 2 by unfold radians; ring, Real.sqrt_sq (by positivity)]

/-- The central angle between places of a parallel is at most the arc of the parallel. -/
theorem centralAngle_parallel {lon lat degrees : ℝ} (h0 : 0 ≤ degrees) (h90 : degrees ≤ 90) (hlat : |lat| ≤ 90) :
    centralAngle (lon, lat) (lon + degrees, lat) ≤ Real.cos (lat * Real.pi / 180) * (degrees * Real.pi / 180) := by
  have hpi := Real.pi_pos
  obtain ⟨hl1, hl2⟩ := abs_le.mp hlat
  set k := Real.cos (lat * Real.pi / 180) with hk
  set d := degrees * Real.pi / 180 with hd
  have hd0 : 0 ≤ d := by positivity
  have hd1 : d ≤ Real.pi / 2 := by rw [hd]; nlinarith
  have hk0 : 0 ≤ k := Real.cos_nonneg_of_mem_Icc ⟨by linarith [mul_le_mul_of_nonneg_right hl1 hpi.le],
    by linarith [mul_le_mul_of_nonneg_right hl2 hpi.le]⟩
  have hk1 : k ≤ 1 := Real.cos_le_one _
  unfold centralAngle
  simp only
  rw [show (lon - (lon + degrees)) * Real.pi / 180 = -d by rw [hd]; ring, Real.cos_neg, ← hk]
  rw [← Real.arccos_cos (x := k * d) (by positivity) (by nlinarith)]
  apply Real.arccos_le_arccos
  have hch := sin_chord hk0 hk1 (x := d / 2) (by linarith) (by linarith)
  have hsd : 0 ≤ Real.sin (d / 2) := Real.sin_nonneg_of_nonneg_of_le_pi (by linarith) (by linarith)
  have e1 : Real.cos (k * d) = 1 - 2 * Real.sin (k * (d / 2)) ^ 2 := by
    rw [show k * d = 2 * (k * (d / 2)) by ring, Real.cos_two_mul']
    nlinarith [Real.sin_sq_add_cos_sq (k * (d / 2))]
  have e2 : Real.cos d = 1 - 2 * Real.sin (d / 2) ^ 2 := by
    have := Real.cos_two_mul' (d / 2)
    rw [show 2 * (d / 2) = d by ring] at this
    nlinarith [Real.sin_sq_add_cos_sq (d / 2)]
  have e3 : Real.sin (lat * Real.pi / 180) * Real.sin (lat * Real.pi / 180) = 1 - k * k := by
    have := Real.sin_sq_add_cos_sq (lat * Real.pi / 180)
    rw [← hk] at this
    nlinarith
  rw [e1, e2, e3]
  have : (k * Real.sin (d / 2)) ^ 2 ≤ Real.sin (k * (d / 2)) ^ 2 := pow_le_pow_left₀ (by positivity) hch 2
  nlinarith

/-- **C119 is false** at every latitude: of the places on the parallel of the sub-satellite point, all those whose
longitudes differ by more than half the swath measured on the equator, and at most half the swath measured on the
parallel, are seen and not in the footprint. -/
theorem C119_seen_false (meridian : ℝ → ℝ) (subpoint : ℝ × ℝ) (height fieldOfRegard elevation degrees : ℝ)
    (hz : Below height elevation) (hf0 : 0 ≤ fieldOfRegard) (hf : fieldOfRegard ≤ 180) (hlat : |subpoint.2| ≤ 90)
    (h0 : 0 ≤ degrees) (h90 : degrees ≤ 90)
    (hout : forToSwath height fieldOfRegard elevation / 2 < equatorialRadius * (degrees * Real.pi / 180))
    (hin : (meanRadius + elevation) * (Real.cos (subpoint.2 * Real.pi / 180) * (degrees * Real.pi / 180)) ≤
      forToSwath height fieldOfRegard elevation / 2) :
    Sees height fieldOfRegard elevation subpoint (subpoint.1 + degrees, subpoint.2) ∧
    ¬ groundFootprint meridian subpoint height fieldOfRegard elevation (subpoint.1 + degrees, subpoint.2) := by
  constructor
  · refine seen_of_within hz hf0 hf (Real.arccos_nonneg _) (le_trans ?_ hin)
    exact mul_le_mul_of_nonneg_left (centralAngle_parallel h0 h90 hlat) hz.1.le
  · rw [C119_parallel _ _ _ _ _ _ h0 h90]
    exact not_le.mpr hout

/-- There is such a place at every latitude, for every height and field of regard. -/
theorem C119_everywhere_false (meridian : ℝ → ℝ) (subpoint : ℝ × ℝ) (height fieldOfRegard elevation : ℝ)
    (hz : Below height elevation) (hf0 : 0 < fieldOfRegard) (hf : fieldOfRegard ≤ 180) (hlat : |subpoint.2| ≤ 90)
    (hE : meanRadius + elevation < equatorialRadius) :
    ∃ q, Sees height fieldOfRegard elevation subpoint q ∧
      ¬ groundFootprint meridian subpoint height fieldOfRegard elevation q := by
  have hpi := Real.pi_pos
  obtain ⟨hk0, hk1⟩ := sinRho_range hz
  have hR := hz.1
  have hg0 : 0 < radians fieldOfRegard / 2 := by unfold radians; positivity
  have hg1 : radians fieldOfRegard / 2 < Real.pi := by unfold radians; nlinarith
  have hs : 0 < min (sinRho height elevation) (Real.sin (radians fieldOfRegard / 2)) :=
    lt_min hk0 (Real.sin_pos_of_pos_of_lt_pi hg0 hg1)
  obtain ⟨c1, c2, -, c4, -⟩ := central_angle hk0 hk1 hs.le (min_le_left _ _)
  have hS : forToSwath height fieldOfRegard elevation / 2 = (meanRadius + elevation) *
      (Real.pi / 2 - Real.arcsin (min (sinRho height elevation) (Real.sin (radians fieldOfRegard / 2))) -
        Real.arccos (min (sinRho height elevation) (Real.sin (radians fieldOfRegard / 2)) / sinRho height elevation)) := by
    unfold forToSwath
    simp only
    ring
  set s := min (sinRho height elevation) (Real.sin (radians fieldOfRegard / 2)) with hsdef
  set l0 := Real.pi / 2 - Real.arcsin s - Real.arccos (s / sinRho height elevation) with hl0
  have hs1 : s < 1 := lt_of_le_of_lt (min_le_left _ _) hk1
  have hpos : 0 < l0 := by
    rcases lt_or_eq_of_le c1 with h | h
    · exact h
    · rw [← h, add_zero, Real.sin_arcsin (by linarith) hs1.le] at c4
      nlinarith
  have e : l0 * 180 / Real.pi * Real.pi / 180 = l0 := by field_simp
  have hcos := Real.cos_le_one (subpoint.2 * Real.pi / 180)
  refine ⟨_, C119_seen_false meridian subpoint height fieldOfRegard elevation (l0 * 180 / Real.pi) hz hf0.le hf hlat
    (by positivity) ?_ ?_ ?_⟩
  · rw [div_le_iff₀ hpi]; linarith
  · rw [e, hS]; exact mul_lt_mul_of_pos_right hE hpos
  · rw [e, hS]
    apply mul_le_mul_of_nonneg_left _ hR.le
    nlinarith

/-- Over 60 degrees of latitude, 1000 km up, the instrument sees to its horizon places 60 degrees to the east; the
footprint ends 45 degrees to the east. -/
example (meridian : ℝ → ℝ) : Sees 1000000 180 0 (0, 60) (0 + 60, 60) ∧
    ¬ groundFootprint meridian (0, 60) 1000000 180 0 (0 + 60, 60) ∧
    ¬ groundFootprint meridian (0, 60) 1000000 180 0 (0 + 46, 60) := by
  have hR1 : 6371000 < meanRadius := by unfold meanRadius equatorialRadius polarRadius; norm_num
  have hR2 : meanRadius < 6371010 := by unfold meanRadius equatorialRadius polarRadius; norm_num
  have he : equatorialRadius = 6378137 := rfl
  have hz : Below 1000000 0 := ⟨by linarith, by norm_num⟩
  have hpi := Real.pi_gt_three
  have hb := horizon_bounds
  have hS := forToSwath_horizon 1000000 hz
  have hle : forToSwath 1000000 180 0 / 2 ≤ meanRadius * (Real.pi / 4) := by
    rw [hS]; exact mul_le_mul_of_nonneg_left hb.1 (by linarith)
  have hge : meanRadius * (Real.pi / 6) ≤ forToSwath 1000000 180 0 / 2 := by
    rw [hS]
    apply mul_le_mul_of_nonneg_left _ (by linarith)
    rw [← Real.arccos_cos (x := Real.pi / 6) (by linarith) (by linarith), Real.cos_pi_div_six]
    apply Real.arccos_le_arccos
    rw [div_le_iff₀ (by linarith)]
    have h3 := Real.sq_sqrt (show (0 : ℝ) ≤ 3 by norm_num)
    have : (1.732 : ℝ) ≤ Real.sqrt 3 := Real.le_sqrt_of_sq_le (by norm_num)
    nlinarith
  obtain ⟨h1, h2⟩ := C119_seen_false meridian (0, 60) 1000000 180 0 60 hz (by norm_num) (le_refl _) (by norm_num [abs_le])
    (by norm_num) (by norm_num) (by rw [he]; nlinarith) (by
      simp only
      rw [show (60 : ℝ) * Real.pi / 180 = Real.pi / 3 by ring, Real.cos_pi_div_three, add_zero]
      linarith)
  refine ⟨h1, h2, ?_⟩
  rw [C119_parallel _ _ _ _ _ _ (by norm_num) (by norm_num), he]
  nlinarith

/-- The hypotheses of C119 hold of the projection with the equatorial radius. -/
example := C119_only_seen_partial (fun lat => equatorialRadius * radians lat) (0, 60) (0 + 10, 60) 1000000 180 0
  ⟨by unfold meanRadius equatorialRadius polarRadius; norm_num, by norm_num⟩ (by norm_num) (le_refl _)
  (by unfold meanRadius equatorialRadius polarRadius; norm_num)
  (by
    intro a b
    have hpi := Real.pi_pos
    rw [show equatorialRadius * radians a - equatorialRadius * radians b = equatorialRadius * ((a - b) * Real.pi / 180) by
      unfold radians; ring, abs_mul, abs_div, abs_mul, abs_of_pos hpi, abs_of_pos (show (0 : ℝ) < 180 by norm_num),
      abs_of_pos (show 0 < equatorialRadius by unfold equatorialRadius; norm_num)]
    apply mul_le_mul_of_nonneg_right _ (by positivity)
    unfold meanRadius equatorialRadius polarRadius; norm_num)

end Tatc.Props
