import Verif.Props.Instrument
import Verif.Props.RoGeometry
import Mathlib.Analysis.Convex.SpecificFunctions.Deriv

/-! C67, C81-C84: rays of pixels and footprints. -/

namespace Tatc.Props
open Tatc.Instruments Tatc.Num Tatc.Spec Tatc.Ro
open scoped Classical

/-! ## The frame -/

/-- A satellite that is not at the earth's centre and moves across its vertical. -/
structure Level (s : State) : Prop where
  position : s.position ≠ ⟨0, 0, 0⟩
  velocity : s.velocity ≠ ⟨0, 0, 0⟩
  level : s.position.dot s.velocity = 0

/-- 7000 km above the centre, moving at 7.5 km/s. -/
noncomputable def someState : State := ⟨⟨7000000, 0, 0⟩, ⟨0, 0, 7500⟩⟩

theorem someState_level : Level someState := by
  refine ⟨fun h => ?_, fun h => ?_, ?_⟩
  · have := congrArg V3.x h; norm_num [someState] at this
  · have := congrArg V3.z h; norm_num [someState] at this
  · norm_num [someState, V3.dot]

theorem dot_self_pos {a : V3} (h : a ≠ ⟨0, 0, 0⟩) : 0 < a.dot a := by
  by_contra hn
  apply h
  unfold V3.dot at hn
  push Not at hn
  have h1 : a.x = 0 := by nlinarith [sq_nonneg a.x, sq_nonneg a.y, sq_nonneg a.z]
  have h2 : a.y = 0 := by nlinarith [sq_nonneg a.x, sq_nonneg a.y, sq_nonneg a.z]
  have h3 : a.z = 0 := by nlinarith [sq_nonneg a.x, sq_nonneg a.y, sq_nonneg a.z]
  ext <;> assumption

theorem unit_dot_unit {a : V3} (h : a ≠ ⟨0, 0, 0⟩) : (unit a).dot (unit a) = 1 := by
  have hp := dot_self_pos h
  unfold unit
  rw [smul_dot, dot_comm' a (V3.smul _ a), smul_dot]
  have hs := Real.mul_self_sqrt hp.le
  have hq : Real.sqrt (a.dot a) ≠ 0 := (Real.sqrt_pos.mpr hp).ne'
  field_simp
  nlinarith

theorem add_dot (a b c : V3) : (a.add b).dot c = a.dot c + b.dot c := by simp only [V3.add, V3.dot]; ring

theorem frame_vv {s : State} (h : s.velocity ≠ ⟨0, 0, 0⟩) : s.v.dot s.v = 1 := unit_dot_unit h
theorem frame_bb {s : State} (h : s.position ≠ ⟨0, 0, 0⟩) : s.b.dot s.b = 1 := by
  unfold State.b
  rw [smul_dot, dot_comm' (unit _), smul_dot, unit_dot_unit h]; norm_num
theorem frame_nv (s : State) : s.n.dot s.v = 0 := cross_dot_left _ _
theorem frame_nb (s : State) : s.n.dot s.b = 0 := cross_dot_right _ _
theorem frame_vb {s : State} (h : s.position.dot s.velocity = 0) : s.v.dot s.b = 0 := by
  unfold State.v State.b unit
  rw [smul_dot, dot_comm' _ (V3.smul (-1) _), smul_dot, smul_dot, h]; ring
theorem frame_nn (s : State) : s.n.dot s.n = s.v.dot s.v * s.b.dot s.b - s.v.dot s.b ^ 2 := by
  unfold State.n
  simp only [V3.dot, V3.cross]; ring

/-- The ray in terms of its components. -/
theorem rayOf_dot (s : State) (roll pitch along cross : ℝ) (w : V3) :
    (rayOf s roll pitch along cross).dot w = s.b.dot w + (Real.tan (radians pitch) + along) * s.v.dot w +
      (Real.tan (radians roll) + cross) * s.n.dot w := by
  unfold rayOf
  rw [add_dot, add_dot, add_dot, add_dot, smul_dot, smul_dot, smul_dot, smul_dot]; ring

theorem radians_zero : radians 0 = 0 := by simp [radians]

theorem rayOf_zero (s : State) : rayOf s 0 0 0 0 = s.b := by
  simp only [rayOf, radians_zero, Real.tan_zero, V3.add, V3.smul]
  simp

theorem centerRay_eq (s : State) : centerRay s = s.b := by
  simp only [centerRay, ray, ellipse, zero_div, radians_zero, Real.tan_zero, mul_zero, if_neg Bool.false_ne_true]
  exact rayOf_zero s

theorem cos_arccos_tan {t : ℝ} : 1 / Real.sqrt (1 + Real.tan t ^ 2) = |Real.cos t| ∨ Real.cos t = 0 := by
  by_cases h : Real.cos t = 0
  · exact Or.inr h
  · left
    have : 1 + Real.tan t ^ 2 = (1 / |Real.cos t|) ^ 2 := by
      rw [Real.tan_eq_sin_div_cos, div_pow, div_pow, sq_abs]
      field_simp
      linarith [Real.sin_sq_add_cos_sq t]
    rw [this, Real.sqrt_sq (by positivity)]
    field_simp

/-- The angle between a circular ray and the vertical. -/
theorem circular_angle (s : State) (h : Level s) (f angle : ℝ) (hc : Real.cos (radians (f / 2)) ≠ 0) :
    angleBetween (ray s f f 0 0 false angle) s.b = degrees (Real.arccos |Real.cos (radians (f / 2))|) := by
  have hb := frame_bb h.position
  have hv := frame_vv h.velocity
  have hvb := frame_vb h.level
  have hn : s.n.dot s.n = 1 := by rw [frame_nn, hb, hv, hvb]; norm_num
  have hbn : s.b.dot s.n = 0 := by rw [dot_comm']; exact frame_nb s
  have hvn : s.v.dot s.n = 0 := by rw [dot_comm']; exact frame_nv s
  have hbv : s.b.dot s.v = 0 := by rw [dot_comm']; exact hvb
  have e1 : (ray s f f 0 0 false angle).dot s.b = 1 := by
    simp only [ray, if_neg Bool.false_ne_true]
    rw [rayOf_dot, hb, hvb, frame_nb]; ring
  have e2 : (ray s f f 0 0 false angle).dot (ray s f f 0 0 false angle) = 1 + Real.tan (radians (f / 2)) ^ 2 := by
    simp only [ray, if_neg Bool.false_ne_true]
    rw [rayOf_dot, dot_comm' s.b, dot_comm' s.v, dot_comm' s.n, rayOf_dot, rayOf_dot, rayOf_dot, hb, hbv, hvb, hv,
      frame_nb, frame_nv, hbn, hvn, hn]
    simp only [radians_zero, Real.tan_zero, ellipse]
    linear_combination (Real.tan (radians (f / 2)) ^ 2) * Real.sin_sq_add_cos_sq angle
  unfold angleBetween
  rw [e1, e2, hb, Real.sqrt_one, mul_one]
  rcases cos_arccos_tan (t := radians (f / 2)) with h | h
  · rw [h]; rfl
  · exact absurd h hc

theorem arccos_cos_small {f : ℝ} (h0 : 0 ≤ f) (h1 : f < 180) : Real.cos (radians (f / 2)) ≠ 0 ∧
    degrees (Real.arccos |Real.cos (radians (f / 2))|) = f / 2 := by
  have hp := Real.pi_pos
  have a0 : 0 ≤ radians (f / 2) := by unfold radians; positivity
  have a1 : radians (f / 2) < Real.pi / 2 := by unfold radians; nlinarith
  have hc := Real.cos_pos_of_mem_Ioo ⟨by linarith, a1⟩
  refine ⟨hc.ne', ?_⟩
  rw [abs_of_pos hc, Real.arccos_cos a0 (by linarith), degrees_radians]

theorem arccos_cos_large {f : ℝ} (h0 : 180 < f) (h1 : f ≤ 360) : Real.cos (radians (f / 2)) ≠ 0 ∧
    degrees (Real.arccos |Real.cos (radians (f / 2))|) = 180 - f / 2 := by
  have hp := Real.pi_pos
  have a0 : Real.pi / 2 < radians (f / 2) := by unfold radians; nlinarith
  have a1 : radians (f / 2) ≤ Real.pi := by unfold radians; nlinarith
  have hc := Real.cos_neg_of_pi_div_two_lt_of_lt a0 (by linarith)
  refine ⟨hc.ne, ?_⟩
  rw [abs_of_neg hc, ← Real.cos_pi_sub, Real.arccos_cos (by linarith) (by linarith)]
  unfold radians degrees
  field_simp

/-! ## C84: the field of regard -/

/-- **C84**: the edge of the footprint of an instrument with a field of regard below 180 degrees is seen at half of it
from the vertical. -/
theorem C84_regard_partial (s : State) (h : Level s) (f angle : ℝ) (h0 : 0 < f) (h1 : f < 180) :
    angleBetween (regardRay s f angle) (centerRay s) = f / 2 := by
  obtain ⟨hc, he⟩ := arccos_cos_small h0.le h1
  rw [centerRay_eq, ← he]
  exact circular_angle s h f angle hc

/-- **C84**: the centre is seen straight down. -/
theorem C84_centre (s : State) : SameDirection (centerRay s) (s.position.smul (-1)) ∨ s.position.dot s.position = 0 := by
  by_cases h : s.position.dot s.position = 0
  · exact Or.inr h
  · left
    have hp : 0 < s.position.dot s.position := lt_of_le_of_ne
      (by unfold V3.dot; nlinarith [sq_nonneg s.position.x, sq_nonneg s.position.y, sq_nonneg s.position.z]) (Ne.symm h)
    refine ⟨1 / Real.sqrt (s.position.dot s.position), by positivity, ?_⟩
    rw [centerRay_eq]
    simp only [State.b, unit, V3.smul]
    ext <;> ring

/-- **C84** fails for fields of regard above 180 degrees: the edge is seen at `180 - f / 2` degrees from the vertical, so
a wider field of regard gives a smaller footprint. -/
theorem C84_wide_false (s : State) (h : Level s) (f angle : ℝ) (h0 : 180 < f) (h1 : f ≤ 360) :
    angleBetween (regardRay s f angle) (centerRay s) = 180 - f / 2 ∧
    angleBetween (regardRay s f angle) (centerRay s) < 90 ∧
    angleBetween (regardRay s f angle) (centerRay s) ≠ f / 2 := by
  obtain ⟨hc, he⟩ := arccos_cos_large h0 h1
  have : angleBetween (regardRay s f angle) (centerRay s) = 180 - f / 2 := by
    rw [centerRay_eq, ← he]
    exact circular_angle s h f angle hc
  rw [this]
  exact ⟨rfl, by linarith, by intro e; linarith⟩

example : Level someState ∧ (0 : ℝ) < 60 ∧ (60 : ℝ) < 180 ∧ (180 : ℝ) < 270 := ⟨someState_level, by norm_num, by norm_num, by norm_num⟩

/-! ## C67: pixels -/

/-- The ray of the centre of the field of view. -/
noncomputable def boresight (p : Pointed) (s : State) : V3 := ray s 0 0 p.roll p.pitch false 0

theorem cone_lt (p : Pointed) (h : p.Valid) (i j : Nat) (hi : i < p.crossPixels) (hj : j < p.alongPixels) :
    (p.coneClock i j).1 < 180 := by
  have h1 := (C66_centres p h).1 i hi
  have h2 := (C66_centres p h).2 j hj
  have h3 : |p.crossOffset i| < 90 := by linarith [h.crossFov.2]
  have h4 : |p.alongOffset j| < 90 := by linarith [h.alongFov.2]
  simp only [Pointed.coneClock]
  rw [Real.sqrt_lt' (by norm_num)]
  have h5 := sq_lt_sq' (abs_lt.mp h3).1 (abs_lt.mp h3).2
  have h6 := sq_lt_sq' (abs_lt.mp h4).1 (abs_lt.mp h4).2
  linarith

/-- How far the ray of a pixel is from the boresight, per degree of offset. -/
theorem pixel_factor (p : Pointed) (h : p.Valid) (i j : Nat) (hi : i < p.crossPixels) (hj : j < p.alongPixels) :
    ∃ t : ℝ, 0 < t ∧
      ellipse (p.coneClock i j).1 (p.coneClock i j).1 (p.coneClock i j).2 =
        (t * p.alongOffset j, t * p.crossOffset i) ∧
      ((p.coneClock i j).1 ≠ 0 → t = Real.tan (radians ((p.coneClock i j).1 / 2)) / (p.coneClock i j).1) := by
  obtain ⟨h0, h1, h2⟩ := C66_cone_clock p i j
  have h3 := cone_lt p h i j hi hj
  rcases eq_or_lt_of_le h0 with h4 | h4
  · refine ⟨1, one_pos, ?_, fun hn => absurd h4.symm hn⟩
    have e1 : p.crossOffset i = 0 := by rw [← h1, ← h4]; simp
    have e2 : p.alongOffset j = 0 := by rw [← h2, ← h4]; simp
    simp only [ellipse, ← h4, e1, e2, zero_div, radians_zero, Real.tan_zero, mul_zero]
  · have ht : 0 < Real.tan (radians ((p.coneClock i j).1 / 2)) := by
      apply Real.tan_pos_of_pos_of_lt_pi_div_two
      · unfold radians; have := Real.pi_pos; positivity
      · unfold radians; nlinarith [Real.pi_pos]
    refine ⟨Real.tan (radians ((p.coneClock i j).1 / 2)) / (p.coneClock i j).1, by positivity, ?_, fun _ => rfl⟩
    have h5 := h4.ne'
    simp only [ellipse]
    rw [← h1, ← h2]
    refine Prod.ext ?_ ?_
    · simp only; field_simp
    · simp only; field_simp

theorem pixelRay_eq (p : Pointed) (s : State) (i j : Nat) : p.pixelRay s i j = rayOf s p.roll p.pitch
    (ellipse (p.coneClock i j).1 (p.coneClock i j).1 (p.coneClock i j).2).1
    (ellipse (p.coneClock i j).1 (p.coneClock i j).1 (p.coneClock i j).2).2 := by
  simp [Pointed.pixelRay, ray]

theorem boresight_eq (p : Pointed) (s : State) : boresight p s = rayOf s p.roll p.pitch 0 0 := by
  simp [boresight, ray, ellipse, radians_zero]

/-- **C67** (in part): the position of a pixel is where its ray meets the earth (or its limb when it does not), and the
ray leaves the boresight in the direction of the pixel's offsets.  Missing: by the right amount. -/
theorem C67_direction_partial {Geo : Type} (g : Globe Geo) (p : Pointed) (h : p.Valid) (s : State) (elevation : ℝ)
    (i j : Nat) (hi : i < p.crossPixels) (hj : j < p.alongPixels) :
    (∀ q, g.surface s.position (p.pixelRay s i j) elevation = some q → p.pixel g s elevation i j = q) ∧
    ∃ t : ℝ, 0 < t ∧ p.pixelRay s i j =
      ((boresight p s).add (s.v.smul (t * p.alongOffset j))).add (s.n.smul (t * p.crossOffset i)) := by
  constructor
  · intro q hq
    simp only [Pointed.pixel, project]
    rw [show ray s (p.coneClock i j).1 (p.coneClock i j).1 p.roll p.pitch false (p.coneClock i j).2 =
      p.pixelRay s i j from rfl, hq]
    rfl
  · obtain ⟨t, ht, he, -⟩ := pixel_factor p h i j hi hj
    refine ⟨t, ht, ?_⟩
    rw [pixelRay_eq, boresight_eq, he]
    simp only [rayOf, V3.add, V3.smul]
    ext <;> ring

/-- **C83**: the centre of the footprint of a pointed instrument is where its boresight meets the earth. -/
theorem C83_centre {Geo : Type} (g : Globe Geo) (p : Pointed) (s : State) (elevation : ℝ) (q : Geo)
    (h : g.surface s.position (ray s 0 0 p.roll p.pitch false 0) elevation = some q) : p.center g s elevation = q := by
  simp only [Pointed.center, project]
  rw [h]
  rfl

/-- A globe that every ray meets. -/
example (p : Pointed) (s : State) : ∃ (g : Globe Unit), g.surface s.position (ray s 0 0 p.roll p.pitch false 0) 0 = some () :=
  ⟨⟨fun _ _ _ => some (), fun _ _ _ _ => ()⟩, rfl⟩

/-- **C67** fails for the angle from the boresight: it is half of the pixel's cone angle, and so is the cone angle only
for a pixel on the boresight. -/
theorem C67_cone_false (p : Pointed) (h : p.Valid) (hr : p.roll = 0) (hp : p.pitch = 0) (s : State) (hs : Level s)
    (i j : Nat) (hi : i < p.crossPixels) (hj : j < p.alongPixels) :
    angleBetween (p.pixelRay s i j) (boresight p s) = (p.coneClock i j).1 / 2 ∧
    (angleBetween (p.pixelRay s i j) (boresight p s) = (p.coneClock i j).1 ↔ (p.coneClock i j).1 = 0) := by
  have hb : boresight p s = s.b := by rw [boresight_eq, hr, hp, rayOf_zero]
  obtain ⟨hc, he⟩ := arccos_cos_small (C66_cone_clock p i j).1 (cone_lt p h i j hi hj)
  have : angleBetween (p.pixelRay s i j) (boresight p s) = (p.coneClock i j).1 / 2 := by
    rw [hb, ← he, ← circular_angle s hs _ (p.coneClock i j).2 hc]
    simp only [Pointed.pixelRay, hr, hp]
  rw [this]
  refine ⟨rfl, ?_, ?_⟩
  · intro e; linarith
  · intro e; rw [e]; norm_num

/-- The first pixel of the detector of 5 by 4 pixels is off the boresight. -/
example : (someDetector 0.2).Valid ∧ 0 < (someDetector 0.2).crossPixels ∧ 0 < (someDetector 0.2).alongPixels ∧
    ((someDetector 0.2).coneClock 0 0).1 ≠ 0 := by
  refine ⟨someDetector_valid (by norm_num) (by norm_num), by norm_num [someDetector], by norm_num [someDetector], ?_⟩
  simp only [Pointed.coneClock]
  apply (Real.sqrt_pos.mpr _).ne'
  norm_num [Pointed.crossOffset, Pointed.alongOffset, someDetector]

/-! ## C82: the order of pixels -/

/-- `tan x / x` increases. -/
theorem tan_mul_lt {x y : ℝ} (h0 : 0 < x) (hxy : x < y) (hy : y < Real.pi / 2) : y * Real.tan x < x * Real.tan y := by
  have hcx := Real.cos_pos_of_mem_Ioo ⟨by linarith [Real.pi_pos], by linarith⟩ (x := x)
  have hcy := Real.cos_pos_of_mem_Ioo ⟨by linarith [Real.pi_pos], by linarith⟩ (x := y)
  have key : (y - x) * Real.sin (x + y) < (x + y) * Real.sin (y - x) := by
    have hq : 0 < x + y := by linarith
    have m0 : (0 : ℝ) ∈ Set.Icc 0 Real.pi := ⟨le_rfl, Real.pi_pos.le⟩
    have m1 : x + y ∈ Set.Icc 0 Real.pi := ⟨hq.le, by linarith⟩
    have a0 : 0 < 1 - (y - x) / (x + y) := by rw [sub_pos, div_lt_one hq]; linarith
    have b0 : 0 < (y - x) / (x + y) := div_pos (by linarith) hq
    have hc := strictConcaveOn_sin_Icc.2 m0 m1 hq.ne a0 b0 (by ring)
    simp only [smul_eq_mul, Real.sin_zero, mul_zero, zero_add, div_mul_cancel₀ _ hq.ne'] at hc
    rw [div_mul_eq_mul_div, div_lt_iff₀ hq] at hc
    linarith
  rw [Real.sin_add, Real.sin_sub] at key
  rw [Real.tan_eq_sin_div_cos, Real.tan_eq_sin_div_cos, ← mul_div_assoc, ← mul_div_assoc, div_lt_div_iff₀ hcx hcy]
  nlinarith

theorem radians_pos {x : ℝ} (h : 0 < x) : 0 < radians x := by unfold radians; have := Real.pi_pos; positivity
theorem radians_lt_half {x : ℝ} (h : x < 180) : radians (x / 2) < Real.pi / 2 := by
  unfold radians; nlinarith [Real.pi_pos]

/-- The factor grows with the cone angle. -/
theorem factor_mono {r r' : ℝ} (h0 : 0 < r) (h : r ≤ r') (h1 : r' < 180) :
    Real.tan (radians (r / 2)) / r ≤ Real.tan (radians (r' / 2)) / r' := by
  rcases eq_or_lt_of_le h with rfl | h
  · exact le_rfl
  · have h2 := tan_mul_lt (radians_pos (half_pos h0)) (y := radians (r' / 2))
      (by unfold radians; nlinarith [Real.pi_pos]) (radians_lt_half h1)
    rw [div_le_div_iff₀ h0 (by linarith)]
    have e : ∀ x : ℝ, radians (x / 2) = x * (Real.pi / 360) := by intro x; unfold radians; ring
    rw [e r', e r] at h2
    rw [e r', e r]
    have hp : 0 < Real.pi / 360 := by have := Real.pi_pos; positivity
    have : (r' * Real.tan (r * (Real.pi / 360))) * (Real.pi / 360) < (r * Real.tan (r' * (Real.pi / 360))) * (Real.pi / 360) := by
      linarith
    have := lt_of_mul_lt_mul_right this hp.le
    linarith

/-- What the coordinate `x` of an offset becomes in the plane of the rays. -/
noncomputable def spread (x y : ℝ) : ℝ :=
  x * (Real.tan (radians (Real.sqrt (x ^ 2 + y ^ 2) / 2)) / Real.sqrt (x ^ 2 + y ^ 2))

theorem spread_neg (x y : ℝ) : spread (-x) y = -spread x y := by unfold spread; rw [neg_sq]; ring
theorem spread_zero (y : ℝ) : spread 0 y = 0 := by simp [spread]

theorem spread_lt_pos {x x' y : ℝ} (h0 : 0 ≤ x) (h : x < x') (h1 : x' ^ 2 + y ^ 2 < 180 ^ 2) : spread x y < spread x' y := by
  have hx' : 0 < x' := by linarith
  have hr' : 0 < Real.sqrt (x' ^ 2 + y ^ 2) := Real.sqrt_pos.mpr (by positivity)
  have hr1 : Real.sqrt (x' ^ 2 + y ^ 2) < 180 := (Real.sqrt_lt' (by norm_num)).mpr h1
  have hg : 0 < Real.tan (radians (Real.sqrt (x' ^ 2 + y ^ 2) / 2)) / Real.sqrt (x' ^ 2 + y ^ 2) :=
    div_pos (Real.tan_pos_of_pos_of_lt_pi_div_two (radians_pos (half_pos hr')) (radians_lt_half hr1)) hr'
  rcases eq_or_lt_of_le h0 with rfl | h0
  · rw [spread_zero]; exact mul_pos hx' hg
  · have hr : 0 < Real.sqrt (x ^ 2 + y ^ 2) := Real.sqrt_pos.mpr (by positivity)
    have hle : Real.sqrt (x ^ 2 + y ^ 2) ≤ Real.sqrt (x' ^ 2 + y ^ 2) := Real.sqrt_le_sqrt (by nlinarith)
    have := factor_mono hr hle hr1
    unfold spread
    calc _ ≤ x * _ := mul_le_mul_of_nonneg_left this h0.le
      _ < x' * _ := mul_lt_mul_of_pos_right h hg

theorem spread_lt {x x' y : ℝ} (h : x < x') (h0 : x ^ 2 + y ^ 2 < 180 ^ 2) (h1 : x' ^ 2 + y ^ 2 < 180 ^ 2) :
    spread x y < spread x' y := by
  rcases le_total 0 x with hx | hx
  · exact spread_lt_pos hx h h1
  · rcases le_total 0 x' with hx' | hx'
    · have a : spread x y ≤ 0 := by
        rcases eq_or_lt_of_le hx with rfl | hx
        · rw [spread_zero]
        · have := spread_lt_pos le_rfl (x' := -x) (y := y) (by linarith) (by nlinarith)
          rw [spread_zero, spread_neg] at this; linarith
      have b : 0 ≤ spread x' y := by
        rcases eq_or_lt_of_le hx' with rfl | hx'
        · rw [spread_zero]
        · have := spread_lt_pos le_rfl hx' h1
          rw [spread_zero] at this; exact this.le
      rcases eq_or_lt_of_le hx with rfl | hx
      · exact spread_lt_pos le_rfl h h1
      · have := spread_lt_pos le_rfl (x' := -x) (y := y) (by linarith) (by nlinarith)
        rw [spread_zero, spread_neg] at this; linarith
    · have := spread_lt_pos (x := -x') (x' := -x) (y := y) (by linarith) (by linarith) (by nlinarith)
      rw [spread_neg, spread_neg] at this; linarith

theorem ellipse_spread (p : Pointed) (h : p.Valid) (i j : Nat) (hi : i < p.crossPixels) (hj : j < p.alongPixels) :
    ellipse (p.coneClock i j).1 (p.coneClock i j).1 (p.coneClock i j).2 =
      (spread (p.alongOffset j) (p.crossOffset i), spread (p.crossOffset i) (p.alongOffset j)) := by
  obtain ⟨t, ht, he, hf⟩ := pixel_factor p h i j hi hj
  rw [he]
  by_cases hc : (p.coneClock i j).1 = 0
  · obtain ⟨_, h1, h2⟩ := C66_cone_clock p i j
    have e1 : p.crossOffset i = 0 := by rw [← h1, hc]; simp
    have e2 : p.alongOffset j = 0 := by rw [← h2, hc]; simp
    simp [e1, e2, spread_zero]
  · have ht' := hf hc
    simp only [Pointed.coneClock] at ht'
    unfold spread
    rw [add_comm (p.alongOffset j ^ 2), ← ht', mul_comm t, mul_comm t]

theorem offsets_sq_lt (p : Pointed) (h : p.Valid) (i j : Nat) (hi : i < p.crossPixels) (hj : j < p.alongPixels) :
    p.crossOffset i ^ 2 + p.alongOffset j ^ 2 < 180 ^ 2 :=
  (Real.sqrt_lt' (by norm_num)).mp (cone_lt p h i j hi hj)

theorem crossOffset_lt (p : Pointed) (h : p.Valid) {i i' : Nat} (hi : i < i') : p.crossOffset i < p.crossOffset i' := by
  have hN := crossPixels_pos h
  have ho : 0 < 1 - p.crossOver := by linarith [h.crossOver.2]
  have hF := h.crossFov.1
  have : (i : ℝ) < i' := by exact_mod_cast hi
  have hd : p.crossOffset i' - p.crossOffset i = (i' - i : ℝ) * ((1 - p.crossOver) * p.crossFov / p.crossPixels) := by
    unfold Pointed.crossOffset; ring
  have : 0 < (i' - i : ℝ) * ((1 - p.crossOver) * p.crossFov / p.crossPixels) := mul_pos (by linarith) (by positivity)
  linarith

theorem alongOffset_lt (p : Pointed) (h : p.Valid) {j j' : Nat} (hj : j < j') : p.alongOffset j' < p.alongOffset j := by
  rw [alongOffset_exchange, alongOffset_exchange]
  have := crossOffset_lt (Pointed.exchange p) (exchange_valid h) hj
  linarith

/-- `n` points to the left of the motion. -/
theorem n_left (s : State) : rightward s.position s.velocity =
    s.n.smul (-(Real.sqrt (s.velocity.dot s.velocity) * Real.sqrt (s.position.dot s.position))) ∨
    s.velocity.dot s.velocity = 0 ∨ s.position.dot s.position = 0 := by
  by_cases h1 : s.velocity.dot s.velocity = 0
  · exact Or.inr (Or.inl h1)
  by_cases h2 : s.position.dot s.position = 0
  · exact Or.inr (Or.inr h2)
  left
  have g : ∀ a : V3, a.dot a ≠ 0 → Real.sqrt (a.dot a) ≠ 0 := by
    intro a ha
    rw [Real.sqrt_ne_zero']
    exact lt_of_le_of_ne (by unfold V3.dot; nlinarith [sq_nonneg a.x, sq_nonneg a.y, sq_nonneg a.z]) (Ne.symm ha)
  have k1 := g _ h1
  have k2 := g _ h2
  simp only [rightward, State.n, State.v, State.b, unit, V3.smul, V3.cross]
  generalize Real.sqrt (s.velocity.dot s.velocity) = q1 at *
  generalize Real.sqrt (s.position.dot s.position) = q2 at *
  ext <;> (simp only []; field_simp; ring)

/-- **C82** (in part): pixels with a greater along-track index are further aft. -/
theorem C82_aft (p : Pointed) (h : p.Valid) (s : State) (hs : s.velocity ≠ ⟨0, 0, 0⟩) (i : Nat)
    (hi : i < p.crossPixels) (j j' : Nat) (hj : j < j') (hj' : j' < p.alongPixels) :
    (p.pixelRay s i j').dot s.velocity < (p.pixelRay s i j).dot s.velocity := by
  have h1 := ellipse_spread p h i j hi (by omega)
  have h2 := ellipse_spread p h i j' hi hj'
  have hv := dot_self_pos hs
  have e : s.v.dot s.velocity = Real.sqrt (s.velocity.dot s.velocity) := by
    unfold State.v unit
    rw [smul_dot]
    have := Real.mul_self_sqrt hv.le
    have hq := (Real.sqrt_pos.mpr hv).ne'
    field_simp
    nlinarith
  have en : s.n.dot s.velocity = 0 := by
    have hq := (Real.sqrt_pos.mpr hv).ne'
    have : s.velocity = s.v.smul (Real.sqrt (s.velocity.dot s.velocity)) := by
      simp only [State.v, unit, V3.smul]
      generalize Real.sqrt (s.velocity.dot s.velocity) = q at hq
      ext <;> (simp only []; field_simp)
    rw [this, dot_comm', smul_dot, dot_comm' s.v, frame_nv]; ring
  rw [pixelRay_eq, pixelRay_eq, rayOf_dot, rayOf_dot, h1, h2, e, en]
  have hlt : spread (p.alongOffset j') (p.crossOffset i) < spread (p.alongOffset j) (p.crossOffset i) := by
    apply spread_lt (alongOffset_lt p h hj)
    · have := offsets_sq_lt p h i j' hi hj'; linarith
    · have := offsets_sq_lt p h i j hi (by omega); linarith
  have hq := Real.sqrt_pos.mpr hv
  have := mul_lt_mul_of_pos_right hlt hq
  simp only []
  nlinarith

/-- **C82** fails for the cross-track index: pixels with a greater index are further to the left. -/
theorem C82_left_false (p : Pointed) (h : p.Valid) (s : State) (hs : s.velocity.cross s.position ≠ ⟨0, 0, 0⟩) (j : Nat)
    (hj : j < p.alongPixels) (i i' : Nat) (hi : i < i') (hi' : i' < p.crossPixels) :
    (p.pixelRay s i' j).dot (rightward s.position s.velocity) < (p.pixelRay s i j).dot (rightward s.position s.velocity) := by
  have h1 := ellipse_spread p h i j (by omega) hj
  have h2 := ellipse_spread p h i' j hi' hj
  have k1 : s.velocity.dot s.velocity ≠ 0 := by
    intro e
    apply hs
    by_contra hn
    have : s.velocity = ⟨0, 0, 0⟩ := by
      by_contra hv
      exact (dot_self_pos hv).ne' e
    apply hn; rw [this]; simp [V3.cross]
  have k2 : s.position.dot s.position ≠ 0 := by
    intro e
    apply hs
    by_contra hn
    have : s.position = ⟨0, 0, 0⟩ := by
      by_contra hv
      exact (dot_self_pos hv).ne' e
    apply hn; rw [this]; simp [V3.cross]
  have hr : rightward s.position s.velocity =
      s.n.smul (-(Real.sqrt (s.velocity.dot s.velocity) * Real.sqrt (s.position.dot s.position))) := by
    rcases n_left s with h | h | h
    · exact h
    · exact absurd h k1
    · exact absurd h k2
  have hpos : 0 < (rightward s.position s.velocity).dot (rightward s.position s.velocity) := dot_self_pos hs
  set q := Real.sqrt (s.velocity.dot s.velocity) * Real.sqrt (s.position.dot s.position) with hq
  have hq0 : 0 ≤ q := by positivity
  have hbn : s.b.dot s.n = 0 := by rw [dot_comm']; exact frame_nb s
  have hvn : s.v.dot s.n = 0 := by rw [dot_comm']; exact frame_nv s
  have hnn : 0 < q * s.n.dot s.n := by
    rw [hr, smul_dot, dot_comm', smul_dot] at hpos
    rcases eq_or_lt_of_le hq0 with e | e
    · rw [← e] at hpos; simp at hpos
    · have : 0 < q * (q * s.n.dot s.n) := by linarith
      exact (mul_pos_iff_of_pos_left e).mp this
  have hlt : spread (p.crossOffset i) (p.alongOffset j) < spread (p.crossOffset i') (p.alongOffset j) := by
    apply spread_lt (crossOffset_lt p h hi)
    · exact offsets_sq_lt p h i j (by omega) hj
    · exact offsets_sq_lt p h i' j hi' hj
  rw [hr, pixelRay_eq, pixelRay_eq, dot_comm', smul_dot, dot_comm' _ (V3.smul _ _), smul_dot, dot_comm' s.n, dot_comm' s.n,
    rayOf_dot, rayOf_dot, h1, h2, hbn, hvn]
  simp only []
  nlinarith [mul_lt_mul_of_pos_right hlt hnn]

example : (someDetector 0.2).Valid ∧ someState.velocity ≠ ⟨0, 0, 0⟩ ∧
    someState.velocity.cross someState.position ≠ ⟨0, 0, 0⟩ ∧ 0 < 1 ∧ 1 < (someDetector 0.2).crossPixels ∧
    1 < (someDetector 0.2).alongPixels := by
  refine ⟨someDetector_valid (by norm_num) (by norm_num), someState_level.velocity, fun h => ?_, by norm_num,
    by norm_num [someDetector], by norm_num [someDetector]⟩
  have := congrArg V3.y h
  norm_num [someState, V3.cross] at this

/-- **C82** fails for the angle of a ray: the ray at angle zero leaves the vertical to the left. -/
theorem C82_angle_false (s : State) (hs : Level s) (c a : ℝ) (h0 : 0 < c) (h1 : c < 180) :
    (ray s c a 0 0 false 0).dot (rightward s.position s.velocity) < 0 := by
  have k1 := (dot_self_pos hs.velocity)
  have k2 := (dot_self_pos hs.position)
  have hr : rightward s.position s.velocity =
      s.n.smul (-(Real.sqrt (s.velocity.dot s.velocity) * Real.sqrt (s.position.dot s.position))) := by
    rcases n_left s with h | h | h
    · exact h
    · exact absurd h k1.ne'
    · exact absurd h k2.ne'
  have hb := frame_bb hs.position
  have hv := frame_vv hs.velocity
  have hvb := frame_vb hs.level
  have hn : s.n.dot s.n = 1 := by rw [frame_nn, hb, hv, hvb]; norm_num
  have hbn : s.b.dot s.n = 0 := by rw [dot_comm']; exact frame_nb s
  have hvn : s.v.dot s.n = 0 := by rw [dot_comm']; exact frame_nv s
  have ht : 0 < Real.tan (radians (c / 2)) :=
    Real.tan_pos_of_pos_of_lt_pi_div_two (radians_pos (half_pos h0)) (radians_lt_half h1)
  rw [hr, dot_comm', smul_dot, dot_comm' s.n]
  simp only [ray, if_neg Bool.false_ne_true]
  rw [rayOf_dot, hbn, hvn, hn]
  simp only [ellipse, radians_zero, Real.tan_zero, Real.cos_zero]
  have := mul_pos (Real.sqrt_pos.mpr k1) (Real.sqrt_pos.mpr k2)
  nlinarith [mul_pos this ht]

/-! ## C81: units -/

/-- **C81** fails for the clock angle: read in degrees, as documented, cone and clock angle are the polar coordinates of
the pixel's offsets only for a clock angle of zero. -/
theorem C81_clock_false (p : Pointed) (i j : Nat) :
    ((p.coneClock i j).1 * Real.cos (radians (p.coneClock i j).2) = p.crossOffset i ∧
      (p.coneClock i j).1 * Real.sin (radians (p.coneClock i j).2) = p.alongOffset j) ↔ (p.coneClock i j).2 = 0 := by
  obtain ⟨h0, h1, h2⟩ := C66_cone_clock p i j
  constructor
  · rintro ⟨e1, e2⟩
    rcases eq_or_lt_of_le h0 with hz | hz
    · have a1 : p.crossOffset i = 0 := by rw [← h1, ← hz]; simp
      have a2 : p.alongOffset j = 0 := by rw [← h2, ← hz]; simp
      simp only [Pointed.coneClock, a1, a2, arctan2]
      exact Complex.arg_zero
    · set θ := (p.coneClock i j).2 with hθ
      have hθ' : θ = Complex.arg ⟨p.crossOffset i, p.alongOffset j⟩ := rfl
      have hr : radians θ ∈ Set.Ioc (-Real.pi) Real.pi := by
        have b1 := Complex.neg_pi_lt_arg ⟨p.crossOffset i, p.alongOffset j⟩
        have b2 := Complex.arg_le_pi ⟨p.crossOffset i, p.alongOffset j⟩
        rw [← hθ'] at b1 b2
        have hp := Real.pi_pos
        have h4 := Real.pi_le_four
        constructor
        · unfold radians; nlinarith
        · unfold radians; nlinarith
      have hz' : (⟨p.crossOffset i, p.alongOffset j⟩ : ℂ) =
          ((p.coneClock i j).1 : ℂ) * (Complex.cos (radians θ) + Complex.sin (radians θ) * Complex.I) := by
        apply Complex.ext
        · simp [← Complex.ofReal_cos, ← Complex.ofReal_sin, e1]
        · simp [← Complex.ofReal_cos, ← Complex.ofReal_sin, e2]
      have := Complex.arg_mul_cos_add_sin_mul_I hz hr
      rw [← hz', ← hθ'] at this
      have h4 := Real.pi_le_four
      have : θ * (1 - Real.pi / 180) = 0 := by unfold radians at this; linarith
      rcases mul_eq_zero.mp this with h | h
      · exact h
      · linarith
  · intro e
    rw [e, radians_zero]
    rw [e] at h1 h2
    exact ⟨h1, h2⟩

/-- The clock angle of the first pixel is not zero. -/
example : ((someDetector 0.2).coneClock 0 0).2 ≠ 0 := by
  simp only [Pointed.coneClock, arctan2]
  rw [Ne, Complex.arg_eq_zero_iff]
  norm_num [Pointed.crossOffset, Pointed.alongOffset, someDetector]

/-- **C81** fails for the angle of a ray: at `2π` degrees the ray is that of zero degrees instead of one ahead of it. -/
theorem C81_angle_false (c a : ℝ) (h0 : 0 < a) (h1 : a < 180) :
    ellipse c a (2 * Real.pi) = ellipse c a 0 ∧
    (ellipse c a (2 * Real.pi)).1 < Real.sin (radians (2 * Real.pi)) * Real.tan (radians (a / 2)) := by
  have ht : 0 < Real.tan (radians (a / 2)) :=
    Real.tan_pos_of_pos_of_lt_pi_div_two (radians_pos (half_pos h0)) (radians_lt_half h1)
  have hs : 0 < Real.sin (radians (2 * Real.pi)) := by
    apply Real.sin_pos_of_pos_of_lt_pi (radians_pos (by have := Real.pi_pos; positivity))
    unfold radians
    nlinarith [Real.pi_pos, Real.pi_le_four]
  constructor
  · simp [ellipse]
  · simp only [ellipse, Real.sin_two_pi, zero_mul]
    exact mul_pos hs ht

/-! ## C83: roll and pitch -/

theorem smul_turn (s : State) (k : V3) (hk : k.dot s.b = 0) (d : ℝ) :
    turnAbout k s.b d = (s.b.smul (Real.cos (radians d))).add ((k.cross s.b).smul (Real.sin (radians d))) := by
  simp only [turnAbout, hk, zero_mul]
  simp only [V3.add, V3.smul, radians, zero_mul, add_zero]

theorem tan_mul_cos' {x : ℝ} (h : Real.cos x ≠ 0) : Real.sin x = Real.tan x * Real.cos x := by
  rw [Real.tan_mul_cos h]

/-- Adding `tan d` of a side to the vertical is turning it towards that side, up to length. -/
theorem turned (b w : V3) (t : ℝ) (h : Real.cos t ≠ 0) :
    b.add (w.smul (Real.tan t)) = ((b.smul (Real.cos t)).add (w.smul (Real.sin t))).smul (1 / Real.cos t) := by
  rw [tan_mul_cos' h]
  simp only [V3.add, V3.smul]
  ext <;> (simp only []; field_simp)

theorem rollRay_eq (s : State) (roll angle : ℝ) : ray s 0 0 roll 0 false angle = s.b.add (s.n.smul (Real.tan (radians roll))) := by
  simp only [ray, if_neg Bool.false_ne_true, rayOf, ellipse, zero_div, radians_zero, Real.tan_zero, mul_zero, V3.add, V3.smul]
  ext <;> ring

theorem pitchRay_eq (s : State) (pitch angle : ℝ) :
    ray s 0 0 0 pitch false angle = s.b.add (s.v.smul (Real.tan (radians pitch))) := by
  simp only [ray, if_neg Bool.false_ne_true, rayOf, ellipse, zero_div, radians_zero, Real.tan_zero, mul_zero, V3.add, V3.smul]
  ext <;> ring

theorem cos_pos_of_abs {d : ℝ} (h : |d| < 90) : 0 < Real.cos (radians d) := by
  obtain ⟨h1, h2⟩ := abs_lt.mp h
  apply Real.cos_pos_of_mem_Ioo
  unfold radians
  constructor <;> nlinarith [Real.pi_pos]

theorem cos_neg_of_abs {d : ℝ} (h : 90 < |d|) (h' : |d| ≤ 180) : Real.cos (radians d) < 0 := by
  rw [← Real.cos_abs]
  have hp := Real.pi_pos
  have e : |radians d| = |d| * (Real.pi / 180) := by
    unfold radians; rw [abs_mul, abs_of_pos (by positivity : 0 < Real.pi / 180)]
  rw [e]
  apply Real.cos_neg_of_pi_div_two_lt_of_lt <;> nlinarith

/-- **C83**: a roll of less than 90 degrees turns the boresight by the right hand rule about the velocity. -/
theorem C83_roll_partial (s : State) (hs : Level s) (roll : ℝ) (h : |roll| < 90) :
    SameDirection (ray s 0 0 roll 0 false 0) (turnAbout s.v s.b roll) := by
  have hc := cos_pos_of_abs h
  refine ⟨1 / Real.cos (radians roll), by positivity, ?_⟩
  rw [smul_turn s s.v (frame_vb hs.level), rollRay_eq, turned _ _ _ hc.ne']
  rfl

/-- **C83** fails for rolls of more than 90 degrees, which are accepted: the boresight is the opposite one. -/
theorem C83_roll_false (s : State) (hs : Level s) (roll : ℝ) (h : 90 < |roll|) (h' : |roll| ≤ 180) :
    SameDirection (ray s 0 0 roll 0 false 0) ((turnAbout s.v s.b roll).smul (-1)) ∧
    ¬ SameDirection (ray s 0 0 roll 0 false 0) (turnAbout s.v s.b roll) := by
  have hc := cos_neg_of_abs h h'
  rw [smul_turn s s.v (frame_vb hs.level), rollRay_eq]
  have hb := frame_bb hs.position
  constructor
  · refine ⟨-(1 / Real.cos (radians roll)), by rw [neg_pos]; exact one_div_neg.mpr hc, ?_⟩
    rw [turned _ _ _ hc.ne]
    simp only [V3.smul, V3.add, State.n]
    ext <;> ring
  · rintro ⟨c, hc0, he⟩
    have : V3.dot _ s.b = V3.dot _ s.b := congrArg (fun w : V3 => w.dot s.b) he
    rw [add_dot, smul_dot, smul_dot, add_dot, smul_dot, smul_dot, hb, frame_nb, cross_dot_right] at this
    nlinarith

/-- **C83**: a pitch of less than 90 degrees turns the boresight towards the direction of motion, as the instrument's
documentation says. -/
theorem C83_pitch_partial (s : State) (hs : Level s) (pitch : ℝ) (h : |pitch| < 90) :
    SameDirection (ray s 0 0 0 pitch false 0) (turnAbout (s.n.smul (-1)) s.b pitch) := by
  have hc := cos_pos_of_abs h
  have hb := frame_bb hs.position
  have hvb := frame_vb hs.level
  refine ⟨1 / Real.cos (radians pitch), by positivity, ?_⟩
  have e : (s.n.smul (-1)).cross s.b = s.v := by
    have hbn : s.b.dot s.b = 1 := hb
    have hvb' : s.v.dot s.b = 0 := hvb
    simp only [State.n, V3.cross, V3.smul, V3.dot] at *
    ext
    · simp only []; linear_combination s.v.x * hbn - s.b.x * hvb'
    · simp only []; linear_combination s.v.y * hbn - s.b.y * hvb'
    · simp only []; linear_combination s.v.z * hbn - s.b.z * hvb'
  rw [smul_turn s _ (by rw [smul_dot, frame_nb]; ring), pitchRay_eq, turned _ _ _ hc.ne', e]

/-- **C83** fails for the pitch as the functions document it, by the right hand rule about the orbit normal: the boresight
turns the other way. -/
theorem C83_pitch_false (s : State) (hs : Level s) (pitch : ℝ) (h : |pitch| < 90) (h0 : pitch ≠ 0) :
    SameDirection s.n (s.position.cross s.velocity) ∧
    ¬ SameDirection (ray s 0 0 0 pitch false 0) (turnAbout s.n s.b pitch) := by
  have k1 := (dot_self_pos hs.velocity)
  have k2 := (dot_self_pos hs.position)
  have hb := frame_bb hs.position
  have hvb := frame_vb hs.level
  have hv := frame_vv hs.velocity
  have hbv : s.b.dot s.v = 0 := by rw [dot_comm']; exact hvb
  constructor
  · have q1 := (Real.sqrt_pos.mpr k1)
    have q2 := (Real.sqrt_pos.mpr k2)
    refine ⟨1 / (Real.sqrt (s.velocity.dot s.velocity) * Real.sqrt (s.position.dot s.position)), by positivity, ?_⟩
    simp only [State.n, State.v, State.b, unit, V3.smul, V3.cross]
    generalize Real.sqrt (s.velocity.dot s.velocity) = q1 at *
    generalize Real.sqrt (s.position.dot s.position) = q2 at *
    ext <;> (simp only []; field_simp; ring)
  · rintro ⟨c, hc0, he⟩
    have hc := cos_pos_of_abs h
    have e : s.n.cross s.b = s.v.smul (-1) := by
      have hbn : s.b.dot s.b = 1 := hb
      have hvb' : s.v.dot s.b = 0 := hvb
      simp only [State.n, V3.cross, V3.smul, V3.dot] at *
      ext
      · simp only []; linear_combination -s.v.x * hbn + s.b.x * hvb'
      · simp only []; linear_combination -s.v.y * hbn + s.b.y * hvb'
      · simp only []; linear_combination -s.v.z * hbn + s.b.z * hvb'
    rw [smul_turn s _ (frame_nb s), pitchRay_eq, e] at he
    have a1 : V3.dot _ s.v = V3.dot _ s.v := congrArg (fun w : V3 => w.dot s.v) he
    rw [add_dot, smul_dot, smul_dot, add_dot, smul_dot, smul_dot, smul_dot, hbv, hv] at a1
    have hs' : Real.sin (radians pitch) = Real.tan (radians pitch) * Real.cos (radians pitch) := tan_mul_cos' hc.ne'
    have ht : Real.tan (radians pitch) ≠ 0 := by
      intro e0
      rw [e0, zero_mul] at hs'
      obtain ⟨h1, h2⟩ := abs_lt.mp h
      have hp := Real.pi_pos
      have := (Real.sin_eq_zero_iff_of_lt_of_lt (x := radians pitch) (by unfold radians; nlinarith)
        (by unfold radians; nlinarith)).mp hs'
      unfold radians at this
      rcases mul_eq_zero.mp this with h | h
      · exact h0 h
      · have : 0 < Real.pi / 180 := by positivity
        linarith
    rw [hs'] at a1
    have : Real.tan (radians pitch) * (1 + c * Real.cos (radians pitch)) = 0 := by linarith
    rcases mul_eq_zero.mp this with h | h
    · exact ht h
    · nlinarith [mul_pos hc0 hc]

example : Level someState ∧ |(30 : ℝ)| < 90 ∧ (30 : ℝ) ≠ 0 ∧ 90 < |(120 : ℝ)| ∧ |(120 : ℝ)| ≤ 180 :=
  ⟨someState_level, by norm_num, by norm_num, by norm_num, by norm_num⟩

end Tatc.Props
