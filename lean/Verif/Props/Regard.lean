import Verif.Model.Collect
import Verif.Spec.Regard
import Verif.Props.Access
import Verif.Props.EndToEnd

/-!
# C110, C111 and C112: what is observed is in view
-/

namespace Tatc.Props
open Tatc Tatc.Num Tatc.Geometry Tatc.Spec Tatc.Orbit Tatc.Coverage Tatc.Pandas
open scoped Classical

/-! ## C110 -/

/-- The rows are those of the periods in whose middle the tests hold, and that middle is the reported epoch. -/
theorem C110_middle (pointId : Int) (satellite : String) (ins : AccessSpec) (pointed : Bool) (lit inside : Int → Bool)
    (periods : List Interval) :
    (∀ o ∈ collectObservations pointId satellite ins (testsAt pointed lit inside) periods,
      ∃ t : Int, o.epoch = t ∧ lit t = true ∧ (pointed = true → inside t = true) ∧
      ∃ p ∈ periods, (p.left ≤ p.right → p.left ≤ t ∧ t ≤ p.right) ∧
        (ins.fixed = false → o.start = p.left ∧ o.end_ = p.right)) ∧
    ∀ p ∈ periods, 1000 * ins.minAccess ≤ p.right - p.left → lit p.mid = true →
      (pointed = true → inside p.mid = true) →
      ∃ o ∈ collectObservations pointId satellite ins (testsAt pointed lit inside) periods, o.epoch = p.mid := by
  unfold collectObservations
  constructor
  · intro o ho
    obtain ⟨p, hp, rfl⟩ := List.mem_map.mp ho
    obtain ⟨hp1, hp2⟩ := List.mem_filter.mp hp
    simp only [testsAt, Bool.and_eq_true, Bool.or_eq_true, Bool.not_eq_true', decide_eq_true_eq] at hp2
    refine ⟨p.mid, rfl, hp2.2.1, fun h => ?_, p, hp1, fun h => ?_, fun h => ?_⟩
    · rcases hp2.2.2 with h' | h'
      · rw [h] at h'; cases h'
      · exact h'
    · unfold Interval.mid
      omega
    · simp [observationRecord, h]
  · intro p hp h1 h2 h3
    refine ⟨_, List.mem_map.mpr ⟨p, List.mem_filter.mpr ⟨hp, ?_⟩, rfl⟩, rfl⟩
    simp only [testsAt, Bool.and_eq_true, Bool.or_eq_true, Bool.not_eq_true', decide_eq_true_eq]
    refine ⟨h1, h2, ?_⟩
    cases pointed
    · exact Or.inl rfl
    · exact Or.inr (h3 rfl)

/-- What is reported can be almost all unobserved: a point is in view from 0 to 600 s and in the footprint from 299.999 to
300.001 s; the one row lasts 600 s. -/
theorem C110_beyond_false : ∃ (ins : AccessSpec) (inside : Int → Bool),
    (collectObservations 0 "s" ins (testsAt true (fun _ => true) inside) [⟨0, 600000000000⟩]).map
      (fun o => (o.start, o.end_)) = [(0, 600000000000)] ∧
    ∀ t, inside t = true ↔ 299999000000 ≤ t ∧ t ≤ 300001000000 := by
  refine ⟨⟨"i", 0, false⟩, fun t => decide (299999000000 ≤ t ∧ t ≤ 300001000000), ?_, fun t => by simp⟩
  decide +kernel

/-- And what is observed can be missing: the point is in the footprint from 0 to 299.999 s of the same pass, and there is
no row. -/
theorem C110_missed_false : ∃ (ins : AccessSpec) (inside : Int → Bool),
    collectObservations 0 "s" ins (testsAt true (fun _ => true) inside) [⟨0, 600000000000⟩] = [] ∧
    (∀ t, inside t = true ↔ 0 ≤ t ∧ t ≤ 299999000000) ∧ ins.minAccess = 0 := by
  refine ⟨⟨"i", 0, false⟩, fun t => decide (0 ≤ t ∧ t ≤ 299999000000), ?_, fun t => by simp, rfl⟩
  decide +kernel

/-! ## C111 -/

theorem len_sq (a : V3) : len a ^ 2 = a.dot a := by
  unfold len; rw [Real.sq_sqrt]; unfold V3.dot
  nlinarith [sq_nonneg a.x, sq_nonneg a.y, sq_nonneg a.z]

theorem len_nonneg (a : V3) : 0 ≤ len a := Real.sqrt_nonneg _

theorem mul_le_iff_sq {x y d w : ℝ} (hx : 0 ≤ x) (hd : 0 ≤ d) (hy : 0 ≤ y) (h : y ^ 2 + w = d ^ 2) :
    x * d ≤ y ↔ w ≤ (1 - x ^ 2) * d ^ 2 := by
  have h1 : x * d ≤ y ↔ (x * d) ^ 2 ≤ y ^ 2 :=
    ⟨fun h => pow_le_pow_left₀ (mul_nonneg hx hd) h 2, fun h => le_of_sq_le_sq h hy⟩
  rw [h1, mul_pow]
  constructor <;> intro h2 <;> nlinarith

/-- The law of sines, with inequalities: of a point above whose horizon the satellite is, an elevation of at least `m` is
an angle off nadir of at most `g`, when the sine of `g` is that of the horizon times the cosine of `m`. -/
theorem elevation_iff_offNadir {s p : V3} {m g : ℝ} (hp : 0 < len p) (hps : len p < len s)
    (hm0 : 0 ≤ m) (hm1 : m ≤ 90) (hg0 : 0 ≤ g) (hg1 : g ≤ 90) (hor : ElevationAtLeast 0 s p)
    (h : sinDeg g * len s = cosDeg m * len p) : ElevationAtLeast m s p ↔ OffNadirAtMost g s p := by
  have hpi := Real.pi_pos
  have hsm : 0 ≤ sinDeg m := Real.sin_nonneg_of_nonneg_of_le_pi (by positivity) (by nlinarith)
  have hcg : 0 ≤ cosDeg g := Real.cos_nonneg_of_neg_pi_div_two_le_of_le
    (by have : 0 ≤ g * Real.pi / 180 := by positivity
        linarith) (by nlinarith)
  set r := len p with hr
  set a := len s with ha
  set q := s.dot p with hq
  have hpp : p.dot p = r ^ 2 := (len_sq p).symm
  have hss : s.dot s = a ^ 2 := (len_sq s).symm
  have hD : len (sub s p) ^ 2 = a ^ 2 - 2 * q + r ^ 2 := by
    rw [len_sq, ← hpp, ← hss, hq]; unfold sub V3.dot; ring
  have hDD : len (sub p s) = len (sub s p) := by
    unfold len; congr 1; unfold sub V3.dot; ring
  have hD0 := len_nonneg (sub s p)
  set D := len (sub s p) with hDdef
  have e1 : (sub s p).dot p = q - r ^ 2 := by rw [← hpp, hq]; unfold sub V3.dot; ring
  have e2 : (sub p s).dot (s.smul (-1)) = a ^ 2 - q := by rw [← hss, hq]; unfold sub V3.dot V3.smul; ring
  have hcs : q ^ 2 ≤ (a * r) ^ 2 := by
    rw [mul_pow, ← hss, ← hpp, hq]; unfold V3.dot
    nlinarith [sq_nonneg (s.x * p.y - s.y * p.x), sq_nonneg (s.x * p.z - s.z * p.x), sq_nonneg (s.y * p.z - s.z * p.y)]
  have hqle : q ≤ a * r := le_of_sq_le_sq hcs (by nlinarith)
  unfold ElevationAtLeast at hor ⊢
  unfold OffNadirAtMost
  rw [e1, ← hr] at hor ⊢
  rw [e2, hDD]
  have h0 : sinDeg 0 = 0 := by simp [sinDeg]
  rw [h0, zero_mul] at hor
  rw [mul_le_iff_sq hsm (by positivity) hor (w := (a * r) ^ 2 - q ^ 2) (by rw [mul_pow, mul_pow, hD]; ring),
    mul_le_iff_sq hcg (mul_nonneg (by linarith) hD0) (by nlinarith) (w := (a * r) ^ 2 - q ^ 2) (by rw [mul_pow, mul_pow, hD]; ring)]
  have hs1 : sinDeg m ^ 2 + cosDeg m ^ 2 = 1 := Real.sin_sq_add_cos_sq _
  have hs2 : sinDeg g ^ 2 + cosDeg g ^ 2 = 1 := Real.sin_sq_add_cos_sq _
  have key : (1 - sinDeg m ^ 2) * (D * r) ^ 2 = (1 - cosDeg g ^ 2) * (a * D) ^ 2 := by
    have : (cosDeg m * r) ^ 2 = (sinDeg g * a) ^ 2 := by rw [h]
    have h1 : 1 - sinDeg m ^ 2 = cosDeg m ^ 2 := by linarith
    have h2 : 1 - cosDeg g ^ 2 = sinDeg g ^ 2 := by linarith
    rw [h1, h2]
    linear_combination D ^ 2 * this
  rw [key]

theorem cosDeg_degrees (x : ℝ) : cosDeg (degrees x) = Real.cos x := by
  have := Real.pi_ne_zero
  unfold cosDeg degrees
  congr 1; field_simp

/-- While a satellite on a sphere keeps the altitude it had at the start, a point at sea level that sees it above the
horizon sees it above the threshold exactly when it is in the field of regard. -/
theorem C111_regard (altitude f : ℝ) (s p : V3) (ha : 0 < altitude) (hf0 : 0 ≤ f) (hf1 : f ≤ 180)
    (hs : len s = meanRadius + altitude) (hp : len p = meanRadius) (hor : ElevationAtLeast 0 s p) :
    ElevationAtLeast (regardThreshold altitude f) s p ↔ OffNadirAtMost (f / 2) s p := by
  have hpi := Real.pi_pos
  have hR := meanRadius_gt
  have hz : Below altitude 0 := ⟨by linarith, ha⟩
  obtain ⟨hk0, hk1⟩ := sinRho_range hz
  have hrho : sinRho altitude 0 = meanRadius / (meanRadius + altitude) := by unfold sinRho; rw [add_zero]
  have hsf : Real.sin (radians f / 2) = sinDeg (f / 2) := by rw [radians_half]; rfl
  have hsf0 : 0 ≤ sinDeg (f / 2) := Real.sin_nonneg_of_nonneg_of_le_pi (by positivity) (by nlinarith)
  have hp0 : 0 < len p := by rw [hp]; linarith
  have hps : len p < len s := by rw [hp, hs]; linarith
  unfold regardThreshold minElevation
  simp only [hsf]
  split
  · rename_i h
    refine ⟨fun _ => ?_, fun _ => hor⟩
    -- the horizon is within the field of regard
    have hlt : meanRadius / (meanRadius + altitude) < sinDeg (f / 2) := by
      rw [gt_iff_lt, one_lt_div hk0, hrho] at h; exact h
    have hg1 : meanRadius / (meanRadius + altitude) ≤ 1 := by rw [← hrho]; exact hk1.le
    have hg0 : 0 < meanRadius / (meanRadius + altitude) := by rw [← hrho]; exact hk0
    set g := degrees (Real.arcsin (meanRadius / (meanRadius + altitude))) with hg
    have hsg : sinDeg g = meanRadius / (meanRadius + altitude) := by
      have : sinDeg g = Real.sin (Real.arcsin (meanRadius / (meanRadius + altitude))) := by
        rw [hg]; unfold sinDeg degrees; congr 1; field_simp
      rw [this, Real.sin_arcsin (by linarith) hg1]
    have har0 : 0 ≤ Real.arcsin (meanRadius / (meanRadius + altitude)) := Real.arcsin_nonneg.mpr hg0.le
    have hg0' : 0 ≤ g := by rw [hg]; unfold degrees; positivity
    have hg90 : g ≤ 90 := by
      rw [hg]; unfold degrees
      have := Real.arcsin_le_pi_div_two (meanRadius / (meanRadius + altitude))
      calc _ ≤ Real.pi / 2 * (180 / Real.pi) := mul_le_mul_of_nonneg_right this (by positivity)
        _ = 90 := by field_simp; norm_num
    have h1 : OffNadirAtMost g s p := by
      refine (elevation_iff_offNadir hp0 hps le_rfl (by norm_num) hg0' hg90 hor ?_).mp hor
      rw [hsg, hs, hp]
      have : cosDeg 0 = 1 := by simp [cosDeg]
      rw [this]
      have : meanRadius + altitude ≠ 0 := by linarith
      field_simp
    unfold OffNadirAtMost at h1 ⊢
    refine le_trans (mul_le_mul_of_nonneg_right ?_ (mul_nonneg (len_nonneg _) (len_nonneg _))) h1
    -- `cos (f / 2) ≤ cos g`
    have hs1 : sinDeg (f / 2) ^ 2 + cosDeg (f / 2) ^ 2 = 1 := Real.sin_sq_add_cos_sq _
    have hs2 : sinDeg g ^ 2 + cosDeg g ^ 2 = 1 := Real.sin_sq_add_cos_sq _
    have hcg : 0 ≤ cosDeg g := Real.cos_nonneg_of_neg_pi_div_two_le_of_le
      (by have : 0 ≤ g * Real.pi / 180 := by positivity
          linarith) (by nlinarith)
    apply le_of_sq_le_sq _ hcg
    have : sinDeg g ^ 2 ≤ sinDeg (f / 2) ^ 2 := by
      apply pow_le_pow_left₀ (by rw [hsg]; exact hg0.le)
      rw [hsg]; exact hlt.le
    linarith
  · rename_i h
    push Not at h
    have hc0 : 0 ≤ sinDeg (f / 2) / sinRho altitude 0 := div_nonneg hsf0 hk0.le
    have hm0 : 0 ≤ degrees (Real.arccos (sinDeg (f / 2) / sinRho altitude 0)) := by
      have := Real.arccos_nonneg (sinDeg (f / 2) / sinRho altitude 0)
      unfold degrees; positivity
    have hm1 : degrees (Real.arccos (sinDeg (f / 2) / sinRho altitude 0)) ≤ 90 := by
      have := Real.arccos_le_pi_div_two.mpr hc0
      unfold degrees
      calc _ ≤ Real.pi / 2 * (180 / Real.pi) := mul_le_mul_of_nonneg_right this (by positivity)
        _ = 90 := by field_simp; norm_num
    refine elevation_iff_offNadir hp0 hps hm0 hm1 (by linarith) (by linarith) hor ?_
    rw [cosDeg_degrees, Real.cos_arccos (by linarith) h, hs, hp, hrho]
    have : meanRadius + altitude ≠ 0 := by linarith
    have : meanRadius ≠ 0 := by linarith
    field_simp

/-- A point and a satellite on its horizon. -/
theorem tangent_len {r d a : ℝ} (hr : 0 < r) (hd : 0 < d) (ha : 0 < a) (h : a ^ 2 = r ^ 2 + d ^ 2) :
    len ⟨r, 0, 0⟩ = r ∧ len ⟨r, d, 0⟩ = a ∧ ElevationAtLeast 0 ⟨r, d, 0⟩ ⟨r, 0, 0⟩ ∧
    (∀ g, OffNadirAtMost g ⟨r, d, 0⟩ ⟨r, 0, 0⟩ ↔ cosDeg g * a ≤ d) ∧
    (∀ m, 0 < sinDeg m → ¬ ElevationAtLeast m ⟨r, d, 0⟩ ⟨r, 0, 0⟩) := by
  have h1 : len ⟨r, 0, 0⟩ = r := by
    unfold len V3.dot; simp only [mul_zero, add_zero]; exact Real.sqrt_mul_self hr.le
  have h2 : len ⟨r, d, 0⟩ = a := by
    unfold len V3.dot; simp only [mul_zero, add_zero]
    rw [show r * r + d * d = a * a by linarith [h]]; exact Real.sqrt_mul_self ha.le
  have h3 : len (sub ⟨r, d, 0⟩ ⟨r, 0, 0⟩) = d := by
    unfold len sub V3.dot; simp only [sub_self, sub_zero, mul_zero, add_zero, zero_add]
    exact Real.sqrt_mul_self hd.le
  have h4 : len (sub ⟨r, 0, 0⟩ ⟨r, d, 0⟩) = d := by
    unfold len sub V3.dot; simp only [sub_self, zero_sub, mul_zero, add_zero, zero_add, neg_mul_neg]
    exact Real.sqrt_mul_self hd.le
  have h5 : (sub ⟨r, d, 0⟩ ⟨r, 0, 0⟩ : V3).dot ⟨r, 0, 0⟩ = 0 := by
    unfold sub V3.dot; ring
  refine ⟨h1, h2, ?_, fun g => ?_, fun m hm hh => ?_⟩
  · unfold ElevationAtLeast
    rw [h5]; simp [sinDeg]
  · unfold OffNadirAtMost
    rw [h2, h4]
    have : (sub ⟨r, 0, 0⟩ ⟨r, d, 0⟩ : V3).dot ((⟨r, d, 0⟩ : V3).smul (-1)) = d * d := by
      unfold sub V3.dot V3.smul; ring
    rw [this, ← mul_assoc]
    exact mul_le_mul_iff_left₀ hd
  · unfold ElevationAtLeast at hh
    rw [h5, h3, h1] at hh
    have : 0 < sinDeg m * (d * r) := by positivity
    linarith

theorem sinDeg_30 : sinDeg 30 = 1 / 2 := by
  unfold sinDeg; rw [show (30 : ℝ) * Real.pi / 180 = Real.pi / 6 by ring, Real.sin_pi_div_six]
theorem cosDeg_30 : cosDeg 30 = Real.sqrt 3 / 2 := by
  unfold cosDeg; rw [show (30 : ℝ) * Real.pi / 180 = Real.pi / 6 by ring, Real.cos_pi_div_six]

/-- A satellite that is half the Earth's radius up at the start has a threshold of about 41 degrees for a field of regard
of 60 degrees; one that is a radius up sees down to the horizon. -/
theorem threshold_60 : regardThreshold meanRadius 60 = 0 ∧
    regardThreshold (meanRadius / 2) 60 = degrees (Real.arccos (3 / 4)) := by
  have hR := meanRadius_gt
  have hs : Real.sin (radians 60 / 2) = 1 / 2 := by
    rw [show radians 60 / 2 = Real.pi / 6 by unfold radians; ring, Real.sin_pi_div_six]
  have h1 : 1 / 2 / sinRho meanRadius 0 = 1 := by
    unfold sinRho; rw [add_zero]; field_simp; ring
  have h2 : 1 / 2 / sinRho (meanRadius / 2) 0 = 3 / 4 := by
    unfold sinRho; rw [add_zero]; field_simp; ring
  unfold regardThreshold minElevation
  simp only [hs, h1, h2]
  constructor
  · rw [if_neg (lt_irrefl _), Real.arccos_one]; simp [degrees]
  · rw [if_neg (by norm_num)]

/-- When the altitude changes after the start, the threshold is wrong both ways.  Of a field of regard of 60 degrees: a
satellite one radius up at the start, and half a radius up later, is above its threshold when the point is outside of the
field of regard; from half a radius to one radius, it is below when the point is inside. -/
theorem C111_altitude_false :
    (∃ s p, len s = meanRadius + meanRadius / 2 ∧ len p = meanRadius ∧
      ElevationAtLeast (regardThreshold meanRadius 60) s p ∧ ¬ OffNadirAtMost 30 s p) ∧
    (∃ s p, len s = meanRadius + meanRadius ∧ len p = meanRadius ∧ ElevationAtLeast 0 s p ∧
      ¬ ElevationAtLeast (regardThreshold (meanRadius / 2) 60) s p ∧ OffNadirAtMost 30 s p) := by
  have hR := meanRadius_gt
  have h3 : Real.sqrt 3 ^ 2 = 3 := Real.sq_sqrt (by norm_num)
  have h3p : 0 < Real.sqrt 3 := by positivity
  have h5 : Real.sqrt 5 ^ 2 = 5 := Real.sq_sqrt (by norm_num)
  have h5p : 0 < Real.sqrt 5 := by positivity
  constructor
  · obtain ⟨e1, e2, e3, e4, -⟩ := tangent_len (r := meanRadius) (d := Real.sqrt 5 / 2 * meanRadius)
      (a := meanRadius + meanRadius / 2) (by linarith) (by positivity) (by linarith)
      (by rw [mul_pow, div_pow, h5]; ring)
    refine ⟨_, _, e2, e1, ?_, ?_⟩
    · rw [threshold_60.1]; exact e3
    · rw [e4, cosDeg_30]
      push Not
      have : Real.sqrt 5 / 2 < Real.sqrt 3 / 2 * (3 / 2) := by nlinarith
      nlinarith
  · obtain ⟨e1, e2, e3, e4, e5⟩ := tangent_len (r := meanRadius) (d := Real.sqrt 3 * meanRadius)
      (a := meanRadius + meanRadius) (by linarith) (by positivity) (by linarith)
      (by rw [mul_pow, h3]; ring)
    refine ⟨_, _, e2, e1, e3, e5 _ ?_, ?_⟩
    · rw [threshold_60.2]
      have hpi := Real.pi_ne_zero
      have : sinDeg (degrees (Real.arccos (3 / 4))) = Real.sin (Real.arccos (3 / 4)) := by
        unfold sinDeg degrees; congr 1; field_simp
      rw [this, Real.sin_arccos]
      exact Real.sqrt_pos.mpr (by norm_num)
    · rw [e4, cosDeg_30]; linarith

/-- And the elevation of the point is ignored: a satellite one radius up with a field of regard of 60 degrees is above the
threshold of a point above sea level that is outside of its field of regard. -/
theorem C111_elevation_false (z : ℝ) (hz0 : 0 < z) (hz1 : z < meanRadius) :
    ∃ s p, len s = meanRadius + meanRadius ∧ len p = meanRadius + z ∧
      ElevationAtLeast (regardThreshold meanRadius 60) s p ∧ ¬ OffNadirAtMost 30 s p := by
  have hR := meanRadius_gt
  have h3 : Real.sqrt 3 ^ 2 = 3 := Real.sq_sqrt (by norm_num)
  have h3p : 0 < Real.sqrt 3 := by positivity
  have hpos : 0 < (2 * meanRadius) ^ 2 - (meanRadius + z) ^ 2 := by nlinarith
  obtain ⟨e1, e2, e3, e4, -⟩ := tangent_len (r := meanRadius + z)
    (d := Real.sqrt ((2 * meanRadius) ^ 2 - (meanRadius + z) ^ 2))
    (a := meanRadius + meanRadius) (by linarith) (Real.sqrt_pos.mpr hpos) (by linarith)
    (by rw [Real.sq_sqrt hpos.le]; ring)
  refine ⟨_, _, e2, e1, ?_, ?_⟩
  · rw [threshold_60.1]; exact e3
  · rw [e4, cosDeg_30]
    push Not
    have : Real.sqrt 3 / 2 * (meanRadius + meanRadius) = Real.sqrt 3 * meanRadius := by ring
    rw [this]
    rw [Real.sqrt_lt' (by positivity), mul_pow (Real.sqrt 3), h3]
    nlinarith

example : ElevationAtLeast (regardThreshold meanRadius 60) ⟨meanRadius, Real.sqrt 3 * meanRadius, 0⟩ ⟨meanRadius, 0, 0⟩ := by
  have hR := meanRadius_gt
  have h3 : Real.sqrt 3 ^ 2 = 3 := Real.sq_sqrt (by norm_num)
  obtain ⟨e1, e2, e3, e4, -⟩ := tangent_len (r := meanRadius) (d := Real.sqrt 3 * meanRadius)
    (a := meanRadius + meanRadius) (by linarith) (by positivity) (by linarith) (by rw [mul_pow, h3]; ring)
  refine (C111_regard meanRadius 60 _ _ (by linarith) (by norm_num) (by norm_num) e2 e1 e3).mpr ?_
  rw [show (60 : ℝ) / 2 = 30 by norm_num, e4, cosDeg_30]; linarith

/-! ## C112 -/

/-- The satellite and the point turn in the plane of the equator. -/
theorem turning_dot (a P r S t : ℝ) :
    (circularPosition a P ⟨1, 0, 0⟩ ⟨0, 1, 0⟩ t).dot (turning r S t) =
      a * r * Real.cos (2 * Real.pi * t / P - 2 * Real.pi * t / S) := by
  unfold circularPosition turning V3.dot V3.add V3.smul
  rw [Real.cos_sub]; ring

theorem circular_dot (a P t : ℝ) :
    (circularPosition a P ⟨1, 0, 0⟩ ⟨0, 1, 0⟩ t).dot (circularPosition a P ⟨1, 0, 0⟩ ⟨0, 1, 0⟩ t) = a ^ 2 := by
  unfold circularPosition V3.dot V3.add V3.smul
  have := Real.sin_sq_add_cos_sq (2 * Real.pi * t / P)
  linear_combination a ^ 2 * this

theorem turning_self (r S t : ℝ) : (turning r S t).dot (turning r S t) = r ^ 2 := by
  unfold turning V3.dot
  have := Real.sin_sq_add_cos_sq (2 * Real.pi * t / S)
  linear_combination r ^ 2 * this

theorem turning_len {r : ℝ} (hr : 0 ≤ r) (S t : ℝ) : len (turning r S t) = r := by
  unfold len; rw [turning_self, Real.sqrt_sq hr]

/-- Over the equator, a satellite that goes around at least twice a day is not in view for longer than twice the maximum
access time at once, also from a point that turns with the Earth.  (Missing: other inclinations above 10000 km; below, `C112_inclined`.) -/
theorem C112_equatorial_partial (altitude e : ℝ) (ha : 0 < meanRadius + altitude) (he0 : 0 ≤ e) (he1 : e ≤ 90)
    (hP : orbitPeriodSeconds altitude ≤ siderealDay / 2) (t1 t2 : ℝ) (ht : t1 ≤ t2)
    (pass : ∀ t, t1 ≤ t → t ≤ t2 → ElevationAtLeast e
      (circularPosition (meanRadius + altitude) (orbitPeriodSeconds altitude) ⟨1, 0, 0⟩ ⟨0, 1, 0⟩ t)
      (turning meanRadius siderealDay t)) :
    t2 - t1 ≤ 2 * maxAccessTime altitude e := by
  have hpi := Real.pi_pos
  have hR := meanRadius_gt
  have hP0 := period_pos ha
  have hS : 0 < siderealDay := by unfold siderealDay; norm_num
  rw [maxAccess_eq ha]
  set P := orbitPeriodSeconds altitude
  set a := meanRadius + altitude
  set S := siderealDay
  have hrate : 1 / (2 * P) ≤ 1 / P - 1 / S := by
    rw [div_sub_div _ _ hP0.ne' hS.ne', div_le_div_iff₀ (by positivity) (by positivity)]
    nlinarith
  set k := 1 / P - 1 / S with hk
  have hk0 : 0 < k := lt_of_lt_of_le (by positivity) hrate
  have hang : ∀ t, 2 * Real.pi * t / P - 2 * Real.pi * t / S = 2 * Real.pi * k * t := by
    intro t; rw [hk]; ring
  have key : ∀ t, t1 ≤ t → t ≤ t2 → Real.cos (Real.pi / 2 - e * Real.pi / 180) ≤ Real.cos (2 * Real.pi * k * t) := by
    intro t h1 h2
    obtain ⟨c1, -⟩ := central_of_elevation he0 he1 (by rw [turning_len (by linarith)]; linarith) ha (circular_dot a P t)
      (pass t h1 h2)
    rw [turning_len (by linarith), turning_dot, hang] at c1
    rw [Real.cos_pi_div_two_sub]
    have : a * meanRadius * sinDeg e ≤ a * meanRadius * Real.cos (2 * Real.pi * k * t) := by linarith
    exact le_of_mul_le_mul_left this (by nlinarith)
  have hlen := cos_interval (x1 := 2 * Real.pi * k * t1) (x2 := 2 * Real.pi * k * t2)
    (b := Real.pi / 2 - e * Real.pi / 180) (by nlinarith)
    (by have : 0 ≤ e * Real.pi / 180 := by positivity
        linarith)
    (by apply mul_le_mul_of_nonneg_left ht; positivity)
    (by
      intro x hx1 hx2
      have := key (x / (2 * Real.pi * k)) (by rw [le_div_iff₀ (by positivity)]; linarith)
        (by rw [div_le_iff₀ (by positivity)]; linarith)
      rwa [mul_div_cancel₀ x (by positivity : (2 * Real.pi * k) ≠ 0)] at this)
  have h1 : k * (t2 - t1) ≤ (90 - e) / 180 := by
    have : 2 * Real.pi * (k * (t2 - t1)) ≤ 2 * Real.pi * ((90 - e) / 180) := by nlinarith
    exact le_of_mul_le_mul_left this (by positivity)
  have h2 : 1 / (2 * P) * (t2 - t1) ≤ (90 - e) / 180 :=
    le_trans (mul_le_mul_of_nonneg_right hrate (by linarith)) h1
  have h3 : 1 / (2 * P) * (t2 - t1) = (t2 - t1) / (2 * P) := by ring
  rw [h3, div_le_iff₀ (by positivity)] at h2
  linarith

/-- A satellite one radius up is in view for more than 4000 and less than 7000 s. -/
theorem pass_iff : ∃ T : ℝ, 2000 < T ∧ T < 3500 ∧ ∀ t, |t| ≤ 5000 → (ElevationAtLeast 0
    (circularPosition (meanRadius + meanRadius) (orbitPeriodSeconds meanRadius) ⟨1, 0, 0⟩ ⟨0, 1, 0⟩ t)
    (turning meanRadius siderealDay t) ↔ |t| ≤ T) := by
  have hpi := Real.pi_pos
  have hpi1 := Real.pi_gt_d4
  have hpi2 := Real.pi_lt_d4
  have hR := meanRadius_gt
  have hw1 : 0.0004 < Real.sqrt (mu / (meanRadius + meanRadius) ^ 3) := by
    apply Real.lt_sqrt_of_sq_lt
    unfold mu meanRadius equatorialRadius polarRadius
    norm_num
  have hw2 : Real.sqrt (mu / (meanRadius + meanRadius) ^ 3) < 0.0005 := by
    rw [Real.sqrt_lt' (by norm_num)]
    unfold mu meanRadius equatorialRadius polarRadius
    norm_num
  have hP : orbitPeriodSeconds meanRadius = 2 * Real.pi / Real.sqrt (mu / (meanRadius + meanRadius) ^ 3) := rfl
  set w := Real.sqrt (mu / (meanRadius + meanRadius) ^ 3)
  have hS : siderealDay = 86164.0905 := rfl
  have h3 : 0 < 2 * Real.pi / 86164.0905 := by positivity
  have h4 : 2 * Real.pi / 86164.0905 < 0.0001 := by rw [div_lt_iff₀ (by norm_num)]; nlinarith
  have hpos : 0 < w - 2 * Real.pi / 86164.0905 := by linarith
  refine ⟨Real.pi / 3 / (w - 2 * Real.pi / 86164.0905), ?_, ?_, fun t ht => ?_⟩
  · rw [lt_div_iff₀ hpos]; linarith
  · rw [div_lt_iff₀ hpos]; linarith
  unfold ElevationAtLeast
  have : ∀ s p : V3, (sub s p).dot p = s.dot p - p.dot p := by intro s p; unfold sub V3.dot; ring
  rw [this, turning_dot, turning_self]
  have h0 : sinDeg 0 = 0 := by simp [sinDeg]
  have hang : 2 * Real.pi * t / orbitPeriodSeconds meanRadius - 2 * Real.pi * t / siderealDay =
      (w - 2 * Real.pi / 86164.0905) * t := by
    rw [hP, hS]
    have : w ≠ 0 := by linarith
    field_simp
  rw [h0, zero_mul, hang]
  rw [le_div_iff₀ hpos]
  have e1 : |t| * (w - 2 * Real.pi / 86164.0905) = |(w - 2 * Real.pi / 86164.0905) * t| := by
    rw [abs_mul, abs_of_pos hpos, mul_comm]
  have hle : |(w - 2 * Real.pi / 86164.0905) * t| ≤ Real.pi := by
    rw [← e1]; nlinarith [abs_nonneg t]
  rw [e1, ← Real.cos_abs ((w - 2 * Real.pi / 86164.0905) * t)]
  generalize |(w - 2 * Real.pi / 86164.0905) * t| = x at *
  have hx : 0 ≤ x := by rw [← e1]; positivity
  constructor
  · intro h
    by_contra hlt
    have := Real.cos_lt_cos_of_nonneg_of_le_pi (by positivity) hle (not_le.1 hlt)
    rw [Real.cos_pi_div_three] at this
    have h5 : meanRadius * meanRadius * Real.cos x < meanRadius * meanRadius * (1 / 2) :=
      mul_lt_mul_of_pos_left this (by positivity)
    linarith
  · intro h
    have := Real.cos_le_cos_of_nonneg_of_le_pi hx (by linarith) h
    rw [Real.cos_pi_div_three] at this
    nlinarith

/-- A satellite one radius up is in view for 1000 s. -/
theorem pass_example (t : ℝ) (h1 : -500 ≤ t) (h2 : t ≤ 500) : ElevationAtLeast 0
    (circularPosition (meanRadius + meanRadius) (orbitPeriodSeconds meanRadius) ⟨1, 0, 0⟩ ⟨0, 1, 0⟩ t)
    (turning meanRadius siderealDay t) := by
  obtain ⟨T, hT, -, h⟩ := pass_iff
  have : |t| ≤ 500 := abs_le.2 ⟨h1, h2⟩
  exact (h t (by linarith)).2 (by linarith)

/-- The hypotheses hold of a satellite one radius up, for 1000 s. -/
example : (500 : ℝ) - (-500) ≤ 2 * maxAccessTime meanRadius 0 := by
  have hpi := Real.pi_pos
  have hpi1 := Real.pi_gt_d4
  have hpi2 := Real.pi_lt_d4
  have hR := meanRadius_gt
  have hw1 : 0.0004 < Real.sqrt (mu / (meanRadius + meanRadius) ^ 3) := by
    apply Real.lt_sqrt_of_sq_lt
    unfold mu meanRadius equatorialRadius polarRadius
    norm_num
  have hw2 : Real.sqrt (mu / (meanRadius + meanRadius) ^ 3) < 0.0005 := by
    rw [Real.sqrt_lt' (by norm_num)]
    unfold mu meanRadius equatorialRadius polarRadius
    norm_num
  have hP : orbitPeriodSeconds meanRadius = 2 * Real.pi / Real.sqrt (mu / (meanRadius + meanRadius) ^ 3) := rfl
  set w := Real.sqrt (mu / (meanRadius + meanRadius) ^ 3)
  have hS : siderealDay = 86164.0905 := rfl
  refine C112_equatorial_partial meanRadius 0 (by linarith) le_rfl (by norm_num) ?_ (-500) 500 (by norm_num) pass_example
  rw [hP, hS, div_le_iff₀ (by linarith)]; nlinarith

/-- The rate of a satellite 30000 km up. -/
theorem rate_30000 : 0.0000895 < Real.sqrt (mu / (meanRadius + 30000000) ^ 3) ∧
    Real.sqrt (mu / (meanRadius + 30000000) ^ 3) < 0.000093 := by
  constructor
  · apply Real.lt_sqrt_of_sq_lt
    unfold mu meanRadius equatorialRadius polarRadius
    norm_num
  · rw [Real.sqrt_lt' (by norm_num)]
    unfold mu meanRadius equatorialRadius polarRadius
    norm_num

/-- A pass that is longer than twice the limit is dropped, whatever the window. -/
theorem long_dropped (start end_ M r s : Int) (events : List (Int × EventKind))
    (he : events.filter (fun e => decide (e.2 ≠ .culminate)) = [(r, .rise), (s, .set)]) (hrs : r < s)
    (h : r + 2 * M ≤ s) : visibleIntervals start end_ M events = [] := by
  have hr : (events.filter fun e => e.2 = .rise).map Prod.fst = [r] := by
    have : events.filter (fun e => e.2 = .rise) =
        (events.filter (fun e => decide (e.2 ≠ .culminate))).filter (fun e => e.2 = .rise) := by
      rw [List.filter_filter]
      congr 1; funext e
      cases h : e.2 <;> simp
    rw [this, he]; simp
  have hs : (events.filter fun e => e.2 = .set).map Prod.fst = [s] := by
    have : events.filter (fun e => e.2 = .set) =
        (events.filter (fun e => decide (e.2 ≠ .culminate))).filter (fun e => e.2 = .set) := by
      rw [List.filter_filter]
      congr 1; funext e
      cases h : e.2 <;> simp
    rw [this, he]; simp
  have hm : (r, EventKind.rise) ∈ events := by
    have : (r, EventKind.rise) ∈ events.filter (fun e => decide (e.2 ≠ .culminate)) := by rw [he]; simp
    exact (List.mem_filter.mp this).1
  have hne : events ≠ [] := List.ne_nil_of_mem hm
  unfold visibleIntervals
  rw [if_neg (by rintro ⟨-, h⟩; have := h _ hm; cases this), if_pos hne]
  simp only [hr, hs]
  have h1 : ¬ s < r := by omega
  have h2 : matching M r [s] = [] := by
    unfold matching
    simp only [List.filter_cons, List.filter_nil]
    rw [if_neg]
    simp; omega
  simp [h1, h2]

theorem roundHalfEven_le (x : ℝ) : (Num.roundHalfEven x : ℝ) ≤ x + 1 := by
  have h1 := Int.floor_le x
  unfold Num.roundHalfEven
  simp only
  split
  · linarith
  · split
    · push_cast; linarith
    · split
      · linarith
      · push_cast; linarith

/-- A satellite 30000 km over the equator is in view of a point of the equator for more than 100000 s, and out of view
100000 s before and after the middle; whatever the window, the pass is not among the visible intervals. -/
theorem C112_long_false :
    (∀ t : ℝ, -50000 ≤ t → t ≤ 50000 → ElevationAtLeast 0
      (circularPosition (meanRadius + 30000000) (orbitPeriodSeconds 30000000) ⟨1, 0, 0⟩ ⟨0, 1, 0⟩ t)
      (turning meanRadius siderealDay t)) ∧
    (∀ t : ℝ, t = -100000 ∨ t = 100000 → ¬ ElevationAtLeast 0
      (circularPosition (meanRadius + 30000000) (orbitPeriodSeconds 30000000) ⟨1, 0, 0⟩ ⟨0, 1, 0⟩ t)
      (turning meanRadius siderealDay t)) ∧
    ∀ (start end_ r s : Int) (events : List (Int × EventKind)),
      events.filter (fun e => decide (e.2 ≠ .culminate)) = [(r, .rise), (s, .set)] →
      r ≤ -50000000000000 → 50000000000000 ≤ s → visibleIntervals start end_ (accessLimit 30000000 0) events = [] := by
  have hpi := Real.pi_pos
  have hpi1 := Real.pi_gt_d4
  have hpi2 := Real.pi_lt_d4
  have hR := meanRadius_gt
  have ha : 0 < meanRadius + 30000000 := by linarith
  obtain ⟨w1, w2⟩ := rate_30000
  have hP : orbitPeriodSeconds 30000000 = 2 * Real.pi / Real.sqrt (mu / (meanRadius + 30000000) ^ 3) := rfl
  set w := Real.sqrt (mu / (meanRadius + 30000000) ^ 3) with hw
  have hw0 : 0 < w := by linarith
  have hS : siderealDay = 86164.0905 := rfl
  have hang : ∀ t, 2 * Real.pi * t / orbitPeriodSeconds 30000000 - 2 * Real.pi * t / siderealDay =
      (w - 2 * Real.pi / 86164.0905) * t := by
    intro t; rw [hP, hS]; field_simp
  set k := w - 2 * Real.pi / 86164.0905 with hk
  have hk1 : k ≤ 0.0000202 := by
    have : 0.0000729 ≤ 2 * Real.pi / 86164.0905 := by
      rw [le_div_iff₀ (by norm_num)]; nlinarith
    linarith
  have hk2 : 0.0000165 ≤ k := by
    have : 2 * Real.pi / 86164.0905 ≤ 0.000073 := by
      rw [div_le_iff₀ (by norm_num)]; nlinarith
    linarith
  have hdot : ∀ t, (sub (circularPosition (meanRadius + 30000000) (orbitPeriodSeconds 30000000) ⟨1, 0, 0⟩ ⟨0, 1, 0⟩ t)
      (turning meanRadius siderealDay t)).dot (turning meanRadius siderealDay t) =
      meanRadius * ((meanRadius + 30000000) * Real.cos (k * t) - meanRadius) := by
    intro t
    have : ∀ s p : V3, (sub s p).dot p = s.dot p - p.dot p := by intro s p; unfold sub V3.dot; ring
    rw [this, turning_dot, turning_self, hang]; ring
  have h0 : sinDeg 0 = 0 := by simp [sinDeg]
  have hRle : meanRadius ≤ 6400000 := by unfold meanRadius equatorialRadius polarRadius; norm_num
  refine ⟨fun t h1 h2 => ?_, fun t ht => ?_, fun start end_ r s events he hr hs => ?_⟩
  · unfold ElevationAtLeast
    rw [h0, zero_mul, hdot]
    apply mul_nonneg (by linarith)
    have hc : 1 / 2 ≤ Real.cos (k * t) := by
      rw [← Real.cos_pi_div_three, ← Real.cos_abs (k * t)]
      apply Real.cos_le_cos_of_nonneg_of_le_pi (abs_nonneg _) (by linarith)
      rw [abs_mul, abs_of_nonneg (by linarith : 0 ≤ k)]
      have : |t| ≤ 50000 := abs_le.mpr ⟨h1, h2⟩
      nlinarith [abs_nonneg t]
    nlinarith
  · unfold ElevationAtLeast
    rw [h0, zero_mul, hdot]
    push Not
    have hc : Real.cos (k * t) ≤ 0 := by
      have : Real.cos (k * t) = Real.cos (k * 100000) := by
        rcases ht with rfl | rfl
        · rw [mul_neg, Real.cos_neg]
        · rfl
      rw [this]
      apply Real.cos_nonpos_of_pi_div_two_le_of_le <;> nlinarith
    have h1 : (meanRadius + 30000000) * Real.cos (k * t) ≤ 0 := mul_nonpos_of_nonneg_of_nonpos ha.le hc
    exact mul_neg_of_pos_of_neg (by linarith) (by linarith)
  · apply long_dropped start end_ _ r s events he (by omega)
    have hm : maxAccessTime 30000000 0 = Real.pi / w := by
      rw [maxAccess_eq ha, hP]; field_simp; norm_num
    have hmle : maxAccessTime 30000000 0 ≤ 36000 := by
      rw [hm, div_le_iff₀ hw0]; nlinarith
    have hle : accessLimit 30000000 0 ≤ 40000000000000 := by
      unfold accessLimit
      have h1 := roundHalfEven_le (maxAccessTime 30000000 0 * 1000000)
      have h2 : (Num.roundHalfEven (maxAccessTime 30000000 0 * 1000000) : ℝ) ≤ 36000000001 := by linarith
      have h3 : Num.roundHalfEven (maxAccessTime 30000000 0 * 1000000) ≤ 36000000001 := by exact_mod_cast h2
      omega
    omega

end Tatc.Props
