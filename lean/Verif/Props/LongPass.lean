import Mathlib.Geometry.Euclidean.Angle.Unoriented.TriangleInequality
import Mathlib.Analysis.InnerProductSpace.PiL2
import Verif.Props.Regard

/-!
# C112: no pass is too long, at every inclination
-/

namespace Tatc.Props
open Tatc Tatc.Num Tatc.Geometry Tatc.Spec Tatc.Orbit Tatc.Coverage Tatc.Pandas

/-- Angles between directions satisfy the triangle inequality. -/
theorem arccos_triangle {u v w : V3} (hu : u.dot u = 1) (hv : v.dot v = 1) (hw : w.dot w = 1) :
    Real.arccos (u.dot w) ≤ Real.arccos (u.dot v) + Real.arccos (v.dot w) := by
  let E : V3 → EuclideanSpace ℝ (Fin 3) := fun a => !₂[a.x, a.y, a.z]
  have hin : ∀ a b, inner ℝ (E a) (E b) = a.dot b := by
    intro a b
    simp [E, PiLp.inner_apply, Fin.sum_univ_three, V3.dot]
    ring
  have hnorm : ∀ a : V3, a.dot a = 1 → ‖E a‖ = 1 := by
    intro a ha
    have : ‖E a‖ ^ 2 = 1 := by rw [← real_inner_self_eq_norm_sq, hin, ha]
    nlinarith [norm_nonneg (E a)]
  have := InnerProductGeometry.angle_le_angle_add_angle (E u) (E v) (E w)
  unfold InnerProductGeometry.angle at this
  rw [hin, hin, hin, hnorm u hu, hnorm v hv, hnorm w hw] at this
  simpa using this

theorem circular_unit {u v : V3} (hu : u.dot u = 1) (hv : v.dot v = 1) (huv : u.dot v = 0) (P t1 t2 : ℝ) :
    (circularPosition 1 P u v t1).dot (circularPosition 1 P u v t2) =
      Real.cos (2 * Real.pi * t2 / P - 2 * Real.pi * t1 / P) := by
  have : (circularPosition 1 P u v t1).dot (circularPosition 1 P u v t2) =
      Real.cos (2 * Real.pi * t1 / P) * Real.cos (2 * Real.pi * t2 / P) * u.dot u +
      Real.sin (2 * Real.pi * t1 / P) * Real.sin (2 * Real.pi * t2 / P) * v.dot v +
      (Real.cos (2 * Real.pi * t1 / P) * Real.sin (2 * Real.pi * t2 / P) +
        Real.sin (2 * Real.pi * t1 / P) * Real.cos (2 * Real.pi * t2 / P)) * u.dot v := by
    unfold circularPosition V3.add V3.smul V3.dot; ring
  rw [this, hu, hv, huv, Real.cos_sub]; ring

theorem circular_scale (a P : ℝ) (u v : V3) (t : ℝ) : circularPosition a P u v t = (circularPosition 1 P u v t).smul a := by
  unfold circularPosition V3.add V3.smul
  simp only [V3.mk.injEq]
  refine ⟨?_, ?_, ?_⟩ <;> ring

theorem turning_unit (lat lon S t1 t2 : ℝ) : (turningAt 1 lat lon S t1).dot (turningAt 1 lat lon S t2) =
    Real.cos lat ^ 2 * Real.cos (2 * Real.pi * t2 / S - 2 * Real.pi * t1 / S) + Real.sin lat ^ 2 := by
  have e : 2 * Real.pi * t2 / S - 2 * Real.pi * t1 / S =
    (2 * Real.pi * t2 / S + lon) - (2 * Real.pi * t1 / S + lon) := by ring
  rw [e, Real.cos_sub]
  unfold turningAt V3.dot
  ring

theorem turning_scale (r lat lon S t : ℝ) : turningAt r lat lon S t = (turningAt 1 lat lon S t).smul r := by
  unfold turningAt V3.smul
  simp only [V3.mk.injEq]
  refine ⟨?_, ?_, ?_⟩ <;> ring

theorem smul_dot_smul (a b : ℝ) (u v : V3) : (u.smul a).dot (v.smul b) = a * b * u.dot v := by
  unfold V3.smul V3.dot; ring

theorem arccos_le_of_cos_le {x b : ℝ} (hb0 : 0 ≤ b) (hb1 : b ≤ Real.pi) (h : Real.cos b ≤ x) : Real.arccos x ≤ b := by
  calc Real.arccos x ≤ Real.arccos (Real.cos b) := Real.arccos_le_arccos h
    _ = b := Real.arccos_cos hb0 hb1

/-- While a satellite stays within the angle `b` of a place that turns with the Earth, its way less that of the place is at
most twice that, as long as it goes less than half around. -/
theorem way_le {u v : V3} (hu : u.dot u = 1) (hv : v.dot v = 1) (huv : u.dot v = 0) {P S : ℝ} (hP : 0 < P) (hS : P ≤ S)
    (lat lon : ℝ) {t1 t2 b : ℝ} (ht : t1 ≤ t2) (hb0 : 0 ≤ b) (hb1 : b ≤ Real.pi) (hhalf : t2 - t1 ≤ P / 2)
    (h1 : Real.cos b ≤ (circularPosition 1 P u v t1).dot (turningAt 1 lat lon S t1))
    (h2 : Real.cos b ≤ (circularPosition 1 P u v t2).dot (turningAt 1 lat lon S t2)) :
    2 * Real.pi * (t2 - t1) * (1 / P - 1 / S) ≤ 2 * b := by
  have hpi := Real.pi_pos
  have hS0 : 0 < S := by linarith
  have hs : ∀ t, (circularPosition 1 P u v t).dot (circularPosition 1 P u v t) = 1 := by
    intro t; rw [circular_unit hu hv huv]; simp
  have hp : ∀ t, (turningAt 1 lat lon S t).dot (turningAt 1 lat lon S t) = 1 := by
    intro t; rw [turning_unit]; simp
  have hcomm : ∀ a b : V3, a.dot b = b.dot a := by intro a b; unfold V3.dot; ring
  have tri1 := arccos_triangle (hs t1) (hp t1) (hs t2)
  have tri2 := arccos_triangle (hp t1) (hp t2) (hs t2)
  rw [hcomm (turningAt 1 lat lon S t2) (circularPosition 1 P u v t2)] at tri2
  have d1 := arccos_le_of_cos_le hb0 hb1 h1
  have d2 := arccos_le_of_cos_le hb0 hb1 h2
  -- the way of the satellite
  have hway : Real.arccos ((circularPosition 1 P u v t1).dot (circularPosition 1 P u v t2)) =
      2 * Real.pi * (t2 - t1) / P := by
    rw [circular_unit hu hv huv]
    have e : 2 * Real.pi * t2 / P - 2 * Real.pi * t1 / P = 2 * Real.pi * (t2 - t1) / P := by ring
    rw [e, Real.arccos_cos]
    · have : 0 ≤ t2 - t1 := by linarith
      positivity
    · rw [div_le_iff₀ hP]
      nlinarith
  -- the way of the place
  have hplace : Real.arccos ((turningAt 1 lat lon S t1).dot (turningAt 1 lat lon S t2)) ≤
      2 * Real.pi * (t2 - t1) / S := by
    apply arccos_le_of_cos_le
    · have : 0 ≤ t2 - t1 := by linarith
      positivity
    · rw [div_le_iff₀ hS0]
      nlinarith
    · rw [turning_unit]
      have e : 2 * Real.pi * t2 / S - 2 * Real.pi * t1 / S = 2 * Real.pi * (t2 - t1) / S := by ring
      rw [e]
      have h3 := Real.sin_sq_add_cos_sq lat
      have h4 := Real.cos_le_one (2 * Real.pi * (t2 - t1) / S)
      have h5 : Real.sin lat ^ 2 * Real.cos (2 * Real.pi * (t2 - t1) / S) ≤ Real.sin lat ^ 2 * 1 :=
        mul_le_mul_of_nonneg_left h4 (sq_nonneg _)
      have h6 : Real.cos (2 * Real.pi * (t2 - t1) / S) =
        Real.sin lat ^ 2 * Real.cos (2 * Real.pi * (t2 - t1) / S) +
          Real.cos lat ^ 2 * Real.cos (2 * Real.pi * (t2 - t1) / S) := by
        rw [← add_mul, h3, one_mul]
      linarith
  rw [hway] at tri1
  have e : 2 * Real.pi * (t2 - t1) * (1 / P - 1 / S) = 2 * Real.pi * (t2 - t1) / P - 2 * Real.pi * (t2 - t1) / S := by
    ring
  rw [e]
  linarith

/-- The horizon of a satellite up to 10000 km is less than 67.86 degrees away, and it goes around more than four times a
day. -/
theorem horizon_10000 (altitude : ℝ) (h0 : 0 < altitude) (h1 : altitude ≤ 10000000) :
    orbitPeriodSeconds altitude ≤ 244 / 1000 * siderealDay ∧
    Real.cos (Real.pi * (377 / 1000)) < meanRadius / (meanRadius + altitude) := by
  have hpi := Real.pi_pos
  have hpi4 := Real.pi_lt_d4
  have hR := meanRadius_gt
  constructor
  · have hrate : 0.0003 < Real.sqrt (mu / (meanRadius + altitude) ^ 3) := by
      apply Real.lt_sqrt_of_sq_lt
      rw [lt_div_iff₀ (by positivity)]
      have : (meanRadius + altitude) ^ 3 ≤ (meanRadius + 10000000) ^ 3 :=
        pow_le_pow_left₀ (by linarith) (by linarith) 3
      have h2 : (0.0003 : ℝ) ^ 2 * (meanRadius + 10000000) ^ 3 < mu := by
        unfold mu meanRadius equatorialRadius polarRadius
        norm_num
      linarith
    unfold orbitPeriodSeconds
    rw [div_le_iff₀ (by linarith)]
    have : (244 / 1000 : ℝ) * siderealDay * 0.0003 ≤ 244 / 1000 * siderealDay * Real.sqrt (mu / (meanRadius + altitude) ^ 3) :=
      mul_le_mul_of_nonneg_left hrate.le (by unfold siderealDay; norm_num)
    have h3 : (244 / 1000 : ℝ) * siderealDay * 0.0003 = 6.307211424600000 := by unfold siderealDay; norm_num
    linarith
  · have e : Real.pi * (377 / 1000) = Real.pi / 2 - Real.pi * (123 / 1000) := by ring
    rw [e, Real.cos_pi_div_two_sub]
    have h2 : Real.sin (Real.pi * (123 / 1000)) < Real.pi * (123 / 1000) := Real.sin_lt (by positivity)
    have h3 : (0.3885 : ℝ) ≤ meanRadius / (meanRadius + altitude) := by
      rw [le_div_iff₀ (by linarith)]
      have : (6371000 : ℝ) < meanRadius := by unfold meanRadius equatorialRadius polarRadius; norm_num
      linarith
    linarith

/-- No pass of a satellite up to 10000 km over any place on the turning Earth, in whatever plane its circular orbit is,
takes longer than four thirds of the maximum access time (twice that is allowed). -/
theorem C112_inclined (altitude e : ℝ) (h0 : 0 < altitude) (h1 : altitude ≤ 10000000) (he0 : 0 ≤ e) (he1 : e ≤ 90)
    (u v : V3) (hu : u.dot u = 1) (hv : v.dot v = 1) (huv : u.dot v = 0) (lat lon t1 t2 : ℝ) (ht : t1 ≤ t2)
    (pass : ∀ t, t1 ≤ t → t ≤ t2 → ElevationAtLeast e
      (circularPosition (meanRadius + altitude) (orbitPeriodSeconds altitude) u v t)
      (turningAt meanRadius lat lon siderealDay t)) :
    t2 - t1 ≤ 4 / 3 * maxAccessTime altitude e := by
  have hpi := Real.pi_pos
  have hR := meanRadius_gt
  have ha : 0 < meanRadius + altitude := by linarith
  have hP := period_pos ha
  obtain ⟨hper, hhor⟩ := horizon_10000 altitude h0 h1
  have hS : 0 < siderealDay := sidereal_pos
  rw [maxAccess_eq ha]
  have hplen : ∀ t, len (turningAt meanRadius lat lon siderealDay t) = meanRadius := by
    intro t
    unfold len
    rw [turning_scale, smul_dot_smul, turning_unit]
    simp only [sub_self, Real.cos_zero, mul_one, Real.cos_sq_add_sin_sq]
    rw [← sq, Real.sqrt_sq (by linarith)]
  -- how far away the satellite is
  have hnear : ∀ t, t1 ≤ t → t ≤ t2 → ∀ b, b = Real.pi / 2 - e * Real.pi / 180 ∨ b = Real.pi * (377 / 1000) →
      Real.cos b ≤ (circularPosition 1 (orbitPeriodSeconds altitude) u v t).dot (turningAt 1 lat lon siderealDay t) := by
    intro t ht1 ht2 b hb
    have hpass := pass t ht1 ht2
    have hs : (circularPosition (meanRadius + altitude) (orbitPeriodSeconds altitude) u v t).dot
        (circularPosition (meanRadius + altitude) (orbitPeriodSeconds altitude) u v t) = (meanRadius + altitude) ^ 2 := by
      rw [circular_scale, smul_dot_smul, circular_unit hu hv huv]
      simp [sq]
    have c1 := (central_of_elevation he0 he1 (by rw [hplen]; linarith) ha hs hpass).1
    have c2 : meanRadius ^ 2 ≤ (circularPosition (meanRadius + altitude) (orbitPeriodSeconds altitude) u v t).dot
        (turningAt meanRadius lat lon siderealDay t) := by
      unfold ElevationAtLeast at hpass
      have hsin : 0 ≤ sinDeg e := Real.sin_nonneg_of_nonneg_of_le_pi (by positivity) (by nlinarith)
      have e1 : ∀ s p : V3, (sub s p).dot p = s.dot p - p.dot p := by intro s p; unfold sub V3.dot; ring
      rw [e1, ← len_sq (turningAt meanRadius lat lon siderealDay t), hplen] at hpass
      have : 0 ≤ sinDeg e * (len (sub (circularPosition (meanRadius + altitude) (orbitPeriodSeconds altitude) u v t)
          (turningAt meanRadius lat lon siderealDay t)) * meanRadius) :=
        mul_nonneg hsin (mul_nonneg (len_nonneg _) (by linarith))
      linarith
    rw [hplen, circular_scale, turning_scale, smul_dot_smul] at c1
    rw [circular_scale, turning_scale, smul_dot_smul] at c2
    have hpos : 0 < (meanRadius + altitude) * meanRadius := by positivity
    rcases hb with rfl | rfl
    · rw [Real.cos_pi_div_two_sub]
      refine le_of_mul_le_mul_left ?_ hpos
      have : sinDeg e = Real.sin (e * Real.pi / 180) := rfl
      rw [← this]
      linarith
    · refine hhor.le.trans ?_
      rw [div_le_iff₀ ha]
      have : meanRadius * meanRadius ≤ ((circularPosition 1 (orbitPeriodSeconds altitude) u v t).dot
          (turningAt 1 lat lon siderealDay t) * (meanRadius + altitude)) * meanRadius := by
        rw [sq] at c2
        linarith
      exact le_of_mul_le_mul_right this (by linarith)
  have hPS : orbitPeriodSeconds altitude ≤ siderealDay := by linarith
  have hrate : 3 / (4 * orbitPeriodSeconds altitude) ≤ 1 / orbitPeriodSeconds altitude - 1 / siderealDay := by
    rw [div_sub_div _ _ hP.ne' hS.ne', div_le_div_iff₀ (by positivity) (by positivity)]
    nlinarith
  rcases le_or_gt (t2 - t1) (orbitPeriodSeconds altitude / 2) with hshort | hlong
  · have hb0 : 0 ≤ Real.pi / 2 - e * Real.pi / 180 := by nlinarith
    have hb1 : Real.pi / 2 - e * Real.pi / 180 ≤ Real.pi := by
      have : 0 ≤ e * Real.pi / 180 := by positivity
      linarith
    have := way_le hu hv huv hP hPS lat lon ht hb0 hb1 hshort
      (hnear t1 le_rfl ht _ (Or.inl rfl)) (hnear t2 ht le_rfl _ (Or.inl rfl))
    have h2 : 2 * Real.pi * (t2 - t1) * (3 / (4 * orbitPeriodSeconds altitude)) ≤
        2 * Real.pi * (t2 - t1) * (1 / orbitPeriodSeconds altitude - 1 / siderealDay) :=
      mul_le_mul_of_nonneg_left hrate (by
        have : 0 ≤ t2 - t1 := by linarith
        positivity)
    have h3 : 2 * Real.pi * (t2 - t1) * (3 / (4 * orbitPeriodSeconds altitude)) =
        3 / 2 * (Real.pi * (t2 - t1)) / orbitPeriodSeconds altitude := by field_simp; ring
    rw [h3] at h2
    have h4 := h2.trans this
    rw [div_le_iff₀ hP] at h4
    have h5 : Real.pi * (t2 - t1) ≤ Real.pi * (4 / 3 * (orbitPeriodSeconds altitude * ((90 - e) / 180))) := by
      have e2 : Real.pi * (4 / 3 * (orbitPeriodSeconds altitude * ((90 - e) / 180))) =
        2 / 3 * (2 * (Real.pi / 2 - e * Real.pi / 180) * orbitPeriodSeconds altitude) := by ring
      rw [e2]
      linarith
    exact le_of_mul_le_mul_left h5 hpi
  · exfalso
    have := way_le hu hv huv hP hPS lat lon (t1 := t1) (t2 := t1 + orbitPeriodSeconds altitude / 2) (by linarith)
      (b := Real.pi * (377 / 1000)) (by positivity) (by linarith) (by linarith)
      (hnear t1 le_rfl ht _ (Or.inr rfl)) (hnear _ (by linarith) (by linarith) _ (Or.inr rfl))
    have e1 : 2 * Real.pi * (t1 + orbitPeriodSeconds altitude / 2 - t1) *
        (1 / orbitPeriodSeconds altitude - 1 / siderealDay) =
      Real.pi * (1 - orbitPeriodSeconds altitude / siderealDay) := by
      field_simp
      ring
    have h2 : orbitPeriodSeconds altitude / siderealDay ≤ 244 / 1000 := by
      rw [div_le_iff₀ hS]; exact hper
    rw [e1] at this
    nlinarith

/-- So no such pass of at least 3 microseconds is lost: if it rises at `r` and sets at `s` (nanoseconds), and the events are
in order and have no other set between, then the period from `r` to `s` is among the visible intervals. -/
theorem C112_kept (altitude e : ℝ) (h0 : 0 < altitude) (h1 : altitude ≤ 10000000) (he0 : 0 ≤ e) (he1 : e ≤ 90)
    (u v : V3) (hu : u.dot u = 1) (hv : v.dot v = 1) (huv : u.dot v = 0) (lat lon : ℝ) (r s : Int) (hrs : r + 3000 ≤ s)
    (pass : ∀ t : ℝ, r ≤ t * 10 ^ 9 → t * 10 ^ 9 ≤ s → ElevationAtLeast e
      (circularPosition (meanRadius + altitude) (orbitPeriodSeconds altitude) u v t)
      (turningAt meanRadius lat lon siderealDay t))
    (start end_ : Int) (events : List (Int × EventKind)) (hr : (r, EventKind.rise) ∈ events)
    (hs : (s, EventKind.set) ∈ events) (hord : events.Pairwise fun a b => a.1 ≤ b.1)
    (hnext : ∀ x ∈ events, x.2 = .set → r < x.1 → s ≤ x.1) :
    ⟨r, s⟩ ∈ visibleIntervals start end_ (accessLimit altitude e) events := by
  have hdur := C112_inclined altitude e h0 h1 he0 he1 u v hu hv huv lat lon (r / 10 ^ 9) (s / 10 ^ 9) (by
    have : (r : ℝ) ≤ s := by exact_mod_cast (by omega : r ≤ s)
    gcongr) (by
    intro t ht1 ht2
    rw [div_le_iff₀ (by norm_num)] at ht1
    rw [le_div_iff₀ (by norm_num)] at ht2
    exact pass t ht1 ht2)
  have hlim : s < r + 2 * accessLimit altitude e := by
    have hround := abs_le.1 (abs_round_sub (maxAccessTime altitude e * 1000000))
    unfold accessLimit
    generalize maxAccessTime altitude e = m at *
    generalize Num.roundHalfEven (m * 1000000) = k at *
    have h3 : (r : ℝ) + 3000 ≤ s := by exact_mod_cast hrs
    have h4 : (s : ℝ) < r + 2 * (1000 * k) := by
      rw [← sub_div, div_le_iff₀ (by norm_num)] at hdur
      linarith [hround.1]
    exact_mod_cast h4
  have hne : events ≠ [] := List.ne_nil_of_mem hr
  unfold visibleIntervals
  rw [if_neg (by rintro ⟨-, h⟩; have := h _ hr; cases this), if_pos hne]
  simp only
  apply List.mem_append_left
  apply List.mem_append_right
  rw [List.mem_filterMap]
  refine ⟨r, List.mem_map.2 ⟨(r, .rise), List.mem_filter.2 ⟨hr, by simp⟩, rfl⟩, ?_⟩
  -- the first set that matches
  have hmem : s ∈ matching (accessLimit altitude e) r ((events.filter fun e => e.2 = .set).map Prod.fst) := by
    unfold matching
    refine List.mem_filter.2 ⟨List.mem_map.2 ⟨(s, .set), List.mem_filter.2 ⟨hs, by simp⟩, rfl⟩, ?_⟩
    simp only [Bool.and_eq_true, decide_eq_true_eq]
    exact ⟨by omega, hlim⟩
  have hsort : (matching (accessLimit altitude e) r ((events.filter fun e => e.2 = .set).map Prod.fst)).Pairwise (· ≤ ·) := by
    unfold matching
    apply List.Pairwise.filter
    rw [List.pairwise_map]
    exact List.Pairwise.filter _ hord
  have hge : ∀ x ∈ matching (accessLimit altitude e) r ((events.filter fun e => e.2 = .set).map Prod.fst), s ≤ x := by
    intro x hx
    unfold matching at hx
    obtain ⟨hx1, hx2⟩ := List.mem_filter.1 hx
    obtain ⟨y, hy, rfl⟩ := List.mem_map.1 hx1
    obtain ⟨hy1, hy2⟩ := List.mem_filter.1 hy
    simp only [Bool.and_eq_true, decide_eq_true_eq] at hx2 hy2
    exact hnext y hy1 hy2 hx2.1
  generalize matching (accessLimit altitude e) r ((events.filter fun e => e.2 = .set).map Prod.fst) = l at *
  cases l with
  | nil => simp at hmem
  | cons x l =>
    have hx : x = s := by
      refine le_antisymm ?_ (hge x List.mem_cons_self)
      rcases List.mem_cons.1 hmem with h | h
      · exact h.ge
      · exact (List.pairwise_cons.1 hsort).1 s h
    rw [hx]

/-- The hypotheses hold of a satellite 500 km above a place at 45 degrees north on a polar orbit. -/
example : ∃ u v : V3, u.dot u = 1 ∧ v.dot v = 1 ∧ u.dot v = 0 ∧ ElevationAtLeast 10
    (circularPosition (meanRadius + 500000) (orbitPeriodSeconds 500000) u v 0)
    (turningAt meanRadius (Real.pi / 4) 0 siderealDay 0) := by
  have h2 : Real.cos (Real.pi / 4) ^ 2 + Real.sin (Real.pi / 4) ^ 2 = 1 := Real.cos_sq_add_sin_sq _
  refine ⟨⟨Real.cos (Real.pi / 4), 0, Real.sin (Real.pi / 4)⟩, ⟨-Real.sin (Real.pi / 4), 0, Real.cos (Real.pi / 4)⟩, ?_, ?_,
    ?_, ?_⟩
  · simp only [V3.dot]; linarith
  · simp only [V3.dot]; linarith
  · simp only [V3.dot]; ring
  · have hR := meanRadius_gt
    have e1 : circularPosition (meanRadius + 500000) (orbitPeriodSeconds 500000)
        ⟨Real.cos (Real.pi / 4), 0, Real.sin (Real.pi / 4)⟩ ⟨-Real.sin (Real.pi / 4), 0, Real.cos (Real.pi / 4)⟩ 0 =
        (turningAt 1 (Real.pi / 4) 0 siderealDay 0).smul (meanRadius + 500000) := by
      simp only [circularPosition, turningAt, V3.add, V3.smul, mul_zero, zero_div, Real.cos_zero, Real.sin_zero, mul_one,
        add_zero, one_mul, V3.mk.injEq]
      refine ⟨?_, ?_, ?_⟩ <;> simp
    rw [e1, turning_scale meanRadius]
    have hn : (turningAt 1 (Real.pi / 4) 0 siderealDay 0).dot (turningAt 1 (Real.pi / 4) 0 siderealDay 0) = 1 := by
      rw [turning_unit, sub_self, Real.cos_zero, mul_one, h2]
    generalize turningAt 1 (Real.pi / 4) 0 siderealDay 0 = n at hn
    have e2 : sub (n.smul (meanRadius + 500000)) (n.smul meanRadius) = n.smul 500000 := by
      unfold sub V3.smul
      simp only [V3.mk.injEq]
      refine ⟨?_, ?_, ?_⟩ <;> ring
    have e3 : ∀ c : ℝ, 0 ≤ c → len (n.smul c) = c := by
      intro c hc
      unfold len
      rw [smul_dot_smul, hn, mul_one, ← sq, Real.sqrt_sq hc]
    unfold ElevationAtLeast
    rw [e2, e3 _ (by norm_num), e3 _ (by linarith), smul_dot_smul, hn]
    have : sinDeg 10 ≤ 1 := Real.sin_le_one _
    nlinarith

/-- A pass of 1000 s one radius above the equator is kept, whatever comes before and after. -/
example (start end_ : Int) : ⟨-500000000000, 500000000000⟩ ∈ visibleIntervals start end_ (accessLimit meanRadius 0)
    [(-700000000000, .set), (-500000000000, .rise), (0, .culminate), (500000000000, .set), (9000000000000, .rise)] := by
  have hR := meanRadius_gt
  refine C112_kept meanRadius 0 (by linarith) (by unfold meanRadius equatorialRadius polarRadius; norm_num) le_rfl
    (by norm_num) ⟨1, 0, 0⟩ ⟨0, 1, 0⟩ (by simp [V3.dot]) (by simp [V3.dot]) (by simp [V3.dot]) 0 0 _ _ (by norm_num) ?_
    start end_ _ (by simp) (by simp) (by simp) ?_
  · intro t h1 h2
    have e : turningAt meanRadius 0 0 siderealDay t = turning meanRadius siderealDay t := by
      simp [turningAt, turning]
    rw [e]
    exact pass_example t (by push_cast at h1; linarith) (by push_cast at h2; linarith)
  · intro x hx
    simp only [List.mem_cons, List.not_mem_nil, or_false] at hx
    rcases hx with rfl | rfl | rfl | rfl | rfl <;> simp

end Tatc.Props
