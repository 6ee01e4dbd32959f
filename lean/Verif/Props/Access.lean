import Verif.Model.Geometry
import Verif.Spec.Visible
import Verif.Props.Geometry
import Verif.Props.Walker
import Mathlib.Analysis.Real.Pi.Bounds

/-!
# C48, C49 and C50: access time, period and ground velocity
-/

namespace Tatc.Props
open Tatc.Num Tatc.Geometry Tatc.Spec Tatc.Orbit
open scoped Classical

theorem mu_pos : 0 < mu := by unfold mu; norm_num

theorem meanRadius_gt : 6000000 < meanRadius := by unfold meanRadius equatorialRadius polarRadius; norm_num

theorem rate_pos {a : ℝ} (ha : 0 < a) : 0 < Real.sqrt (mu / a ^ 3) :=
  Real.sqrt_pos.mpr (div_pos mu_pos (by positivity))

theorem period_pos {h : ℝ} (ha : 0 < meanRadius + h) : 0 < orbitPeriodSeconds h :=
  div_pos (by have := Real.pi_pos; linarith) (rate_pos ha)

theorem maxAccess_eq {h : ℝ} (ha : 0 < meanRadius + h) (e : ℝ) :
    maxAccessTime h e = orbitPeriodSeconds h * ((90 - e) / 180) := by
  have hpi := Real.pi_pos
  have h1 : Real.sqrt (mu / (meanRadius + h)) = (meanRadius + h) * Real.sqrt (mu / (meanRadius + h) ^ 3) := by
    have : mu / (meanRadius + h) = (meanRadius + h) ^ 2 * (mu / (meanRadius + h) ^ 3) := by field_simp
    rw [this, Real.sqrt_mul (by positivity), Real.sqrt_sq ha.le]
  have h2 := rate_pos ha
  unfold maxAccessTime orbitPeriodSeconds radians
  simp only [h1]
  field_simp
  ring

/-! ## C48 -/

/-- C48: between nothing at the zenith and half a period at the horizon, and decreasing. -/
theorem C48_range (altitude e f : ℝ) (ha : 0 < meanRadius + altitude) (he : 0 ≤ e) (hef : e < f) (hf : f ≤ 90) :
    0 ≤ maxAccessTime altitude f ∧ maxAccessTime altitude f < maxAccessTime altitude e ∧
      maxAccessTime altitude e ≤ orbitPeriodSeconds altitude / 2 ∧
      maxAccessTime altitude 90 = 0 ∧ maxAccessTime altitude 0 = orbitPeriodSeconds altitude / 2 := by
  have hP := period_pos ha
  simp only [maxAccess_eq ha]
  refine ⟨mul_nonneg hP.le (by linarith), mul_lt_mul_of_pos_left (by linarith) hP, ?_, by ring, by ring⟩
  have := mul_le_mul_of_nonneg_left (show (90 - e) / 180 ≤ 1 / 2 by linarith) hP.le
  linarith

theorem cos_interval {x1 x2 b : ℝ} (hb0 : 0 ≤ b) (hb : b ≤ Real.pi / 2) (hx : x1 ≤ x2)
    (h : ∀ x, x1 ≤ x → x ≤ x2 → Real.cos b ≤ Real.cos x) : x2 - x1 ≤ 2 * b := by
  have hpi := Real.pi_pos
  by_contra hlen
  push Not at hlen
  -- bring `x1` into `(-π, π]`
  obtain ⟨k, hk1, hk2⟩ : ∃ k : ℤ, -Real.pi ≤ x1 - k * (2 * Real.pi) ∧ x1 - k * (2 * Real.pi) < Real.pi := by
    refine ⟨⌊(x1 + Real.pi) / (2 * Real.pi)⌋, ?_, ?_⟩
    · have := Int.floor_le ((x1 + Real.pi) / (2 * Real.pi))
      rw [le_div_iff₀ (by positivity)] at this
      linarith
    · have := Int.lt_floor_add_one ((x1 + Real.pi) / (2 * Real.pi))
      rw [div_lt_iff₀ (by positivity)] at this
      linarith
  have hcos : ∀ x, Real.cos (x - k * (2 * Real.pi)) = Real.cos x := fun x => Real.cos_sub_int_mul_two_pi x k
  set y1 := x1 - k * (2 * Real.pi) with hy1
  have h1 : Real.cos b ≤ Real.cos y1 := by rw [hcos]; exact h x1 le_rfl hx
  have habs : |y1| ≤ b := by
    by_contra hgt
    push Not at hgt
    have := Real.cos_lt_cos_of_nonneg_of_le_pi hb0 (abs_le.mpr ⟨hk1, hk2.le⟩) hgt
    rw [Real.cos_abs] at this
    linarith
  obtain ⟨hl, hu⟩ := abs_le.mp habs
  set y := min (y1 + (x2 - x1)) Real.pi with hy
  have hyb : b < y := by
    rw [hy, lt_min_iff]; constructor <;> linarith
  have hlt := Real.cos_lt_cos_of_nonneg_of_le_pi hb0 (min_le_right _ _ : y ≤ Real.pi) hyb
  have := h (y + k * (2 * Real.pi)) (by rw [hy1] at hu; linarith) (by
    have := min_le_left (y1 + (x2 - x1)) Real.pi
    rw [← hy] at this
    rw [hy1] at this
    linarith)
  rw [Real.cos_add_int_mul_two_pi] at this
  linarith

/-- Whatever the point, a satellite standing at least `e` above the horizon is at a central angle of at
most `90 - e` degrees. -/
theorem central_of_elevation {e : ℝ} (he0 : 0 ≤ e) (he1 : e ≤ 90) {s p : V3} (hp : 0 < len p) {a : ℝ} (_ha : 0 < a)
    (hs : s.dot s = a ^ 2) (hv : ElevationAtLeast e s p) : sinDeg e * (a * len p) ≤ s.dot p ∧ 0 < s.dot p := by
  have hpi := Real.pi_pos
  have hse : 0 ≤ sinDeg e := Real.sin_nonneg_of_nonneg_of_le_pi (by positivity) (by nlinarith)
  have hse1 : sinDeg e ≤ 1 := Real.sin_le_one _
  set q := s.dot p with hq
  have hpp : p.dot p = len p ^ 2 := by
    unfold len; rw [Real.sq_sqrt]; unfold V3.dot; nlinarith [sq_nonneg p.x, sq_nonneg p.y, sq_nonneg p.z]
  set r := len p with hr
  have hsub : (sub s p).dot p = q - r ^ 2 := by rw [← hpp, hq]; unfold sub V3.dot; ring
  have hd : (sub s p).dot (sub s p) = a ^ 2 - 2 * q + r ^ 2 := by
    rw [← hpp, ← hs, hq]; unfold sub V3.dot; ring
  have hD0 : 0 ≤ len (sub s p) := Real.sqrt_nonneg _
  have hD : len (sub s p) ^ 2 = a ^ 2 - 2 * q + r ^ 2 := by
    rw [← hd]; unfold len; rw [Real.sq_sqrt]; unfold V3.dot
    nlinarith [sq_nonneg (sub s p).x, sq_nonneg (sub s p).y, sq_nonneg (sub s p).z]
  unfold ElevationAtLeast at hv
  rw [hsub, ← hr] at hv
  set D := len (sub s p)
  set z := sinDeg e
  have hX : 0 ≤ q - r ^ 2 := le_trans (by positivity) hv
  have hq0 : 0 < q := by nlinarith
  refine ⟨?_, hq0⟩
  -- Cauchy–Schwarz
  have hcs : q ^ 2 ≤ a ^ 2 * r ^ 2 := by
    rw [← hs, ← hpp, hq]; unfold V3.dot
    nlinarith [sq_nonneg (s.x * p.y - s.y * p.x), sq_nonneg (s.x * p.z - s.z * p.x), sq_nonneg (s.y * p.z - s.z * p.y)]
  have hsq : z ^ 2 * ((a ^ 2 - 2 * q + r ^ 2) * r ^ 2) ≤ (q - r ^ 2) ^ 2 := by
    rw [← hD]
    calc z ^ 2 * (D ^ 2 * r ^ 2) = (z * (D * r)) ^ 2 := by ring
      _ ≤ _ := pow_le_pow_left₀ (by positivity) hv 2
  -- `(q - r²)² (1 - z²) ≥ z² (a² r² - q²)` and `q ≥ q - r² ≥ 0`
  apply le_of_sq_le_sq _ hq0.le
  have h1 : z ^ 2 * (a ^ 2 * r ^ 2 - q ^ 2) ≤ (1 - z ^ 2) * (q - r ^ 2) ^ 2 := by nlinarith
  have h2 : (q - r ^ 2) ^ 2 ≤ q ^ 2 := pow_le_pow_left₀ hX (by nlinarith [sq_nonneg r]) 2
  have h3 : (0 : ℝ) ≤ 1 - z ^ 2 := by nlinarith
  nlinarith [mul_le_mul_of_nonneg_left h2 h3]

/-- C48: no pass is longer.  A point fixed in the orbit's frame sees a satellite on a circular orbit
continuously from `t1` to `t2`, at least `e` degrees above the horizon: the time between is at most the
maximum access time. -/
theorem C48_bounds_pass (altitude e : ℝ) (ha : 0 < meanRadius + altitude) (he0 : 0 ≤ e) (he1 : e ≤ 90)
    (u v : V3) (hu : u.dot u = 1) (hv : v.dot v = 1) (huv : u.dot v = 0) (point : V3) (hp : 0 < len point)
    (t1 t2 : ℝ) (ht : t1 ≤ t2)
    (pass : ∀ t, t1 ≤ t → t ≤ t2 → ElevationAtLeast e
      (circularPosition (meanRadius + altitude) (orbitPeriodSeconds altitude) u v t) point) :
    t2 - t1 ≤ maxAccessTime altitude e := by
  have hpi := Real.pi_pos
  have hP := period_pos ha
  rw [maxAccess_eq ha]
  set P := orbitPeriodSeconds altitude
  set a := meanRadius + altitude
  -- direction of the point within the plane
  set m := u.dot point with hm
  set n := v.dot point with hn
  have hpp : point.dot point = len point ^ 2 := by
    unfold len; rw [Real.sq_sqrt]; unfold V3.dot
    nlinarith [sq_nonneg point.x, sq_nonneg point.y, sq_nonneg point.z]
  have hbessel : m ^ 2 + n ^ 2 ≤ len point ^ 2 := by
    have hsq : 0 ≤ (sub point ((u.smul m).add (v.smul n))).dot (sub point ((u.smul m).add (v.smul n))) := by
      unfold V3.dot; nlinarith [sq_nonneg (sub point ((u.smul m).add (v.smul n))).x,
        sq_nonneg (sub point ((u.smul m).add (v.smul n))).y, sq_nonneg (sub point ((u.smul m).add (v.smul n))).z]
    have hexp : (sub point ((u.smul m).add (v.smul n))).dot (sub point ((u.smul m).add (v.smul n))) =
        point.dot point - 2 * m * u.dot point - 2 * n * v.dot point + m ^ 2 * u.dot u + n ^ 2 * v.dot v +
          2 * m * n * u.dot v := by
      unfold sub V3.add V3.smul V3.dot; ring
    rw [hexp, hu, hv, huv, hpp, ← hm, ← hn] at hsq
    nlinarith
  -- polar angle of the point in the plane
  set w : ℂ := ⟨m, n⟩ with hw
  set phi := Complex.arg w
  have hmw : m = ‖w‖ * Real.cos phi := by
    rw [Complex.norm_mul_cos_arg]
  have hnw : n = ‖w‖ * Real.sin phi := by
    rw [Complex.norm_mul_sin_arg]
  have hnorm : ‖w‖ ≤ len point := by
    apply le_of_sq_le_sq _ (Real.sqrt_nonneg _)
    rw [Complex.sq_norm, Complex.normSq_apply]
    have : w.re * w.re + w.im * w.im = m ^ 2 + n ^ 2 := by rw [hw]; ring
    rw [this]; exact hbessel
  have key : ∀ t, t1 ≤ t → t ≤ t2 →
      Real.cos (Real.pi / 2 - e * Real.pi / 180) ≤ Real.cos (2 * Real.pi * t / P - phi) := by
    intro t h1 h2
    have hs : (circularPosition a P u v t).dot (circularPosition a P u v t) = a ^ 2 := by
      have : (circularPosition a P u v t).dot (circularPosition a P u v t) =
          a ^ 2 * (Real.cos (2 * Real.pi * t / P) ^ 2 * u.dot u + Real.sin (2 * Real.pi * t / P) ^ 2 * v.dot v +
            2 * Real.cos (2 * Real.pi * t / P) * Real.sin (2 * Real.pi * t / P) * u.dot v) := by
        unfold circularPosition V3.add V3.smul V3.dot; ring
      rw [this, hu, hv, huv]
      have := Real.sin_sq_add_cos_sq (2 * Real.pi * t / P)
      nlinarith
    obtain ⟨c1, c2⟩ := central_of_elevation he0 he1 hp ha hs (pass t h1 h2)
    have hdot : (circularPosition a P u v t).dot point = a * (‖w‖ * Real.cos (2 * Real.pi * t / P - phi)) := by
      have : (circularPosition a P u v t).dot point =
          a * (Real.cos (2 * Real.pi * t / P) * m + Real.sin (2 * Real.pi * t / P) * n) := by
        rw [hm, hn]; unfold circularPosition V3.add V3.smul V3.dot; ring
      rw [this, hmw, hnw, Real.cos_sub]; ring
    rw [hdot] at c1 c2
    have hc : 0 < ‖w‖ * Real.cos (2 * Real.pi * t / P - phi) := by
      rcases lt_or_ge 0 (‖w‖ * Real.cos (2 * Real.pi * t / P - phi)) with h | h
      · exact h
      · nlinarith
    have hcos : 0 < Real.cos (2 * Real.pi * t / P - phi) := by
      by_contra hneg
      push Not at hneg
      nlinarith [norm_nonneg w]
    rw [Real.cos_pi_div_two_sub]
    have h3 : sinDeg e * len point ≤ ‖w‖ * Real.cos (2 * Real.pi * t / P - phi) := by
      have : a * (sinDeg e * len point) ≤ a * (‖w‖ * Real.cos (2 * Real.pi * t / P - phi)) := by linarith
      exact le_of_mul_le_mul_left this ha
    have h4 : ‖w‖ * Real.cos (2 * Real.pi * t / P - phi) ≤ len point * Real.cos (2 * Real.pi * t / P - phi) :=
      mul_le_mul_of_nonneg_right hnorm hcos.le
    have h5 : len point * sinDeg e ≤ len point * Real.cos (2 * Real.pi * t / P - phi) := by linarith
    exact le_of_mul_le_mul_left h5 hp
  have hlen := cos_interval (x1 := 2 * Real.pi * t1 / P - phi) (x2 := 2 * Real.pi * t2 / P - phi)
    (b := Real.pi / 2 - e * Real.pi / 180) (by nlinarith) (by have : 0 ≤ e * Real.pi / 180 := by positivity
                                                              linarith)
    (by have : 2 * Real.pi * t1 / P ≤ 2 * Real.pi * t2 / P := by
          apply div_le_div_of_nonneg_right _ hP.le
          nlinarith
        linarith)
    (by
      intro x hx1 hx2
      have := key ((x + phi) * P / (2 * Real.pi)) ?_ ?_
      · rwa [show 2 * Real.pi * ((x + phi) * P / (2 * Real.pi)) / P - phi = x by field_simp; ring] at this
      · rw [le_div_iff₀ (by positivity)]
        have : 2 * Real.pi * t1 / P ≤ x + phi := by linarith
        rw [div_le_iff₀ hP] at this
        linarith
      · rw [div_le_iff₀ (by positivity)]
        have : x + phi ≤ 2 * Real.pi * t2 / P := by linarith
        rw [le_div_iff₀ hP] at this
        linarith)
  have h6 : (2 * Real.pi * (t2 - t1)) / P ≤ 2 * (Real.pi / 2 - e * Real.pi / 180) := by
    have : 2 * Real.pi * (t2 - t1) / P = 2 * Real.pi * t2 / P - phi - (2 * Real.pi * t1 / P - phi) := by ring
    rw [this]; exact hlen
  rw [div_le_iff₀ hP] at h6
  have h7 : Real.pi * (2 * (t2 - t1)) ≤ Real.pi * (2 * (P * ((90 - e) / 180))) := by nlinarith
  linarith [le_of_mul_le_mul_left h7 hpi]

/-- The hypotheses of C48 are met: a satellite overhead at the equator, seen at one instant. -/
example : ∃ u v p : V3, u.dot u = 1 ∧ v.dot v = 1 ∧ u.dot v = 0 ∧ 0 < len p ∧
    ElevationAtLeast 10 (circularPosition (meanRadius + 500000) (orbitPeriodSeconds 500000) u v 0) p := by
  refine ⟨⟨1, 0, 0⟩, ⟨0, 1, 0⟩, ⟨meanRadius, 0, 0⟩, by simp [V3.dot], by simp [V3.dot], by simp [V3.dot], ?_, ?_⟩
  · unfold len V3.dot
    have := meanRadius_gt
    apply Real.sqrt_pos.mpr
    nlinarith
  · have hR := meanRadius_gt
    have h1 : len (⟨meanRadius, 0, 0⟩ : V3) = meanRadius := by
      unfold len V3.dot
      rw [show (meanRadius * meanRadius + 0 * 0 + 0 * 0) = meanRadius ^ 2 by ring, Real.sqrt_sq (by linarith)]
    have h2 : sub (circularPosition (meanRadius + 500000) (orbitPeriodSeconds 500000) ⟨1, 0, 0⟩ ⟨0, 1, 0⟩ 0)
        ⟨meanRadius, 0, 0⟩ = ⟨500000, 0, 0⟩ := by
      simp [circularPosition, sub, V3.add, V3.smul]
    have h3 : len (⟨500000, 0, 0⟩ : V3) = 500000 := by
      unfold len V3.dot
      rw [show ((500000 : ℝ) * 500000 + 0 * 0 + 0 * 0) = 500000 ^ 2 by ring, Real.sqrt_sq (by norm_num)]
    unfold ElevationAtLeast
    rw [h2, h3, h1]
    have : sinDeg 10 ≤ 1 := Real.sin_le_one _
    simp only [V3.dot]
    nlinarith

/-! ## C49 -/

/-- C49: the period grows with altitude. -/
theorem C49_period_grows (h k : ℝ) (hh : 0 < meanRadius + h) (hk : h < k) :
    orbitPeriodSeconds h < orbitPeriodSeconds k := by
  have hpi := Real.pi_pos
  have hlt : Real.sqrt (mu / (meanRadius + k) ^ 3) < Real.sqrt (mu / (meanRadius + h) ^ 3) := by
    apply Real.sqrt_lt_sqrt (div_nonneg mu_pos.le (by have : 0 < meanRadius + k := by linarith
                                                      positivity))
    apply div_lt_div_of_pos_left mu_pos (by positivity)
    exact pow_lt_pow_left₀ (by linarith) hh.le (by norm_num)
  exact div_lt_div_of_pos_left (by linarith) (rate_pos (by linarith)) hlt

/-- C49: mean motion (revolutions per day) times period (microseconds) is one day. -/
theorem C49_mean_motion (h mm : ℝ) (hm : Orbit.meanMotion h = .ok mm) :
    mm * ((orbitPeriod h : ℝ) / 1000000) = 86400 := by
  unfold Orbit.meanMotion at hm
  simp only [bind_eq_ok, require_eq_ok, pure, Except.pure, Except.ok.injEq] at hm
  obtain ⟨_, -, _, h0, rfl⟩ := hm
  have : (orbitPeriod h : ℝ) ≠ 0 := by exact_mod_cast h0
  field_simp
  norm_num

theorem abs_round_sub (x : ℝ) : |(roundHalfEven x : ℝ) - x| ≤ 1 / 2 := by
  have h1 := Int.floor_le x
  have h2 := Int.lt_floor_add_one x
  unfold roundHalfEven
  simp only
  rw [abs_le]
  split_ifs <;> push_cast <;> constructor <;> linarith

theorem rpow_two_thirds {x : ℝ} (hx : 0 < x) : |x ^ (2 / 3 : ℝ) - 1| ≤ |x - 1| := by
  rcases le_total 1 x with h | h
  · have h1 : 1 ≤ x ^ (2 / 3 : ℝ) := Real.one_le_rpow h (by norm_num)
    have h2 : x ^ (2 / 3 : ℝ) ≤ x := by
      calc x ^ (2 / 3 : ℝ) ≤ x ^ (1 : ℝ) := Real.rpow_le_rpow_of_exponent_le h (by norm_num)
        _ = x := Real.rpow_one x
    rw [abs_of_nonneg (by linarith), abs_of_nonneg (by linarith)]; linarith
  · have h1 : x ^ (2 / 3 : ℝ) ≤ 1 := Real.rpow_le_one hx.le h (by norm_num)
    have h2 : x ≤ x ^ (2 / 3 : ℝ) := by
      calc x = x ^ (1 : ℝ) := (Real.rpow_one x).symm
        _ ≤ _ := Real.rpow_le_rpow_of_exponent_ge hx h (by norm_num)
    rw [abs_of_nonpos (by linarith), abs_of_nonpos (by linarith)]; linarith

/-- The semimajor axis from a mean motion `86400 / p`, `p` in seconds. -/
theorem semimajor_of_period {h p : ℝ} (ha : 0 < meanRadius + h) (hp : 0 < p) :
    tleSemimajorAxis (86400 / p) = (meanRadius + h) * (p / orbitPeriodSeconds h) ^ (2 / 3 : ℝ) := by
  have hpi := Real.pi_pos
  have hP := period_pos ha
  have hr := rate_pos ha
  have hsq : Real.sqrt (mu / (meanRadius + h) ^ 3) ^ 2 = mu / (meanRadius + h) ^ 3 :=
    Real.sq_sqrt (div_nonneg mu_pos.le (by positivity))
  have hmuP : mu = (meanRadius + h) ^ 3 * (2 * Real.pi / orbitPeriodSeconds h) ^ 2 := by
    have : 2 * Real.pi / orbitPeriodSeconds h = Real.sqrt (mu / (meanRadius + h) ^ 3) := by
      unfold orbitPeriodSeconds; field_simp
    rw [this, hsq]; field_simp
  have hval : mu / (86400 / p * 2 * Real.pi / 86400) ^ 2 = (meanRadius + h) ^ 3 * (p / orbitPeriodSeconds h) ^ 2 := by
    rw [hmuP]; field_simp
  unfold tleSemimajorAxis
  simp only [hval]
  rw [Real.mul_rpow (by positivity) (by positivity)]
  have hx : 0 ≤ p / orbitPeriodSeconds h := by positivity
  congr 1
  · rw [← Real.rpow_natCast, ← Real.rpow_mul ha.le]; norm_num
  · rw [← Real.rpow_natCast, ← Real.rpow_mul hx]; norm_num

/-- C49: the semimajor axis from the exact mean motion of a circular orbit is the mean radius plus altitude. -/
theorem C49_semimajor_exact (h : ℝ) (ha : 0 < meanRadius + h) :
    tleSemimajorAxis (86400 / orbitPeriodSeconds h) = meanRadius + h ∧
      tleAltitude (86400 / orbitPeriodSeconds h) = h := by
  have hP := period_pos ha
  have : tleSemimajorAxis (86400 / orbitPeriodSeconds h) = meanRadius + h := by
    rw [semimajor_of_period ha hP, div_self hP.ne', Real.one_rpow, mul_one]
  refine ⟨this, ?_⟩
  unfold tleAltitude; rw [this]; ring

/-- C49: the mean motion a circular orbit reports comes from a period rounded to microseconds; the semimajor
axis and altitude recovered from it are right to within a millimetre. -/
theorem C49_semimajor (h mm : ℝ) (h0 : 0 ≤ h) (hm : Orbit.meanMotion h = .ok mm) :
    |tleSemimajorAxis mm - (meanRadius + h)| ≤ 1 / 1000 ∧ |tleAltitude mm - h| ≤ 1 / 1000 := by
  have hR := meanRadius_gt
  have ha : 0 < meanRadius + h := by linarith
  have hP := period_pos ha
  obtain ⟨mm', hm', hmpos⟩ := meanMotion_ok h h0
  rw [hm] at hm'
  obtain rfl : mm = mm' := by injection hm'
  have h1 := C49_mean_motion h mm hm
  set p := (orbitPeriod h : ℝ) / 1000000 with hp
  have hppos : 0 < p := by
    by_contra hneg
    push Not at hneg
    nlinarith
  have hmm : mm = 86400 / p := by field_simp; linarith
  have hround := abs_round_sub (orbitPeriodSeconds h * 1000000)
  have hclose : |p - orbitPeriodSeconds h| ≤ 1 / 2000000 := by
    have : p - orbitPeriodSeconds h =
        ((roundHalfEven (orbitPeriodSeconds h * 1000000) : ℝ) - orbitPeriodSeconds h * 1000000) / 1000000 := by
      rw [hp]; unfold orbitPeriod; ring
    rw [this, abs_div, abs_of_pos (by norm_num : (0 : ℝ) < 1000000)]
    linarith
  have hspeed : (meanRadius + h) / orbitPeriodSeconds h ≤ 2000 := by
    have hpi := Real.pi_gt_three
    have hr := rate_pos ha
    have : (meanRadius + h) / orbitPeriodSeconds h =
        (meanRadius + h) * Real.sqrt (mu / (meanRadius + h) ^ 3) / (2 * Real.pi) := by
      unfold orbitPeriodSeconds; field_simp
    rw [this, div_le_iff₀ (by linarith)]
    have hs : (meanRadius + h) * Real.sqrt (mu / (meanRadius + h) ^ 3) ≤ 12000 := by
      have : (meanRadius + h) * Real.sqrt (mu / (meanRadius + h) ^ 3) = Real.sqrt (mu / (meanRadius + h)) := by
        have : mu / (meanRadius + h) = (meanRadius + h) ^ 2 * (mu / (meanRadius + h) ^ 3) := by field_simp
        rw [this, Real.sqrt_mul (by positivity), Real.sqrt_sq ha.le]
      rw [this, Real.sqrt_le_left (by norm_num), div_le_iff₀ ha]
      unfold mu
      nlinarith
    nlinarith
  have hmain : |tleSemimajorAxis mm - (meanRadius + h)| ≤ 1 / 1000 := by
    rw [hmm, semimajor_of_period ha hppos]
    have hx : 0 < p / orbitPeriodSeconds h := by positivity
    have h2 := rpow_two_thirds hx
    have h3 : (meanRadius + h) * (p / orbitPeriodSeconds h) ^ (2 / 3 : ℝ) - (meanRadius + h) =
        (meanRadius + h) * ((p / orbitPeriodSeconds h) ^ (2 / 3 : ℝ) - 1) := by ring
    rw [h3, abs_mul, abs_of_pos ha]
    have h4 : |p / orbitPeriodSeconds h - 1| = |p - orbitPeriodSeconds h| / orbitPeriodSeconds h := by
      rw [show p / orbitPeriodSeconds h - 1 = (p - orbitPeriodSeconds h) / orbitPeriodSeconds h by field_simp,
        abs_div, abs_of_pos hP]
    calc (meanRadius + h) * |(p / orbitPeriodSeconds h) ^ (2 / 3 : ℝ) - 1|
        ≤ (meanRadius + h) * |p / orbitPeriodSeconds h - 1| := mul_le_mul_of_nonneg_left h2 ha.le
      _ = (meanRadius + h) / orbitPeriodSeconds h * |p - orbitPeriodSeconds h| := by rw [h4]; ring
      _ ≤ 2000 * (1 / 2000000) := mul_le_mul hspeed hclose (abs_nonneg _) (by norm_num)
      _ = 1 / 1000 := by norm_num
  refine ⟨hmain, ?_⟩
  have : tleAltitude mm - h = tleSemimajorAxis mm - (meanRadius + h) := by unfold tleAltitude; ring
  rw [this]; exact hmain

/-- The hypotheses of C49 are met at every altitude above the surface. -/
example : ∃ mm, Orbit.meanMotion 500000 = .ok mm := by
  obtain ⟨mm, h, _⟩ := meanMotion_ok 500000 (by norm_num)
  exact ⟨mm, h⟩

/-! ## C50 -/

theorem sidereal_pos : 0 < siderealDay := by unfold siderealDay; norm_num

/-- Orbits of less than a sidereal day always gain on the ground. -/
theorem groundVelocity_pos (h i : ℝ) (ha : 0 < meanRadius + h) (hP : orbitPeriodSeconds h < siderealDay) :
    0 < groundVelocity h i := by
  have hpi := Real.pi_pos
  have hR := meanRadius_gt
  have hPpos := period_pos ha
  have hS := sidereal_pos
  have hn : Real.sqrt (mu / (meanRadius + h) ^ 3) = 2 * Real.pi / orbitPeriodSeconds h := by
    have := rate_pos ha
    unfold orbitPeriodSeconds; field_simp
  unfold groundVelocity
  simp only [hn]
  apply mul_pos (by linarith)
  have h1 : 2 * Real.pi * Real.cos (degrees i) / siderealDay ≤ 2 * Real.pi / siderealDay := by
    apply div_le_div_of_nonneg_right _ hS.le
    nlinarith [Real.cos_le_one (degrees i)]
  have h2 : 2 * Real.pi / siderealDay < 2 * Real.pi / orbitPeriodSeconds h :=
    div_lt_div_of_pos_left (by linarith) hPpos hP
  linarith

/-- C50, round trips, for all orbits of less than a sidereal day (`_partial`: for higher orbits the ground
velocity may vanish, and then the code divides by zero), and what they mean: distance is ground velocity times
time. -/
theorem C50_round_trip_partial (h i : ℝ) (ha : 0 < meanRadius + h) (hP : orbitPeriodSeconds h < siderealDay) (x : ℝ) :
    alongTrackToAccess h i (accessToAlongTrack h i x) = x ∧ accessToAlongTrack h i (alongTrackToAccess h i x) = x ∧
      accessToAlongTrack h i x = groundVelocity h i * x := by
  have hv := groundVelocity_pos h i ha hP
  have h1 : accessToAlongTrack h i x = groundVelocity h i * x := rfl
  have h2 : ∀ y, alongTrackToAccess h i y = y / groundVelocity h i := fun y => rfl
  refine ⟨by rw [h1, h2]; field_simp, ?_, h1⟩
  show groundVelocity h i * alongTrackToAccess h i x = x
  rw [h2]; field_simp

/-- C50: the ground velocity of a polar orbit has a component of the Earth's rotation: the inclination is
converted from radians to degrees although it is in degrees already. -/
theorem C50_polar_false (h : ℝ) : groundVelocity h 90 ≠ meanRadius * Real.sqrt (mu / (meanRadius + h) ^ 3) := by
  have hpi := Real.pi_pos
  have hR := meanRadius_gt
  have hS := sidereal_pos
  intro heq
  unfold groundVelocity at heq
  simp only at heq
  have h1 : 2 * Real.pi * Real.cos (degrees 90) / siderealDay = 0 := by
    have := mul_left_cancel₀ (by linarith : meanRadius ≠ 0) heq
    linarith
  rw [div_eq_zero_iff, or_iff_left hS.ne', mul_eq_zero, or_iff_right (by linarith)] at h1
  rw [Real.cos_eq_zero_iff] at h1
  obtain ⟨k, hk⟩ := h1
  unfold degrees at hk
  have h2 : (32400 : ℝ) = (2 * k + 1) * Real.pi ^ 2 := by
    field_simp at hk
    linarith
  have hlo := Real.pi_gt_d6
  have hhi := Real.pi_lt_d6
  have hsq1 : (3.141592 : ℝ) ^ 2 < Real.pi ^ 2 := pow_lt_pow_left₀ hlo (by norm_num) (by norm_num)
  have hsq2 : Real.pi ^ 2 < (3.141593 : ℝ) ^ 2 := pow_lt_pow_left₀ hhi hpi.le (by norm_num)
  rcases le_or_gt (2 * k + 1) 3282 with hle | hgt
  · have hle' : 2 * k + 1 ≤ 3281 := by omega
    have : ((2 * k + 1 : ℤ) : ℝ) ≤ 3281 := by exact_mod_cast hle'
    push_cast at this
    nlinarith
  · have : (3283 : ℝ) ≤ ((2 * k + 1 : ℤ) : ℝ) := by exact_mod_cast hgt
    push_cast at this
    nlinarith

/-- C50: ground velocity decreases from an inclination of `π²/180` to one of `2π²/180` degrees (about 0.05
and 0.11), from its largest to its smallest value. -/
theorem C50_monotone_false (h : ℝ) : ∃ i j : ℝ, 0 ≤ i ∧ i < j ∧ j ≤ 180 ∧ groundVelocity h j < groundVelocity h i := by
  have hpi := Real.pi_pos
  have hlt := Real.pi_lt_d2
  have hR := meanRadius_gt
  have hS := sidereal_pos
  refine ⟨Real.pi ^ 2 / 180, 2 * Real.pi ^ 2 / 180, by positivity, ?_, ?_, ?_⟩
  · have : 0 < Real.pi ^ 2 := by positivity
    linarith
  · nlinarith
  · have d1 : degrees (Real.pi ^ 2 / 180) = Real.pi := by unfold degrees; field_simp
    have d2 : degrees (2 * Real.pi ^ 2 / 180) = 2 * Real.pi := by unfold degrees; field_simp
    unfold groundVelocity
    simp only [d1, d2, Real.cos_pi, Real.cos_two_pi]
    apply mul_lt_mul_of_pos_left _ (by linarith)
    have : 0 < 2 * Real.pi / siderealDay := by positivity
    have e1 : 2 * Real.pi * 1 / siderealDay = 2 * Real.pi / siderealDay := by ring
    have e2 : 2 * Real.pi * -1 / siderealDay = -(2 * Real.pi / siderealDay) := by ring
    rw [e1, e2]
    linarith

end Tatc.Props
