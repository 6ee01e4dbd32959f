import Verif.Props.Convert

/-!
# C91 to C93: period and altitude of an orbit and of its element set; the search for a repeat cycle
-/

namespace Tatc.Props
open Tatc.Orbit Tatc.Num Tatc.Spec Tatc.Tle Tatc.Text Tatc.Geometry

/-! ## C91 -/

/-- The speed of an orbit above the surface, divided by two pi, is at most two kilometres per second. -/
theorem speed_le (h : ℝ) (h0 : 0 ≤ h) : (meanRadius + h) / orbitPeriodSeconds h ≤ 2000 := by
  have hR := meanRadius_gt
  have ha : 0 < meanRadius + h := by linarith
  have hpi := Real.pi_gt_three
  have hr := rate_pos ha
  have : (meanRadius + h) / orbitPeriodSeconds h =
      (meanRadius + h) * Real.sqrt (mu / (meanRadius + h) ^ 3) / (2 * Real.pi) := by
    unfold orbitPeriodSeconds; field_simp
  rw [this, div_le_iff₀ (by linarith)]
  have hs : (meanRadius + h) * Real.sqrt (mu / (meanRadius + h) ^ 3) ≤ 12000 := by
    have : (meanRadius + h) * Real.sqrt (mu / (meanRadius + h) ^ 3) = Real.sqrt (mu / (meanRadius + h)) := by
      have : mu / (meanRadius + h) = (meanRadius + h) ^ 2 * (mu / (meanRadius + h) ^ 3) := by field_simp
      rw [this, Real.sqrt_mul (by positivity), Real.sqrt_sq ha.le]
    rw [this, Real.sqrt_le_left (by norm_num), div_le_iff₀ ha]
    unfold mu
    nlinarith
  nlinarith

/-- Up to 36000 km an orbit takes at most 87000 seconds. -/
theorem period_le (h : ℝ) (h0 : 0 ≤ h) (h1 : h ≤ 36000000) : orbitPeriodSeconds h ≤ 87000 := by
  have hR := meanRadius_gt
  have hR' : meanRadius ≤ 6371009 := by unfold meanRadius equatorialRadius polarRadius; norm_num
  have ha : 0 < meanRadius + h := by linarith
  have hr := rate_pos ha
  have hpi := Real.pi_lt_d4
  unfold orbitPeriodSeconds
  simp only
  rw [div_le_iff₀ hr]
  have hlow : 7.2223e-5 ≤ Real.sqrt (mu / (meanRadius + h) ^ 3) := by
    rw [Real.le_sqrt (by norm_num) (div_nonneg mu_pos.le (by positivity)), le_div_iff₀ (by positivity)]
    have : (meanRadius + h) ^ 3 ≤ (42371009 : ℝ) ^ 3 := pow_le_pow_left₀ ha.le (by linarith) 3
    unfold mu
    nlinarith
  nlinarith

/-- An orbit's own mean motion up to 36000 km is at least 0.99 revolutions per day. -/
theorem meanMotion_ge (h mm : ℝ) (h0 : 0 ≤ h) (h1 : h ≤ 36000000) (hm : Orbit.meanMotion h = .ok mm) :
    0.99 ≤ mm := by
  have hmul := C49_mean_motion h mm hm
  have hround := (abs_le.mp (abs_round_sub (orbitPeriodSeconds h * 1000000))).2
  have hP := period_le h h0 h1
  have hpos : 0 < mm := by
    obtain ⟨m', h', hp⟩ := meanMotion_ok h h0
    rw [hm] at h'; injection h' with h'; rw [h']; exact hp
  have hper : (orbitPeriod h : ℝ) / 1000000 ≤ 87001 := by
    rw [div_le_iff₀ (by norm_num)]
    show (roundHalfEven (orbitPeriodSeconds h * 1000000) : ℝ) ≤ _
    linarith
  by_contra hcon
  push Not at hcon
  nlinarith

/-- A mean motion read to half of a hundred-millionth of a revolution per day gives the period to half a
millisecond and the altitude to a metre. -/
theorem read_motion (h mm : ℝ) (h0 : 0 ≤ h) (h1 : h ≤ 36000000) (hm : Orbit.meanMotion h = .ok mm) (q : ℝ)
    (hq : |q - mm| ≤ 1 / 200000000) :
    |tleAltitude q - h| ≤ 1 ∧ ∃ p, tleOrbitPeriod q = .ok p ∧ |p - orbitPeriod h| ≤ 500 := by
  have hR := meanRadius_gt
  have ha : 0 < meanRadius + h := by linarith
  have hP := period_pos ha
  have hmm := meanMotion_ge h mm h0 h1 hm
  have hmul := C49_mean_motion h mm hm
  obtain ⟨hq1, hq2⟩ := abs_le.mp hq
  have hqpos : 0.98 ≤ q := by norm_num at hq1 hq2 ⊢; linarith
  have hq0 : 0 < q := by linarith
  have hm0 : 0 < mm := by linarith
  set p := (orbitPeriod h : ℝ) / 1000000 with hp
  have hpval : p = 86400 / mm := by field_simp; linarith
  have hdiff : |86400 / q - p| ≤ 4.5e-4 := by
    rw [hpval, div_sub_div _ _ hq0.ne' hm0.ne', abs_div, abs_of_pos (mul_pos hq0 hm0), div_le_iff₀ (mul_pos hq0 hm0)]
    have h2 : 86400 * mm - q * 86400 = 86400 * (mm - q) := by ring
    rw [h2, abs_mul, abs_sub_comm]
    have h3 : (0.98 : ℝ) * 0.99 ≤ q * mm := mul_le_mul hqpos hmm (by norm_num) hq0.le
    rw [abs_of_pos (by norm_num : (0 : ℝ) < 86400)]
    norm_num at hq h3 ⊢
    linarith
  have hround := abs_round_sub (orbitPeriodSeconds h * 1000000)
  have hclose : |p - orbitPeriodSeconds h| ≤ 1 / 2000000 := by
    have : p - orbitPeriodSeconds h =
        ((roundHalfEven (orbitPeriodSeconds h * 1000000) : ℝ) - orbitPeriodSeconds h * 1000000) / 1000000 := by
      rw [hp]; unfold orbitPeriod; ring
    rw [this, abs_div, abs_of_pos (by norm_num : (0 : ℝ) < 1000000)]
    linarith
  constructor
  · have hp' : 0 < 86400 / q := by positivity
    have hqq : q = 86400 / (86400 / q) := by field_simp
    have hs := semimajor_of_period ha hp'
    rw [← hqq] at hs
    have hx : 0 < 86400 / q / orbitPeriodSeconds h := by positivity
    have h2 := rpow_two_thirds hx
    have h3 : tleAltitude q - h = (meanRadius + h) * ((86400 / q / orbitPeriodSeconds h) ^ (2 / 3 : ℝ) - 1) := by
      unfold tleAltitude; rw [hs]; ring
    rw [h3, abs_mul, abs_of_pos ha]
    have h4 : |86400 / q / orbitPeriodSeconds h - 1| = |86400 / q - orbitPeriodSeconds h| / orbitPeriodSeconds h := by
      rw [show 86400 / q / orbitPeriodSeconds h - 1 = (86400 / q - orbitPeriodSeconds h) / orbitPeriodSeconds h by
        field_simp, abs_div, abs_of_pos hP]
    have h5 : |86400 / q - orbitPeriodSeconds h| ≤ 4.6e-4 := by
      have := abs_sub_le (86400 / q) p (orbitPeriodSeconds h)
      norm_num at hdiff hclose ⊢
      linarith
    calc (meanRadius + h) * |(86400 / q / orbitPeriodSeconds h) ^ (2 / 3 : ℝ) - 1|
        ≤ (meanRadius + h) * |86400 / q / orbitPeriodSeconds h - 1| := mul_le_mul_of_nonneg_left h2 ha.le
      _ = (meanRadius + h) / orbitPeriodSeconds h * |86400 / q - orbitPeriodSeconds h| := by rw [h4]; ring
      _ ≤ 2000 * 4.6e-4 := mul_le_mul (speed_le h h0) h5 (abs_nonneg _) (by norm_num)
      _ ≤ 1 := by norm_num
  · refine ⟨roundHalfEven (1 / q * 86400000000), ?_, ?_⟩
    · unfold tleOrbitPeriod
      simp only [bind_eq_ok, require_eq_ok, pure, Except.pure]
      exact ⟨(), hq0.ne', trivial⟩
    · have hr := abs_round_sub (1 / q * 86400000000)
      have h6 : (1 / q * 86400000000 : ℝ) = 86400 / q * 1000000 := by field_simp; norm_num
      have h7 : (orbitPeriod h : ℝ) = p * 1000000 := by rw [hp]; field_simp
      have h8 : |(roundHalfEven (1 / q * 86400000000) : ℝ) - orbitPeriod h| ≤ 500 := by
        have hab := abs_sub_le (roundHalfEven (1 / q * 86400000000) : ℝ) (1 / q * 86400000000) (orbitPeriod h)
        have h9 : |1 / q * 86400000000 - (orbitPeriod h : ℝ)| ≤ 450 := by
          rw [h6, h7, ← sub_mul, abs_mul, abs_of_pos (by norm_num : (0 : ℝ) < 1000000)]
          norm_num at hdiff ⊢
          linarith
        linarith
      exact_mod_cast h8

/-- C91 for circular orbits up to 36000 km: the element set reports the orbit's altitude to a metre and
its period to half a millisecond. -/
theorem C91_circular {ex : Satrec → Line × Line} {epoch : Line → Line → Except PyErr Int}
    (hx : Exporter ex epoch) (o : Circular) (hv : Circular.Valid o) (ha : 0 ≤ o.altitude)
    (ha1 : o.altitude ≤ 36000000) (ht : TwoDigitYear o.epoch) :
    ∃ l1 l2 q p, o.toTle ex epoch = .ok [l1, l2] ∧ getMeanMotion l2 = .ok q ∧
      |tleAltitude q - o.altitude| ≤ 1 ∧ tleOrbitPeriod q = .ok p ∧ |p - orbitPeriod o.altitude| ≤ 500 := by
  obtain ⟨l1, l2, mm, h1, h2, h3⟩ := C90_circular hx o hv ha ht
  obtain ⟨q, hq, hqm⟩ := h3.meanMotion
  obtain ⟨h4, p, h5, h6⟩ := read_motion o.altitude mm ha ha1 h2 q hqm
  exact ⟨l1, l2, q, p, h1, hq, h4, h5, h6⟩

/-- C91 for sun-synchronous orbits (all of them are lower). -/
theorem C91_sun_synchronous {ex : Satrec → Line × Line} {epoch : Line → Line → Except PyErr Int}
    (hx : Exporter ex epoch) (sun : Int → ℝ) (o : Sso) (hv : Sso.Valid o) (ht : TwoDigitYear o.epoch) :
    ∃ l1 l2 q p, o.toTle ex epoch sun = .ok [l1, l2] ∧ getMeanMotion l2 = .ok q ∧
      |tleAltitude q - o.altitude| ≤ 1 ∧ tleOrbitPeriod q = .ok p ∧ |p - orbitPeriod o.altitude| ≤ 500 := by
  obtain ⟨l1, l2, mm, h1, h2, h3⟩ := C90_sun_synchronous hx sun o hv ht
  obtain ⟨q, hq, hqm⟩ := h3.meanMotion
  have hR := meanRadius_gt
  obtain ⟨h4, p, h5, h6⟩ := read_motion o.altitude mm hv.2.1 (by linarith [hv.2.2]) h2 q hqm
  exact ⟨l1, l2, q, p, h1, hq, h4, h5, h6⟩

/-- C91 for Keplerian orbits (eccentricities up to 3/4). -/
theorem C91_keplerian_partial {ex : Satrec → Line × Line} {epoch : Line → Line → Except PyErr Int}
    (hx : Exporter ex epoch) (o : Keplerian) (hv : Keplerian.Valid o) (he : o.eccentricity ≤ 3 / 4)
    (ha : 0 ≤ o.altitude) (ha1 : o.altitude ≤ 36000000) (ht : TwoDigitYear o.epoch) :
    ∃ l1 l2 q p, o.toTle ex epoch = .ok [l1, l2] ∧ getMeanMotion l2 = .ok q ∧
      |tleAltitude q - o.altitude| ≤ 1 ∧ tleOrbitPeriod q = .ok p ∧ |p - orbitPeriod o.altitude| ≤ 500 := by
  obtain ⟨l1, l2, mm, h1, h2, h3⟩ := C90_keplerian_partial hx o hv he ha ht
  obtain ⟨q, hq, hqm⟩ := h3.meanMotion
  obtain ⟨h4, p, h5, h6⟩ := read_motion o.altitude mm ha ha1 h2 q hqm
  exact ⟨l1, l2, q, p, h1, hq, h4, h5, h6⟩

/-- A Molniya orbit with the default period, 500 km above the surface at perigee. -/
def defaultMolniya : Molniya := ⟨500000, 0, 0, 63.4, 0, 43080, 270⟩

theorem defaultMolniya_valid : Molniya.Valid defaultMolniya := by
  refine ⟨⟨?_, ?_⟩, ⟨?_, ?_⟩, ⟨?_, ?_⟩, ?_, ?_, ?_⟩ <;> norm_num [defaultMolniya]

/-- The semimajor axis of an orbit with period `p`, cubed. -/
theorem semimajor_cubed (p : ℝ) :
    ((6.6743e-11 * 5.9736e24 * p ^ 2 / (4 * Real.pi ^ 2)) ^ (1 / 3 : ℝ)) ^ 3 =
      6.6743e-11 * 5.9736e24 * p ^ 2 / (4 * Real.pi ^ 2) := by
  have : 0 ≤ 6.6743e-11 * 5.9736e24 * p ^ 2 / (4 * Real.pi ^ 2) := by
    have := Real.pi_pos
    positivity
  rw [← Real.rpow_natCast, ← Real.rpow_mul this]
  norm_num

theorem semimajor_pos {p : ℝ} (hp : 0 < p) :
    0 < (6.6743e-11 * 5.9736e24 * p ^ 2 / (4 * Real.pi ^ 2)) ^ (1 / 3 : ℝ) := by
  have := Real.pi_pos
  apply Real.rpow_pos_of_pos
  positivity

theorem defaultMolniya_eccentricity : 0.7 ≤ defaultMolniya.eccentricity ∧ defaultMolniya.eccentricity ≤ 3 / 4 := by
  have hpi1 := Real.pi_gt_d2
  have hpi2 := Real.pi_lt_d2
  have hcube : defaultMolniya.semimajorAxis ^ 3 = _ := semimajor_cubed 43080
  have hpos : 0 < defaultMolniya.semimajorAxis := semimajor_pos (by norm_num [defaultMolniya])
  have hb1 : 6.6743e-11 * 5.9736e24 * (43080 : ℝ) ^ 2 / (4 * Real.pi ^ 2) ≤ (27500000 : ℝ) ^ 3 := by
    rw [div_le_iff₀ (by positivity)]
    nlinarith
  have hb2 : (23000000 : ℝ) ^ 3 ≤ 6.6743e-11 * 5.9736e24 * (43080 : ℝ) ^ 2 / (4 * Real.pi ^ 2) := by
    rw [le_div_iff₀ (by positivity)]
    nlinarith
  have h1 : defaultMolniya.semimajorAxis ≤ 27500000 := by
    by_contra hcon
    push Not at hcon
    have := pow_lt_pow_left₀ hcon (by norm_num) (n := 3) (by norm_num)
    linarith
  have h2 : 23000000 ≤ defaultMolniya.semimajorAxis := by
    by_contra hcon
    push Not at hcon
    have := pow_lt_pow_left₀ hcon hpos.le (n := 3) (by norm_num)
    linarith
  unfold Molniya.eccentricity
  constructor
  · rw [le_div_iff₀ hpos]; unfold equatorialRadius defaultMolniya at *; norm_num at *; linarith
  · rw [div_le_iff₀ hpos]; unfold equatorialRadius defaultMolniya at *; norm_num at *; linarith

/-- C91 is false of Molniya orbits: the orbit reports the mean motion of a circular orbit at the altitude of
perigee, about 15 revolutions per day, and its element set about 2. -/
theorem C91_molniya_false {ex : Satrec → Line × Line} {epoch : Line → Line → Except PyErr Int}
    (hx : Exporter ex epoch) :
    ∃ (o : Molniya) (own : ℝ) (q : ℚ) (l1 l2 : Line), Molniya.Valid o ∧ o.meanMotion = .ok own ∧
      o.toTle ex epoch = .ok [l1, l2] ∧ getMeanMotion l2 = .ok q ∧ 14 < own ∧ q < 3 ∧
      (o.orbitPeriod : ℝ) < 43080 * 1000000 / 7 := by
  obtain ⟨he0, he1⟩ := defaultMolniya_eccentricity
  have hy : TwoDigitYear defaultMolniya.epoch := ⟨by norm_num [defaultMolniya], by norm_num [defaultMolniya]⟩
  obtain ⟨l1, l2, h1, h2⟩ := C90_molniya_partial hx defaultMolniya defaultMolniya_valid (by linarith) he1
    (by norm_num [defaultMolniya]) hy
  obtain ⟨q, hq, hqm⟩ := h2.meanMotion
  obtain ⟨own, hown, hpos⟩ := meanMotion_ok 500000 (by norm_num)
  have hmul := C49_mean_motion 500000 own hown
  have hR := meanRadius_gt
  have hR' : meanRadius ≤ 6371009 := by unfold meanRadius equatorialRadius polarRadius; norm_num
  have ha : 0 < meanRadius + 500000 := by linarith
  have hr := rate_pos ha
  have hpi := Real.pi_lt_d4
  have hP : orbitPeriodSeconds 500000 ≤ 6000 := by
    unfold orbitPeriodSeconds
    simp only
    rw [div_le_iff₀ hr]
    have hlow : 1.05e-3 ≤ Real.sqrt (mu / (meanRadius + 500000) ^ 3) := by
      rw [Real.le_sqrt (by norm_num) (div_nonneg mu_pos.le (by positivity)), le_div_iff₀ (by positivity)]
      have : (meanRadius + 500000) ^ 3 ≤ (6871009 : ℝ) ^ 3 := pow_le_pow_left₀ ha.le (by linarith) 3
      unfold mu
      nlinarith
    nlinarith
  have hround := (abs_le.mp (abs_round_sub (orbitPeriodSeconds 500000 * 1000000))).2
  have hper : (orbitPeriod 500000 : ℝ) ≤ 6001 * 1000000 := by
    show (roundHalfEven (orbitPeriodSeconds 500000 * 1000000) : ℝ) ≤ _
    linarith
  refine ⟨defaultMolniya, own, q, l1, l2, defaultMolniya_valid, hown, h1, hq, ?_, ?_, ?_⟩
  · have : (orbitPeriod 500000 : ℝ) / 1000000 ≤ 6001 := by rw [div_le_iff₀ (by norm_num)]; linarith
    by_contra hcon
    push Not at hcon
    nlinarith
  · have hval : (86400 : ℝ) / defaultMolniya.period ≤ 2.1 := by norm_num [defaultMolniya]
    have := (abs_le.mp hqm).2
    have h3 : (q : ℝ) < 3 := by norm_num at this hval; linarith
    exact_mod_cast h3
  · show (orbitPeriod 500000 : ℝ) < _
    norm_num at hper ⊢
    linarith

/-! ## C92 -/

/-- C92: the perigee of a Molniya orbit is at the given altitude above the equatorial radius, and its
semimajor axis is that of its period (Kepler's third law with the constants of the class). -/
theorem C92_molniya (o : Molniya) (hv : Molniya.Valid o) :
    o.semimajorAxis * (1 - o.eccentricity) = equatorialRadius + o.altitude ∧
      o.semimajorAxis ^ 3 * (2 * Real.pi / o.period) ^ 2 = 6.6743e-11 * 5.9736e24 := by
  have hpos : 0 < o.semimajorAxis := semimajor_pos hv.2.2.2.1
  have hp := hv.2.2.2.1
  have hpi := Real.pi_pos
  constructor
  · unfold Molniya.eccentricity
    field_simp
    ring
  · have hc : o.semimajorAxis ^ 3 = _ := semimajor_cubed o.period
    rw [hc]
    field_simp
    norm_num

/-- C92 is false of Tundra orbits: the altitude has no effect on the element set, and the perigee of the
default orbit is more than 20000 km from the altitude asked for. -/
theorem C92_tundra_false :
    (∀ (ex : Satrec → Line × Line) (epoch : Line → Line → Except PyErr Int) (o : Tundra) (h : ℝ),
      Tundra.toTle ex epoch { o with altitude := h } = o.toTle ex epoch) ∧
    ∃ o : Tundra, Tundra.Valid o ∧ o.altitude = 500000 ∧
      equatorialRadius + o.altitude + 20000000 < o.semimajorAxis * (1 - o.eccentricity) := by
  refine ⟨fun ex epoch o h => rfl, ⟨500000, 0, 0, 63.4, 0, 86400, 270, 0.2⟩, ?_, rfl, ?_⟩
  · refine ⟨⟨?_, ?_⟩, ⟨?_, ?_⟩, ⟨?_, ?_⟩, ?_, ⟨?_, ?_⟩, ?_⟩ <;> norm_num
  · have hpi2 := Real.pi_lt_d2
    have hpi1 := Real.pi_gt_d2
    have hcube : Tundra.semimajorAxis ⟨500000, 0, 0, 63.4, 0, 86400, 270, 0.2⟩ ^ 3 = _ := semimajor_cubed 86400
    have hpos : 0 < Tundra.semimajorAxis ⟨500000, 0, 0, 63.4, 0, 86400, 270, 0.2⟩ := semimajor_pos (by norm_num)
    have hb2 : (40000000 : ℝ) ^ 3 ≤ 6.6743e-11 * 5.9736e24 * (86400 : ℝ) ^ 2 / (4 * Real.pi ^ 2) := by
      rw [le_div_iff₀ (by positivity)]
      nlinarith
    have h2 : 40000000 ≤ Tundra.semimajorAxis ⟨500000, 0, 0, 63.4, 0, 86400, 270, 0.2⟩ := by
      by_contra hcon
      push Not at hcon
      have := pow_lt_pow_left₀ hcon hpos.le (n := 3) (by norm_num)
      linarith
    unfold equatorialRadius
    norm_num
    linarith

/-- C92 is false of high or low Molniya orbits: the schema accepts an altitude of perigee above the
semimajor axis, and one below the centre of the Earth; the eccentricity is then negative or above one. -/
theorem C92_eccentricity_false :
    (∃ o : Molniya, Molniya.Valid o ∧ o.eccentricity < 0) ∧ ∃ o : Molniya, Molniya.Valid o ∧ 1 < o.eccentricity := by
  have hpi2 := Real.pi_lt_d2
  have hpi1 := Real.pi_gt_d2
  have hval : ∀ h : ℝ, Molniya.Valid ⟨h, 0, 0, 63.4, 0, 43080, 270⟩ := by
    intro h
    refine ⟨⟨?_, ?_⟩, ⟨?_, ?_⟩, ⟨?_, ?_⟩, ?_, ?_, ?_⟩ <;> norm_num
  have hcube := semimajor_cubed 43080
  have hpos := semimajor_pos (p := 43080) (by norm_num)
  have hb1 : 6.6743e-11 * 5.9736e24 * (43080 : ℝ) ^ 2 / (4 * Real.pi ^ 2) ≤ (27500000 : ℝ) ^ 3 := by
    rw [div_le_iff₀ (by positivity)]
    nlinarith
  have h1 : (6.6743e-11 * 5.9736e24 * (43080 : ℝ) ^ 2 / (4 * Real.pi ^ 2)) ^ (1 / 3 : ℝ) ≤ 27500000 := by
    by_contra hcon
    push Not at hcon
    have := pow_lt_pow_left₀ hcon (by norm_num) (n := 3) (by norm_num)
    linarith
  refine ⟨⟨_, hval 30000000, ?_⟩, ⟨_, hval (-7000000), ?_⟩⟩
  · unfold Molniya.eccentricity
    apply div_neg_of_neg_of_pos _ hpos
    unfold Molniya.semimajorAxis equatorialRadius
    norm_num at h1 ⊢
    linarith
  · unfold Molniya.eccentricity
    have hpos' : 0 < Molniya.semimajorAxis ⟨-7000000, 0, 0, 63.4, 0, 43080, 270⟩ := hpos
    rw [lt_div_iff₀ hpos']
    unfold equatorialRadius
    norm_num

/-! ## C93 -/

/-- The distance of two vectors. -/
noncomputable def euclid (a b : V3) : ℝ := Real.sqrt ((a.x - b.x) ^ 2 + (a.y - b.y) ^ 2 + (a.z - b.z) ^ 2)

/-- A time at which the satellite is back, within the tolerances, where it was at the epoch. -/
def Repeats (position velocity : Int → V3) (epoch : Int) (dp dv : ℝ) (t : Int) : Prop :=
  euclid (position t) (position epoch) < dp ∧ euclid (velocity t) (velocity epoch) < dv

/-- C93: the repeat cycle found is the time to the first culmination at which the satellite is back, between
ten minutes and the search duration; and if there is such a culmination one is found.  `find` returns the
events of a window in order of time. -/
theorem C93_first_repeat (position velocity : Int → V3) (find : Int → Int → List (Int × Coverage.EventKind))
    (hsorted : ∀ a b, ((find a b).map Prod.fst).Pairwise (· ≤ ·))
    (hwindow : ∀ a b, ∀ e ∈ find a b, a ≤ e.1 ∧ e.1 ≤ b) (epoch : Int) (dp dv : ℝ) (maxSearch : Int) :
    (∀ c, searchRepeat position velocity find epoch dp dv maxSearch = some c →
      600000000 ≤ c ∧ c ≤ maxSearch ∧ Repeats position velocity epoch dp dv (epoch + c) ∧
      (epoch + c, Coverage.EventKind.culminate) ∈ find (epoch + 600000000) (epoch + maxSearch) ∧
      ∀ t, (t, Coverage.EventKind.culminate) ∈ find (epoch + 600000000) (epoch + maxSearch) →
        Repeats position velocity epoch dp dv t → epoch + c ≤ t) ∧
    (searchRepeat position velocity find epoch dp dv maxSearch = none →
      ∀ t, (t, Coverage.EventKind.culminate) ∈ find (epoch + 600000000) (epoch + maxSearch) →
        ¬ Repeats position velocity epoch dp dv t) := by
  set events := find (epoch + 600000000) (epoch + maxSearch) with hev
  set valid := ((events.filter fun e => e.2 = .culminate).map Prod.fst).filter fun t =>
    decide (Orbit.distance (position t) (position epoch) < dp) &&
      decide (Orbit.distance (velocity t) (velocity epoch) < dv) with hvalid
  have hmem : ∀ t, t ∈ valid ↔ (t, Coverage.EventKind.culminate) ∈ events ∧ Repeats position velocity epoch dp dv t := by
    intro t
    rw [hvalid, List.mem_filter, List.mem_map]
    constructor
    · rintro ⟨⟨⟨u, k⟩, h1, rfl⟩, h2⟩
      rw [List.mem_filter] at h1
      obtain ⟨h1, h3⟩ := h1
      have h3' : k = .culminate := by simpa using h3
      subst h3'
      refine ⟨h1, ?_⟩
      have hd : euclid = Orbit.distance := rfl
      simpa [Repeats, hd] using h2
    · rintro ⟨h1, h2⟩
      refine ⟨⟨(t, .culminate), List.mem_filter.mpr ⟨h1, by simp⟩, rfl⟩, ?_⟩
      have hd : euclid = Orbit.distance := rfl
      simpa [Repeats, hd] using h2
  have hpw : valid.Pairwise (· ≤ ·) := by
    rw [hvalid]
    apply List.Pairwise.filter
    exact List.Pairwise.sublist (List.Sublist.map _ List.filter_sublist) (hsorted _ _)
  have hres : searchRepeat position velocity find epoch dp dv maxSearch =
      valid.head?.map (· - epoch) := by
    show (match valid with | t :: _ => some (t - epoch) | [] => none) = _
    cases valid <;> rfl
  constructor
  · intro c hc
    rw [hres] at hc
    clear_value valid
    cases valid with
    | nil => simp at hc
    | cons t rest =>
      simp only [List.head?_cons, Option.map_some, Option.some.injEq] at hc
      subst hc
      obtain ⟨h1, h2⟩ := (hmem t).mp List.mem_cons_self
      have h3 := hwindow _ _ _ h1
      rw [show epoch + (t - epoch) = t by ring]
      refine ⟨by linarith [h3.1], by linarith [h3.2], h2, h1, ?_⟩
      intro u hu1 hu2
      rcases List.mem_cons.mp ((hmem u).mpr ⟨hu1, hu2⟩) with rfl | hu
      · exact le_rfl
      · exact List.rel_of_pairwise_cons hpw hu
  · intro hc t h1 h2
    have ht : t ∈ valid := (hmem t).mpr ⟨h1, h2⟩
    rw [hres] at hc
    clear_value valid
    cases valid with
    | nil => exact List.not_mem_nil ht
    | cons t rest => simp at hc

/-- The hypotheses are met by a satellite back after 25 minutes with one culmination after 20 and one after 25. -/
example : searchRepeat (fun t => ⟨if t = 1500000000 then 0 else t, 0, 0⟩) (fun _ => ⟨0, 0, 0⟩)
    (fun a b => ([(1200000000, .culminate), (1500000000, .culminate)] : List (Int × Coverage.EventKind)).filter
      fun e => decide (a ≤ e.1) && decide (e.1 ≤ b)) 0 1 1 2000000000 = some 1500000000 := by
  have h1 : ¬ Orbit.distance ⟨1200000000, 0, 0⟩ ⟨0, 0, 0⟩ < 1 := by
    unfold Orbit.distance
    simp only [not_lt, Real.one_le_sqrt]
    norm_num
  have h2 : Orbit.distance ⟨0, 0, 0⟩ ⟨0, 0, 0⟩ = 0 := by unfold Orbit.distance; norm_num
  simp [searchRepeat, h2, h1]

end Tatc.Props
