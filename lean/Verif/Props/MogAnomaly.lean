import Verif.Props.Mog
import Mathlib.Analysis.SpecialFunctions.Trigonometric.Bounds

/-!
# C35, C74: where the members of a mutual orbiting group are at the epoch
-/

namespace Tatc.Props
open Tatc.Num Tatc.Orbit Tatc.Spec Tatc.Constellation
open scoped Classical

/-- The sense of turning. -/
noncomputable def sense (clockwise : Bool) : ℝ := if clockwise then 1 else -1

section
variable {I : Type} (m : Mog I) (hd : Real.sin m.delta ≠ 0) (th : ℝ)
include hd

theorem t_node : (m.t th).dot (V3.mk 1 0 0) = Real.cos th := by
  have h1 := Real.sin_sq_add_cos_sq (radians m.orbit.inclination)
  unfold Mog.t
  rw [l_components, l0_components]
  simp only [V3.dot, V3.smul, V3.cross]
  field_simp
  linear_combination Real.sin m.delta * Real.cos th * h1

theorem t_across : (m.t th).dot (m.l0.cross (V3.mk 1 0 0)) = -Real.sin th := by
  have h1 := Real.sin_sq_add_cos_sq (radians m.orbit.inclination)
  unfold Mog.t
  rw [l_components, l0_components]
  simp only [V3.dot, V3.smul, V3.cross]
  field_simp
  linear_combination (-(Real.sin m.delta * Real.sin th)) * h1

/-- The mean anomaly is a quarter turn from the clock angle. -/
theorem mean_anomaly : Real.sin (m.n th) = m.s * Real.cos th ∧ Real.cos (m.n th) = -(m.s * Real.sin th) := by
  have hs := s_sq m
  have hth := Real.sin_sq_add_cos_sq th
  have e1 : m.s * (m.t th).dot (V3.mk 1 0 0) = m.s * Real.cos th := by rw [t_node m hd]
  have e2 : m.s * (m.t th).dot (m.l0.cross (V3.mk 1 0 0)) = -(m.s * Real.sin th) := by rw [t_across m hd]; ring
  have hsum : (-(m.s * Real.sin th)) ^ 2 + (m.s * Real.cos th) ^ 2 = 1 ^ 2 := by
    linear_combination (Real.sin th ^ 2 + Real.cos th ^ 2) * hs + hth
  unfold Mog.n
  rw [e1, e2]
  have h1 := arctan2_sin (m.s * Real.cos th) (-(m.s * Real.sin th)) 1 zero_le_one hsum
  have h2 := arctan2_cos (m.s * Real.cos th) (-(m.s * Real.sin th)) 1 zero_le_one hsum
  rw [one_mul] at h1 h2
  exact ⟨h1, h2⟩

omit hd in
/-- The quadrature direction of the member's orbit is along the crossing of the two planes. -/
theorem quadrature : (m.l th).cross (m.pPeri th) = (m.t th).smul m.s := by
  have h1 := l_unit m th
  have h2 := t_dot_l m th
  simp only [V3.dot] at h1 h2
  ext <;> simp only [Mog.pPeri, V3.cross, V3.smul]
  · linear_combination m.s * (m.t th).x * h1 - m.s * (m.l th).x * h2
  · linear_combination m.s * (m.t th).y * h1 - m.s * (m.l th).y * h2
  · linear_combination m.s * (m.t th).z * h1 - m.s * (m.l th).z * h2

theorem peri_node : (m.pPeri th).dot (V3.mk 1 0 0) = Real.cos (m.n th) * Real.cos m.delta := by
  have h1 := Real.sin_sq_add_cos_sq (radians m.orbit.inclination)
  rw [(mean_anomaly m hd th).2]
  unfold Mog.pPeri Mog.t
  rw [l_components, l0_components]
  simp only [V3.dot, V3.smul, V3.cross]
  field_simp
  linear_combination (-(m.s * Real.sin m.delta * Real.sin th * Real.cos m.delta)) * h1

end

/-- Position from the eccentric anomaly. -/
theorem position_eccentric {a e i r w nu E : ℝ} (he0 : 0 ≤ e) (he1 : e < 1)
    (hc : (1 - e * Real.cos E) * cosDeg nu = Real.cos E - e)
    (hs : (1 - e * Real.cos E) * sinDeg nu = Real.sqrt (1 - e ^ 2) * Real.sin E) :
    position a e i r w nu = ((perigeeDirection i r w).smul (a * (Real.cos E - e))).add
      (((normal i r).cross (perigeeDirection i r w)).smul (a * (Real.sqrt (1 - e ^ 2) * Real.sin E))) := by
  have hE := Real.cos_le_one E
  have hE' := Real.neg_one_le_cos E
  have hpos : 0 < 1 - e * Real.cos E := by nlinarith
  have hrad : (1 - e ^ 2) / (1 + e * cosDeg nu) = 1 - e * Real.cos E := by
    have hden : 0 < 1 + e * cosDeg nu := by
      have : -1 ≤ cosDeg nu := Real.neg_one_le_cos _
      nlinarith
    rw [div_eq_iff hden.ne']
    linear_combination (-e) * hc
  have hsum : perigeeDirection i r (w + nu) = ((perigeeDirection i r w).smul (cosDeg nu)).add
      (((normal i r).cross (perigeeDirection i r w)).smul (sinDeg nu)) := by
    have a1 : sinDeg (w + nu) = sinDeg w * cosDeg nu + cosDeg w * sinDeg nu := by
      unfold sinDeg cosDeg; rw [add_mul, add_div, Real.sin_add]
    have a2 : cosDeg (w + nu) = cosDeg w * cosDeg nu - sinDeg w * sinDeg nu := by
      unfold sinDeg cosDeg; rw [add_mul, add_div, Real.cos_add]
    have hi : sinDeg i ^ 2 + cosDeg i ^ 2 = 1 := Real.sin_sq_add_cos_sq _
    have hr : sinDeg r ^ 2 + cosDeg r ^ 2 = 1 := Real.sin_sq_add_cos_sq _
    ext <;> simp only [perigeeDirection, normal, V3.add, V3.smul, V3.cross, a1, a2]
    · linear_combination (sinDeg nu * sinDeg w * cosDeg r) * hi
    · linear_combination (sinDeg nu * sinDeg w * sinDeg r) * hi
    · linear_combination (-(sinDeg nu * sinDeg i * cosDeg w)) * hr
  unfold position
  rw [hsum, mul_div_assoc, hrad]
  ext <;> simp only [V3.add, V3.smul]
  · linear_combination (a * (perigeeDirection i r w).x) * hc + (a * ((normal i r).cross (perigeeDirection i r w)).x) * hs
  · linear_combination (a * (perigeeDirection i r w).y) * hc + (a * ((normal i r).cross (perigeeDirection i r w)).y) * hs
  · linear_combination (a * (perigeeDirection i r w).z) * hc + (a * ((normal i r).cross (perigeeDirection i r w)).z) * hs

/-- The internals of a generated member. -/
theorem mog_inside {I : Type} (m : Mog I) (fuel : Nat) (ms : List (Satellite I)) (h : m.members fuel = .ok ms)
    (k : Nat) (sat : Satellite I) (o : Keplerian) (hk : ms[k]? = some sat) (ho : sat.orbit = .keplerian o) :
    Real.sin m.delta ≠ 0 ∧ ∃ psi, keplerLoop (m.n (m.theta k)) m.e fuel 0 0.1 = .ok psi ∧
      o.altitude = m.orbit.altitude ∧ o.eccentricity = m.e ∧
      o.trueAnomaly = npMod (360 + degrees (m.nu psi)) 360 ∧
      normal o.inclination o.raan = turn (radians m.orbit.raan) (m.l (m.theta k)) ∧
      perigeeDirection o.inclination o.raan o.perigee = turn (radians m.orbit.raan) (m.pPeri (m.theta k)) := by
  obtain ⟨-, -, hm⟩ := mog_members m fuel ms h
  obtain ⟨o', ho', rfl⟩ := hm k sat hk
  obtain rfl : o' = o := by simpa using ho
  unfold Mog.memberOrbit at ho'
  simp only [bind_eq_ok, require_eq_ok] at ho'
  obtain ⟨_, hd, psi, hpsi, _, he, ho'⟩ := ho'
  obtain ⟨h1, h2, h3, h4, h5, rfl⟩ := (keplerian_make_ok _ _ _ _ _ _ _ _).mp ho'
  exact ⟨hd, psi, hpsi, rfl, rfl, rfl, normal_report m (m.theta k), perigee_report m hd (m.theta k)⟩

theorem eccentric_true {I : Type} (m : Mog I) (he0 : 0 ≤ m.e) (he1 : m.e < 1) (psi : ℝ) :
    (1 - m.e * Real.cos psi) * cosDeg (npMod (360 + degrees (m.nu psi)) 360) = Real.cos psi - m.e ∧
    (1 - m.e * Real.cos psi) * sinDeg (npMod (360 + degrees (m.nu psi)) 360) =
      Real.sqrt (1 - m.e ^ 2) * Real.sin psi := by
  have hE := Real.cos_le_one psi
  have hsc := Real.sin_sq_add_cos_sq psi
  have hsq : Real.sqrt (1 - m.e ^ 2) ^ 2 = 1 - m.e ^ 2 := Real.sq_sqrt (by nlinarith)
  have hpos : 0 ≤ 1 - m.e * Real.cos psi := by nlinarith
  have hsum : (Real.cos psi - m.e) ^ 2 + (Real.sin psi * Real.sqrt (1 - m.e ^ 2)) ^ 2 =
      (1 - m.e * Real.cos psi) ^ 2 := by
    linear_combination (Real.sin psi ^ 2) * hsq + (1 - m.e ^ 2) * hsc
  rw [sinDeg_report, cosDeg_report]
  unfold Mog.nu
  refine ⟨arctan2_cos _ _ _ hpos hsum, ?_⟩
  rw [arctan2_sin _ _ _ hpos hsum]; ring

/-- C35 for the members: the true anomaly of member `k` belongs to an eccentric anomaly that solves Kepler's
equation, to the tolerance, for the mean anomaly a quarter turn from the member's clock angle. -/
theorem C35_member {I : Type} (m : Mog I) (fuel : Nat) (ms : List (Satellite I)) (h : m.members fuel = .ok ms)
    (ha : 0 < m.orbit.altitude + meanRadius) (hp0 : 0 ≤ m.parallelAxis)
    (hp1 : m.parallelAxis < 4 * (m.orbit.altitude + meanRadius))
    (k : Nat) (sat : Satellite I) (o : Keplerian) (hk : ms[k]? = some sat) (ho : sat.orbit = .keplerian o) :
    ∃ M E : ℝ, Real.sin M = Real.sin (2 * Real.pi * k / m.satellites + sense m.clockwise * (Real.pi / 2)) ∧
      Real.cos M = Real.cos (2 * Real.pi * k / m.satellites + sense m.clockwise * (Real.pi / 2)) ∧
      |E - o.eccentricity * Real.sin E - M| ≤ 1e-6 ∧
      (1 - o.eccentricity * Real.cos E) * cosDeg o.trueAnomaly = Real.cos E - o.eccentricity ∧
      (1 - o.eccentricity * Real.cos E) * sinDeg o.trueAnomaly =
        Real.sqrt (1 - o.eccentricity ^ 2) * Real.sin E := by
  obtain ⟨hd, psi, hpsi, -, hee, hnu, -, -⟩ := mog_inside m fuel ms h k sat o hk ho
  have he0 : 0 ≤ m.e := div_nonneg hp0 (by unfold Mog.a; linarith)
  have he1 : m.e < 1 := by unfold Mog.e Mog.a; rw [div_lt_one (by linarith)]; exact hp1
  have htheta : 2 * Real.pi * k / m.satellites = m.theta k := by unfold Mog.theta; ring
  obtain ⟨h1, h2⟩ := mean_anomaly m hd (m.theta k)
  obtain ⟨h3, h4⟩ := eccentric_true m he0 he1 psi
  rw [hee, hnu]
  refine ⟨m.n (m.theta k), psi, ?_, ?_, C35_answer _ _ he0 he1 fuel psi hpsi, h3, h4⟩
  · rw [h1, htheta]
    unfold Mog.s sense
    cases m.clockwise
    · simp [← sub_eq_add_neg, Real.sin_sub_pi_div_two]
    · simp [Real.sin_add_pi_div_two]
  · rw [h2, htheta]
    unfold Mog.s sense
    cases m.clockwise
    · simp [← sub_eq_add_neg, Real.cos_sub_pi_div_two]
    · simp [Real.cos_add_pi_div_two]

/-- The triangle inequality in components. -/
theorem triangle_sq {x y z x' y' z' r r' : ℝ} (hr : 0 ≤ r) (hr' : 0 ≤ r') (h : x ^ 2 + y ^ 2 + z ^ 2 ≤ r ^ 2)
    (h' : x' ^ 2 + y' ^ 2 + z' ^ 2 ≤ r' ^ 2) : (x + x') ^ 2 + (y + y') ^ 2 + (z + z') ^ 2 ≤ (r + r') ^ 2 := by
  have hcs : (x * x' + y * y' + z * z') ^ 2 ≤ (r * r') ^ 2 := by
    have h1 : (x * x' + y * y' + z * z') ^ 2 ≤ (x ^ 2 + y ^ 2 + z ^ 2) * (x' ^ 2 + y' ^ 2 + z' ^ 2) := by
      nlinarith [sq_nonneg (x * y' - y * x'), sq_nonneg (x * z' - z * x'), sq_nonneg (y * z' - z * y')]
    refine h1.trans ?_
    rw [mul_pow]
    exact mul_le_mul h h' (by positivity) (by positivity)
  have hle : x * x' + y * y' + z * z' ≤ r * r' := by
    have := sq_le_sq.mp hcs
    exact (le_abs_self _).trans (this.trans (le_of_eq (abs_of_nonneg (mul_nonneg hr hr'))))
  nlinarith

theorem chord_le (a b : ℝ) : (Real.cos a - Real.cos b) ^ 2 + (Real.sin a - Real.sin b) ^ 2 ≤ (a - b) ^ 2 := by
  have h1 : (Real.cos a - Real.cos b) ^ 2 + (Real.sin a - Real.sin b) ^ 2 = 2 - 2 * Real.cos (a - b) := by
    rw [Real.cos_sub]
    linear_combination Real.sin_sq_add_cos_sq a + Real.sin_sq_add_cos_sq b
  have h2 := Real.one_sub_sq_div_two_le_cos (x := a - b)
  linarith

/-- The distance from the reference, in units of the semimajor axis. -/
theorem offset_le {e d psi M q : ℝ} (he0 : 0 ≤ e) (he1 : e < 1) (hd0 : 0 ≤ d) (hq : q = Real.sqrt (1 - e ^ 2))
    (hkep : |psi - e * Real.sin psi - M| ≤ 1e-6) :
    (Real.cos psi - e - Real.cos M * Real.cos d) ^ 2 + (q * Real.sin psi - Real.sin M) ^ 2 +
      (Real.sin d * Real.cos M) ^ 2 ≤ (e + 1e-6 + 2 * e + d) ^ 2 := by
  have hqsq : q ^ 2 = 1 - e ^ 2 := by rw [hq]; exact Real.sq_sqrt (by nlinarith)
  have hq0 : 0 ≤ q := by rw [hq]; exact Real.sqrt_nonneg _
  have hq1 : q ≤ 1 := by nlinarith
  have hq2 : 1 - q ≤ e ^ 2 := by nlinarith
  have hsin := abs_le.mp (Real.abs_sin_le_one psi)
  -- from the eccentric to the mean anomaly
  have b1 : (Real.cos psi - Real.cos M) ^ 2 + (Real.sin psi - Real.sin M) ^ 2 + 0 ^ 2 ≤ (e + 1e-6) ^ 2 := by
    have hc := chord_le psi M
    have : |psi - M| ≤ e + 1e-6 := by
      have h5 := abs_le.mp hkep
      rw [abs_le]
      constructor <;> nlinarith [h5.1, h5.2, hsin.1, hsin.2]
    have h6 : (psi - M) ^ 2 ≤ (e + 1e-6) ^ 2 := by
      rw [← sq_abs]; exact pow_le_pow_left₀ (abs_nonneg _) this 2
    nlinarith
  -- the shift of the centre and the flattening
  have b2 : (-e) ^ 2 + (-((1 - q) * Real.sin psi)) ^ 2 + 0 ^ 2 ≤ (2 * e) ^ 2 := by
    have h7 : ((1 - q) * Real.sin psi) ^ 2 ≤ (e ^ 2) ^ 2 := by
      rw [mul_pow]
      have : Real.sin psi ^ 2 ≤ 1 := Real.sin_sq_le_one psi
      have h8 : (1 - q) ^ 2 ≤ (e ^ 2) ^ 2 := pow_le_pow_left₀ (by linarith) hq2 2
      nlinarith [sq_nonneg (1 - q)]
    have h9 : (e ^ 2) ^ 2 ≤ e ^ 2 := by
      have : e ^ 2 ≤ 1 := by nlinarith
      nlinarith [sq_nonneg e]
    nlinarith
  -- the tilt
  have b3 : (Real.cos M * (1 - Real.cos d)) ^ 2 + 0 ^ 2 + (Real.sin d * Real.cos M) ^ 2 ≤ d ^ 2 := by
    have hd2 := Real.sin_sq_add_cos_sq d
    have hcd := Real.one_sub_sq_div_two_le_cos (x := d)
    have hM1 : Real.cos M ^ 2 ≤ 1 := Real.cos_sq_le_one M
    have : (Real.cos M * (1 - Real.cos d)) ^ 2 + 0 ^ 2 + (Real.sin d * Real.cos M) ^ 2 =
        Real.cos M ^ 2 * (2 - 2 * Real.cos d) := by linear_combination (Real.cos M ^ 2) * hd2
    rw [this]
    have hcd1 := Real.cos_le_one d
    nlinarith [sq_nonneg (Real.cos M)]
  have b12 := triangle_sq (by positivity) (by positivity) b1 b2
  have b123 := triangle_sq (by positivity) hd0 b12 b3
  refine le_trans (le_of_eq ?_) b123
  ring

/-- C74, full statement: for every true anomaly of the reference orbit.  It is false (`C74_near_reference_false`,
`C74_anomaly_ignored`); this is the part that holds: when the true anomaly of the reference orbit is zero, every
member is at the epoch within three quarters of one axis and half the other (and the tolerance) of the reference. -/
theorem C74_near_reference_partial {I : Type} (m : Mog I) (fuel : Nat) (ms : List (Satellite I))
    (h : m.members fuel = .ok ms) (ha : 0 < m.orbit.altitude + meanRadius) (hp0 : 0 ≤ m.parallelAxis)
    (hp1 : m.parallelAxis < 4 * (m.orbit.altitude + meanRadius)) (ht0 : 0 ≤ m.transverseAxis)
    (hzero : m.orbit.trueAnomaly = 0) (sat : Satellite I) (hsat : sat ∈ ms) :
    ∃ o, sat.orbit = .keplerian o ∧
      distSq (position (m.orbit.altitude + meanRadius) o.eccentricity o.inclination o.raan o.perigee o.trueAnomaly)
        (position (m.orbit.altitude + meanRadius) 0 m.orbit.inclination m.orbit.raan 0 m.orbit.trueAnomaly) ≤
      (3 / 4 * m.parallelAxis + 1 / 2 * m.transverseAxis + (m.orbit.altitude + meanRadius) * 1e-6) ^ 2 := by
  obtain ⟨k, hk', rfl⟩ := List.getElem_of_mem hsat
  have hk := List.getElem?_eq_getElem hk'
  obtain ⟨-, hm⟩ := C36_geometry m fuel ms h
  obtain ⟨-, o, ho, -⟩ := hm k _ hk
  refine ⟨o, ho, ?_⟩
  obtain ⟨hd, psi, hpsi, -, hee, hnu, hN, hP⟩ := mog_inside m fuel ms h k _ o hk ho
  have he0 : 0 ≤ m.e := div_nonneg hp0 (by unfold Mog.a; linarith)
  have he1 : m.e < 1 := by unfold Mog.e Mog.a; rw [div_lt_one (by linarith)]; exact hp1
  obtain ⟨h3, h4⟩ := eccentric_true m he0 he1 psi
  have hkep := C35_answer _ _ he0 he1 fuel psi hpsi
  obtain ⟨hsM, hcM⟩ := mean_anomaly m hd (m.theta k)
  set th := m.theta k with hth
  set M := m.n th with hMdef
  set A := m.orbit.altitude + meanRadius with hA
  set e := m.e with he
  set d := m.delta with hdelta
  set q := Real.sqrt (1 - e ^ 2) with hq
  rw [hnu, hee, position_eccentric he0 he1 h3 h4, hN, hP, turn_cross, quadrature m th, hzero]
  have href : position A 0 m.orbit.inclination m.orbit.raan 0 0 = turn (radians m.orbit.raan) (V3.mk A 0 0) := by
    ext <;> simp [position, perigeeDirection, V3.smul, sinDeg_radians, cosDeg_radians, turn, radians] <;> ring
  have hpos : ((turn (radians m.orbit.raan) (m.pPeri th)).smul (A * (Real.cos psi - e))).add
      ((turn (radians m.orbit.raan) ((m.t th).smul m.s)).smul (A * (q * Real.sin psi))) =
      turn (radians m.orbit.raan) (((m.pPeri th).smul (A * (Real.cos psi - e))).add
        (((m.t th).smul m.s).smul (A * (q * Real.sin psi)))) := by
    simp only [turn_add, turn_smul]
  rw [href, hpos]
  have hturn : ∀ u v : V3, distSq (turn (radians m.orbit.raan) u) (turn (radians m.orbit.raan) v) =
      u.dot u - 2 * u.dot v + v.dot v := by
    intro u v
    rw [← turn_dot (radians m.orbit.raan) u u, ← turn_dot (radians m.orbit.raan) u v,
      ← turn_dot (radians m.orbit.raan) v v]
    simp only [distSq, V3.dot]; ring
  rw [hturn]
  have hPP := pPeri_unit m hd th
  have hTT := t_unit m hd th
  have hs2 := s_sq m
  have hPT : (m.pPeri th).dot (m.t th) = 0 := by
    simp only [Mog.pPeri, V3.dot, V3.smul, V3.cross]; ring
  have hPx := peri_node m hd th
  have hTx := t_node m hd th
  set P := m.pPeri th
  set T := m.t th
  set s := m.s
  simp only [V3.dot] at hPP hTT hPT hPx hTx
  have hdist : ((P.smul (A * (Real.cos psi - e))).add ((T.smul s).smul (A * (q * Real.sin psi)))).dot
        ((P.smul (A * (Real.cos psi - e))).add ((T.smul s).smul (A * (q * Real.sin psi)))) -
      2 * ((P.smul (A * (Real.cos psi - e))).add ((T.smul s).smul (A * (q * Real.sin psi)))).dot (V3.mk A 0 0) +
      (V3.mk A 0 0).dot (V3.mk A 0 0) =
      A ^ 2 * ((Real.cos psi - e - Real.cos M * Real.cos d) ^ 2 + (q * Real.sin psi - Real.sin M) ^ 2 +
        (Real.sin d * Real.cos M) ^ 2) := by
    have hd2 := Real.sin_sq_add_cos_sq d
    have hM2 := Real.sin_sq_add_cos_sq M
    rw [hsM]
    simp only [V3.dot, V3.add, V3.smul]
    rw [hsM] at hM2
    linear_combination (A ^ 2 * (Real.cos psi - e) ^ 2) * hPP + (A ^ 2 * s ^ 2 * (q * Real.sin psi) ^ 2) * hTT +
      (2 * A ^ 2 * (Real.cos psi - e) * s * (q * Real.sin psi)) * hPT + (A ^ 2 * (q * Real.sin psi) ^ 2) * hs2 -
      (2 * A ^ 2 * (Real.cos psi - e)) * hPx - (2 * A ^ 2 * s * (q * Real.sin psi)) * hTx -
      A ^ 2 * hM2 - A ^ 2 * Real.cos M ^ 2 * hd2
  rw [hdist]
  have hd0 : 0 ≤ d := by
    rw [hdelta]; unfold Mog.delta Mog.a; exact div_nonneg ht0 (by linarith)
  have hfinal : 3 / 4 * m.parallelAxis + 1 / 2 * m.transverseAxis + A * 1e-6 = A * (e + 1e-6 + 2 * e + d) := by
    have e1 : m.parallelAxis = 4 * A * e := by
      rw [he]; unfold Mog.e Mog.a; rw [← hA]; field_simp
    have e2 : m.transverseAxis = 2 * A * d := by
      rw [hdelta]; unfold Mog.delta Mog.a; rw [← hA]; field_simp
    rw [e1, e2]; ring
  rw [hfinal, mul_pow A]
  apply mul_le_mul_of_nonneg_left _ (sq_nonneg A)
  exact offset_le he0 he1 hd0 hq hkep

/-- The hypotheses of C35 and C74 are met: the group with axes of 1 and 2 km has members, and anomaly zero. -/
example : ∃ fuel ms, (smallGroup 0).members fuel = .ok ms ∧ ms.length = 6 ∧ (smallGroup 0).orbit.trueAnomaly = 0 := by
  obtain ⟨fuel, ms, h⟩ := smallGroup_members
  exact ⟨fuel, ms, h 0, (C36_geometry _ fuel ms (h 0)).1, rfl⟩

end Tatc.Props
