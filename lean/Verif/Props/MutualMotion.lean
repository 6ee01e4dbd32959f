import Verif.Spec.Beside
import Verif.Spec.Kepler
import Verif.Props.MogAnomaly
import Verif.Lemmas.Kepler
import Mathlib.Analysis.SpecialFunctions.Trigonometric.Bounds

/-!
# C143: members of a mutual orbiting group circle the reference satellite
-/

namespace Tatc.Props
open Tatc.Num Tatc.Orbit Tatc.Spec Tatc.Constellation
open scoped Classical

/-! ## The loop for the eccentric anomaly -/

theorem keplerLoop_answer (n e : ℝ) (he0 : 0 ≤ e) (fuel : Nat) : ∀ (prev cur psi : ℝ), cur = n + e * Real.sin prev →
    keplerLoop n e fuel prev cur = .ok psi → |psi - e * Real.sin psi - n| ≤ e * 1e-6 := by
  induction fuel with
  | zero => intro prev cur psi _ h; cases h
  | succ f ih =>
    intro prev cur psi hc h
    rw [keplerLoop] at h
    split_ifs at h with hcond
    · exact ih _ _ _ rfl h
    · have : cur = psi := Except.ok.inj h
      subst this
      have e1 : cur - e * Real.sin cur - n = e * (Real.sin prev - Real.sin cur) := by rw [hc]; ring_nf
      rw [e1, abs_mul, abs_of_nonneg he0]
      refine mul_le_mul_of_nonneg_left ((sin_sub_le _ _).trans ?_) he0
      rw [abs_sub_comm]; exact not_lt.mp hcond

theorem kepler_answer (n e : ℝ) (he0 : 0 ≤ e) (fuel : Nat) (psi : ℝ) (h : keplerLoop n e fuel 0 0.1 = .ok psi) :
    |psi - e * Real.sin psi - n| ≤ e * 1e-6 := by
  cases fuel with
  | zero => cases h
  | succ f =>
    have h0 : |(0.1 : ℝ) - 0| > 1e-6 := by rw [sub_zero, abs_of_pos] <;> norm_num
    rw [keplerLoop_step _ _ _ _ _ h0] at h
    exact keplerLoop_answer n e he0 f _ _ _ rfl h

/-! ## Second order bounds -/

theorem cos_near (x : ℝ) : |Real.cos x - 1| ≤ x ^ 2 / 2 := by
  have h1 := Real.one_sub_sq_div_two_le_cos (x := x)
  have h2 := Real.cos_le_one x
  rw [abs_le]; constructor <;> linarith

theorem sin_near {x : ℝ} (h : |x| ≤ 1) : |Real.sin x - x| ≤ x ^ 2 / 4 := by
  have key : ∀ y : ℝ, 0 < y → y ≤ 1 → |Real.sin y - y| ≤ y ^ 2 / 4 := by
    intro y h0 h1
    have a := Real.sin_lt h0
    have b := Real.sin_gt_sub_cube h0
    rw [abs_le]; constructor
    · nlinarith [sq_nonneg y]
    · nlinarith [sq_nonneg y]
  rcases lt_trichotomy x 0 with hx | hx | hx
  · have := key (-x) (by linarith) (by rw [abs_of_neg hx] at h; exact h)
    rw [Real.sin_neg, show -Real.sin x - -x = -(Real.sin x - x) by ring, abs_neg] at this
    simpa using this
  · simp [hx]
  · exact key x hx (by rw [abs_of_pos hx] at h; exact h)

theorem root_near {e : ℝ} (h0 : 0 ≤ e) (h1 : e ≤ 1) : |Real.sqrt (1 - e ^ 2) - 1| ≤ e ^ 2 := by
  have hs : 0 ≤ 1 - e ^ 2 := by nlinarith
  have a : 1 - e ^ 2 ≤ Real.sqrt (1 - e ^ 2) := by
    apply Real.le_sqrt_of_sq_le
    nlinarith [sq_nonneg e]
  have b : Real.sqrt (1 - e ^ 2) ≤ 1 := Real.sqrt_le_one.mpr (by nlinarith [sq_nonneg e])
  rw [abs_le]; constructor <;> linarith

/-- A point of an ellipse of small eccentricity `e` tilted by a small angle `d`, compared with the circle: `M` is the mean
anomaly up to `r`. -/
theorem ellipse_near {e d E M r : ℝ} (he0 : 0 ≤ e) (he1 : e ≤ 1 / 4) (hd0 : 0 ≤ d) (hd1 : d ≤ 1) (hr : |r| ≤ e * 1e-6)
    (hE : E - e * Real.sin E = M + r) :
    |(Real.cos E - e) * Real.cos d * Real.cos M + Real.sqrt (1 - e ^ 2) * Real.sin E * Real.sin M - 1 + e * Real.cos M| ≤
      3 * (e + d) ^ 2 + e * 1e-6 ∧
    |-((Real.cos E - e) * Real.cos d * Real.sin M) + Real.sqrt (1 - e ^ 2) * Real.sin E * Real.cos M - 2 * e * Real.sin M| ≤
      3 * (e + d) ^ 2 + e * 1e-6 ∧
    |(Real.cos E - e) * Real.sin d - d * Real.cos M| ≤ 3 * (e + d) ^ 2 + e * 1e-6 := by
  set D := E - M with hD
  have hDe : D = r + e * Real.sin E := by rw [hD]; linarith
  have hDabs : |D| ≤ 1.000001 * e := by
    rw [hDe]
    refine (abs_add_le _ _).trans ?_
    rw [abs_mul, abs_of_nonneg he0]
    have := mul_le_mul_of_nonneg_left (Real.abs_sin_le_one E) he0
    norm_num at hr ⊢
    linarith
  have hD1 : |D| ≤ 1 := by norm_num at hDabs; linarith
  have hDsq : D ^ 2 ≤ 1.01 * e ^ 2 := by
    rw [← sq_abs]
    have := pow_le_pow_left₀ (abs_nonneg D) hDabs 2
    nlinarith [sq_nonneg e]
  have c1 := cos_near D
  have c2 := cos_near d
  have s1 := sin_near hD1
  have s2 := sin_near (x := d) (by rw [abs_of_nonneg hd0]; exact hd1)
  have q := root_near he0 (by linarith)
  have cosD : Real.cos D = Real.cos E * Real.cos M + Real.sin E * Real.sin M := by rw [hD, Real.cos_sub]
  have sinD : Real.sin D = Real.sin E * Real.cos M - Real.cos E * Real.sin M := by rw [hD, Real.sin_sub]
  have hA : |Real.cos E - e| ≤ 5 / 4 := by
    have := Real.abs_cos_le_one E
    rw [abs_le] at this ⊢
    constructor <;> linarith
  have cM := Real.abs_cos_le_one M
  have sM := Real.abs_sin_le_one M
  have cE := Real.abs_cos_le_one E
  have sE := Real.abs_sin_le_one E
  -- the parts that are left over
  have part1 : ∀ x : ℝ, |x| ≤ 1 → |(Real.cos E - e) * (Real.cos d - 1) * x| ≤ 5 / 8 * d ^ 2 := by
    intro x hx
    rw [abs_mul, abs_mul]
    calc |Real.cos E - e| * |Real.cos d - 1| * |x| ≤ 5 / 4 * (d ^ 2 / 2) * 1 := by gcongr
      _ = _ := by ring
  have part2 : ∀ x : ℝ, |x| ≤ 1 → |(Real.sqrt (1 - e ^ 2) - 1) * Real.sin E * x| ≤ e ^ 2 := by
    intro x hx
    rw [abs_mul, abs_mul]
    calc |Real.sqrt (1 - e ^ 2) - 1| * |Real.sin E| * |x| ≤ e ^ 2 * 1 * 1 := by gcongr
      _ = _ := by ring
  have hre : 0 ≤ e * 1e-6 := by positivity
  refine ⟨?_, ?_, ?_⟩
  · have id : (Real.cos E - e) * Real.cos d * Real.cos M + Real.sqrt (1 - e ^ 2) * Real.sin E * Real.sin M - 1 + e * Real.cos M =
        (Real.cos D - 1) + (Real.cos E - e) * (Real.cos d - 1) * Real.cos M +
          (Real.sqrt (1 - e ^ 2) - 1) * Real.sin E * Real.sin M := by rw [cosD]; ring
    rw [id]
    refine (abs_add_three _ _ _).trans ?_
    have := part1 _ cM
    have := part2 _ sM
    nlinarith [mul_nonneg he0 hd0, sq_nonneg e, sq_nonneg d]
  · have id : -((Real.cos E - e) * Real.cos d * Real.sin M) + Real.sqrt (1 - e ^ 2) * Real.sin E * Real.cos M -
        2 * e * Real.sin M =
        (Real.sin D - D) + (r + e * (Real.sin E - Real.sin M)) + ((Real.cos E - e) * (Real.cos d - 1) * (-Real.sin M) +
          (Real.sqrt (1 - e ^ 2) - 1) * Real.sin E * Real.cos M) := by
      have : D = r + e * Real.sin E := hDe
      rw [sinD, this]; ring
    rw [id]
    refine (abs_add_three _ _ _).trans ?_
    have h1 : |r + e * (Real.sin E - Real.sin M)| ≤ e * 1e-6 + e * (1.000001 * e) := by
      refine (abs_add_le _ _).trans (add_le_add hr ?_)
      rw [abs_mul, abs_of_nonneg he0]
      exact mul_le_mul_of_nonneg_left ((sin_sub_le E M).trans hDabs) he0
    have h2 := (abs_add_le ((Real.cos E - e) * (Real.cos d - 1) * (-Real.sin M))
      ((Real.sqrt (1 - e ^ 2) - 1) * Real.sin E * Real.cos M))
    have := part1 (-Real.sin M) (by rw [abs_neg]; exact sM)
    have := part2 _ cM
    nlinarith [mul_nonneg he0 hd0, sq_nonneg e, sq_nonneg d]
  · have id : (Real.cos E - e) * Real.sin d - d * Real.cos M =
        d * (Real.cos E - Real.cos M) + -(e * d) + (Real.cos E - e) * (Real.sin d - d) := by ring
    rw [id]
    refine (abs_add_three _ _ _).trans ?_
    have h1 : |d * (Real.cos E - Real.cos M)| ≤ d * (1.000001 * e) := by
      rw [abs_mul, abs_of_nonneg hd0]
      refine mul_le_mul_of_nonneg_left (le_trans ?_ hDabs) hd0
      have := sin_sub_le (E + Real.pi / 2) (M + Real.pi / 2)
      rw [Real.sin_add_pi_div_two, Real.sin_add_pi_div_two] at this
      refine this.trans (le_of_eq ?_)
      rw [hD]; congr 1; ring
    have h2 : |-(e * d)| = e * d := by rw [abs_neg, abs_of_nonneg (mul_nonneg he0 hd0)]
    have h3 : |(Real.cos E - e) * (Real.sin d - d)| ≤ 5 / 4 * (d ^ 2 / 4) := by
      rw [abs_mul]; gcongr
    nlinarith [mul_nonneg he0 hd0, sq_nonneg e, sq_nonneg d]

/-! ## Positions -/

theorem perigee_turn (i r p x : ℝ) : perigeeDirection i r (p + x) =
    ((perigeeDirection i r p).smul (cosDeg x)).add (((normal i r).cross (perigeeDirection i r p)).smul (sinDeg x)) := by
  have a : sinDeg (p + x) = sinDeg p * cosDeg x + cosDeg p * sinDeg x := by
    unfold sinDeg cosDeg; rw [← Real.sin_add]; congr 1; ring
  have b : cosDeg (p + x) = cosDeg p * cosDeg x - sinDeg p * sinDeg x := by
    unfold sinDeg cosDeg; rw [← Real.cos_add]; congr 1; ring
  have hi : sinDeg i ^ 2 + cosDeg i ^ 2 = 1 := Real.sin_sq_add_cos_sq _
  have hr : sinDeg r ^ 2 + cosDeg r ^ 2 = 1 := Real.sin_sq_add_cos_sq _
  unfold perigeeDirection normal
  rw [a, b]
  ext <;> simp only [V3.add, V3.smul, V3.cross]
  · linear_combination (cosDeg r * sinDeg p * sinDeg x) * hi
  · linear_combination (sinDeg r * sinDeg p * sinDeg x) * hi
  · linear_combination (-(sinDeg i * cosDeg p * sinDeg x)) * hr

/-- Eccentric anomalies of the same direction differ by whole turns. -/
theorem eccentric_unique {e nu E psi M : ℝ} (he0 : 0 ≤ e) (he1 : e < 1) (h : KeplerAnomalies e nu E M)
    (h1 : (1 - e * Real.cos psi) * Real.cos nu = Real.cos psi - e)
    (h2 : (1 - e * Real.cos psi) * Real.sin nu = Real.sqrt (1 - e ^ 2) * Real.sin psi) :
    Real.cos E = Real.cos psi ∧ Real.sin E = Real.sin psi := by
  have hq : 0 < 1 - e ^ 2 := by nlinarith
  have hroot : 0 < Real.sqrt (1 - e ^ 2) := Real.sqrt_pos.mpr hq
  have hp : 0 < 1 + e * Real.cos nu := by nlinarith [Real.neg_one_le_cos nu]
  have a1 : Real.cos E * (1 + e * Real.cos nu) = Real.cos nu + e := by linear_combination -h.along
  have a2 : Real.cos psi * (1 + e * Real.cos nu) = Real.cos nu + e := by linear_combination -h1
  have hc : Real.cos E = Real.cos psi := mul_right_cancel₀ hp.ne' (a1.trans a2.symm)
  refine ⟨hc, ?_⟩
  have := h.across
  rw [hc, h2] at this
  exact (mul_left_cancel₀ hroot.ne' this).symm

/-- The frame of the reference satellite, in the coordinates of the code. -/
theorem reference_up {I : Type} (m : Mog I) (w : ℝ) : perigeeDirection m.orbit.inclination m.orbit.raan w =
    turn (radians m.orbit.raan) (((V3.mk 1 0 0).smul (Real.cos (radians w))).add
      ((m.l0.cross (V3.mk 1 0 0)).smul (Real.sin (radians w)))) := by
  rw [l0_components]
  unfold perigeeDirection
  simp only [sinDeg_radians, cosDeg_radians]
  ext <;> simp only [turn, V3.add, V3.smul, V3.cross] <;> ring

theorem reference_ahead {I : Type} (m : Mog I) (w : ℝ) :
    (normal m.orbit.inclination m.orbit.raan).cross (perigeeDirection m.orbit.inclination m.orbit.raan w) =
    turn (radians m.orbit.raan) (((V3.mk 1 0 0).smul (-Real.sin (radians w))).add
      ((m.l0.cross (V3.mk 1 0 0)).smul (Real.cos (radians w)))) := by
  rw [reference_up, lead_normal, turn_cross]
  congr 1
  have h := Real.sin_sq_add_cos_sq (radians m.orbit.inclination)
  rw [l0_components]
  ext <;> simp only [V3.add, V3.smul, V3.cross]
  · linear_combination (-Real.sin (radians w)) * h
  · ring
  · ring

section
variable {I : Type} (m : Mog I) (hd : Real.sin m.delta ≠ 0) (th : ℝ)
include hd

theorem peri_across : (m.pPeri th).dot (m.l0.cross (V3.mk 1 0 0)) = -(Real.sin (m.n th) * Real.cos m.delta) := by
  have h1 := Real.sin_sq_add_cos_sq (radians m.orbit.inclination)
  rw [(mean_anomaly m hd th).1]
  unfold Mog.pPeri Mog.t
  rw [l_components, l0_components]
  simp only [V3.dot, V3.smul, V3.cross]
  field_simp
  linear_combination (-(m.s * Real.sin m.delta * Real.cos th * Real.cos m.delta *
    (Real.sin (radians m.orbit.inclination) ^ 2 + Real.cos (radians m.orbit.inclination) ^ 2 + 1))) * h1

theorem peri_left : (m.pPeri th).dot m.l0 = m.s * Real.sin m.delta := by
  have h1 := Real.sin_sq_add_cos_sq (radians m.orbit.inclination)
  have h3 := Real.sin_sq_add_cos_sq th
  unfold Mog.pPeri Mog.t
  rw [l_components, l0_components]
  simp only [V3.dot, V3.smul, V3.cross]
  field_simp
  linear_combination (m.s * Real.sin m.delta ^ 2 * (Real.cos th ^ 2 *
    (Real.sin (radians m.orbit.inclination) ^ 2 + Real.cos (radians m.orbit.inclination) ^ 2 + 1) +
    Real.sin th ^ 2)) * h1 + (m.s * Real.sin m.delta ^ 2) * h3

omit hd in
theorem t_left : (m.t th).dot m.l0 = 0 := by
  simp only [Mog.t, V3.dot, V3.smul, V3.cross]; ring

end

/-- C143: as time passes, every member of a mutual orbiting group goes round the satellite that was at the ascending node of the
reference orbit at the epoch.  When that satellite is `w` degrees from the node (so much has the mean anomaly of the member
grown), member `k` is ahead of it, above it and to its left by half the parallel axis, a quarter of the parallel axis and half
the transverse axis times the cosine, the sine and the sine of `w` plus the `k`-th of equal shares of a turn: an ellipse whose
axes, along the velocity and across the plane of the reference orbit, are the requested ones.  This up to terms of second order
in the axes and the tolerance of the solution of Kepler's equation. -/
theorem C143_mutual_orbit {I : Type} (m : Mog I) (fuel : Nat) (ms : List (Satellite I))
    (h : m.members fuel = .ok ms) (a : ℝ) (ha : a = m.orbit.altitude + meanRadius) (ha0 : 0 < a)
    (hp0 : 0 ≤ m.parallelAxis) (hp1 : m.parallelAxis ≤ a) (ht0 : 0 ≤ m.transverseAxis) (ht1 : m.transverseAxis ≤ 2 * a)
    (k : Nat) (sat : Satellite I) (hk : ms[k]? = some sat) :
    ∃ o, sat.orbit = .keplerian o ∧ ∀ w nu E0 M0 E phi err : ℝ,
      KeplerAnomalies o.eccentricity (o.trueAnomaly * Real.pi / 180) E0 M0 →
      KeplerAnomalies o.eccentricity (nu * Real.pi / 180) E (M0 + w * Real.pi / 180) →
      phi = w + 360 * k / m.satellites →
      err = 3 / 16 * (m.parallelAxis + 2 * m.transverseAxis) ^ 2 / a + m.parallelAxis / 4 * 1e-6 →
      |ahead m.orbit.inclination m.orbit.raan w (position a o.eccentricity o.inclination o.raan o.perigee nu) -
          sense m.clockwise * (m.parallelAxis / 2) * cosDeg phi| ≤ err ∧
      |above a m.orbit.inclination m.orbit.raan w (position a o.eccentricity o.inclination o.raan o.perigee nu) -
          sense m.clockwise * (m.parallelAxis / 4) * sinDeg phi| ≤ err ∧
      |leftward m.orbit.inclination m.orbit.raan (position a o.eccentricity o.inclination o.raan o.perigee nu) +
          m.transverseAxis / 2 * sinDeg phi| ≤ err := by
  obtain ⟨-, hm⟩ := C36_geometry m fuel ms h
  obtain ⟨-, o, ho, -⟩ := hm k _ hk
  refine ⟨o, ho, ?_⟩
  intro w nu E0 M0 E phi err hK0 hK hphi herr
  obtain ⟨hd, psi, hpsi, -, hee, hnu, hN, hP⟩ := mog_inside m fuel ms h k _ o hk ho
  have hma : m.a = a := ha.symm
  have he0 : 0 ≤ m.e := div_nonneg hp0 (by rw [hma]; linarith)
  have he1 : m.e ≤ 1 / 4 := by
    show m.parallelAxis / (4 * m.a) ≤ 1 / 4
    rw [hma, div_le_iff₀ (by linarith)]; linarith
  have hd0 : 0 ≤ m.delta := div_nonneg ht0 (by rw [hma]; linarith)
  have hd1 : m.delta ≤ 1 := by
    show m.transverseAxis / (2 * m.a) ≤ 1
    rw [hma, div_le_one (by linarith)]; linarith
  obtain ⟨h3, h4⟩ := eccentric_true m he0 (by linarith) psi
  rw [← hnu] at h3 h4
  rw [hee] at hK0 hK
  obtain ⟨c0, s0⟩ := eccentric_unique he0 (by linarith) hK0 h3 h4
  have hkep := kepler_answer _ _ he0 fuel psi hpsi
  obtain ⟨hsM, hcM⟩ := mean_anomaly m hd (m.theta k)
  -- the mean anomaly at the later time, up to whole turns
  have hturns : ∃ j : ℤ, E0 = psi + j * (2 * Real.pi) := by
    have : ((E0 : ℝ) : Real.Angle) = (psi : ℝ) := Real.Angle.cos_sin_inj c0 s0
    obtain ⟨j, hj⟩ := Real.Angle.angle_eq_iff_two_pi_dvd_sub.mp this
    exact ⟨j, by linarith⟩
  obtain ⟨j, hj⟩ := hturns
  set th := m.theta k with hth
  set r := psi - m.e * Real.sin psi - m.n th with hr
  set M := m.n th + radians w + j * (2 * Real.pi) with hMdef
  have hE : E - m.e * Real.sin E = M + r := by
    have e1 := hK.mean
    have e2 := hK0.mean
    rw [s0] at e2
    have e3 : radians w = w * Real.pi / 180 := by unfold radians; ring
    rw [hMdef, hr, e3]; linarith
  have cosM : Real.cos M = Real.cos (m.n th) * Real.cos (radians w) - Real.sin (m.n th) * Real.sin (radians w) := by
    rw [hMdef, Real.cos_add_int_mul_two_pi, Real.cos_add]
  have sinM : Real.sin M = Real.sin (m.n th) * Real.cos (radians w) + Real.cos (m.n th) * Real.sin (radians w) := by
    rw [hMdef, Real.sin_add_int_mul_two_pi, Real.sin_add]
  have hang : phi * Real.pi / 180 = th + radians w := by
    rw [hphi, hth]; unfold Mog.theta radians; ring
  have hsphi : sinDeg phi = Real.sin th * Real.cos (radians w) + Real.cos th * Real.sin (radians w) := by
    unfold sinDeg; rw [hang, Real.sin_add]
  have hcphi : cosDeg phi = Real.cos th * Real.cos (radians w) - Real.sin th * Real.sin (radians w) := by
    unfold cosDeg; rw [hang, Real.cos_add]
  have hs2 := s_sq m
  have hsense : sense m.clockwise = m.s := rfl
  have cosM' : Real.cos M = -(m.s * sinDeg phi) := by rw [cosM, hsM, hcM, hsphi]; ring
  have sinM' : Real.sin M = m.s * cosDeg phi := by rw [sinM, hsM, hcM, hcphi]; ring
  obtain ⟨b1, b2, b3⟩ := ellipse_near he0 he1 hd0 hd1 hkep hE
  have hpar : m.parallelAxis = 4 * a * m.e := by
    show _ = 4 * a * (m.parallelAxis / (4 * m.a)); rw [hma]; field_simp
  have htra : m.transverseAxis = 2 * a * m.delta := by
    show _ = 2 * a * (m.transverseAxis / (2 * m.a)); rw [hma]; field_simp
  have herr' : err = a * (3 * (m.e + m.delta) ^ 2 + m.e * 1e-6) := by
    rw [herr, hpar, htra]; field_simp; ring
  have hpos : position a o.eccentricity o.inclination o.raan o.perigee nu =
      turn (radians m.orbit.raan) (((m.pPeri th).smul (a * (Real.cos E - m.e))).add
        (((m.t th).smul m.s).smul (a * (Real.sqrt (1 - m.e ^ 2) * Real.sin E)))) := by
    rw [hee, position_eccentric he0 (by linarith) hK.along hK.across, hN, hP, turn_cross, quadrature m th]
    simp only [turn_add, turn_smul]
  have dot_comb : ∀ (P T X Y : V3) (p q x y : ℝ), ((P.smul p).add ((T.smul m.s).smul q)).dot ((X.smul x).add (Y.smul y)) =
      p * (x * P.dot X + y * P.dot Y) + q * m.s * (x * T.dot X + y * T.dot Y) := by
    intro P T X Y p q x y
    simp only [V3.dot, V3.add, V3.smul]; ring
  have hPX := peri_node m hd th
  have hPY := peri_across m hd th
  have hPN := peri_left m hd th
  have hTX := t_node m hd th
  have hTY := t_across m hd th
  have hTN := t_left m th
  have scale : ∀ x B : ℝ, |x| ≤ B → |a * x| ≤ a * B := by
    intro x B hx; rw [abs_mul, abs_of_pos ha0]; exact mul_le_mul_of_nonneg_left hx ha0.le
  rw [hsense, herr', hpos]
  refine ⟨?_, ?_, ?_⟩
  · refine le_trans (le_of_eq ?_) (scale _ _ b2)
    congr 1
    unfold ahead
    rw [reference_ahead, turn_dot, dot_comb, hPX, hPY, hTX, hTY, hpar]
    have e1 : m.s * Real.cos th = Real.sin (m.n th) := hsM.symm
    have e2 : m.s * Real.sin th = -Real.cos (m.n th) := by rw [hcM]; ring
    have e3 : m.s * cosDeg phi = Real.sin M := sinM'.symm
    linear_combination (a * (Real.cos E - m.e) * Real.cos m.delta) * sinM -
      (a * Real.sqrt (1 - m.e ^ 2) * Real.sin E) * cosM - (2 * a * m.e) * e3 -
      (a * Real.sqrt (1 - m.e ^ 2) * Real.sin E * Real.sin (radians w)) * e1 -
      (a * Real.sqrt (1 - m.e ^ 2) * Real.sin E * Real.cos (radians w)) * e2
  · refine le_trans (le_of_eq ?_) (scale _ _ b1)
    congr 1
    unfold above
    rw [reference_up, turn_dot, dot_comb, hPX, hPY, hTX, hTY, hpar]
    have e1 : m.s * Real.cos th = Real.sin (m.n th) := hsM.symm
    have e2 : m.s * Real.sin th = -Real.cos (m.n th) := by rw [hcM]; ring
    have e3 : m.s * sinDeg phi = -Real.cos M := by rw [cosM']; ring
    linear_combination (-(a * (Real.cos E - m.e) * Real.cos m.delta)) * cosM -
      (a * Real.sqrt (1 - m.e ^ 2) * Real.sin E) * sinM - (a * m.e) * e3 +
      (a * Real.sqrt (1 - m.e ^ 2) * Real.sin E * Real.cos (radians w)) * e1 -
      (a * Real.sqrt (1 - m.e ^ 2) * Real.sin E * Real.sin (radians w)) * e2
  · refine le_trans (le_of_eq ?_) (scale _ _ b3)
    unfold leftward
    have e4 : (((m.pPeri th).smul (a * (Real.cos E - m.e))).add
        (((m.t th).smul m.s).smul (a * (Real.sqrt (1 - m.e ^ 2) * Real.sin E)))).dot m.l0 =
        a * (Real.cos E - m.e) * (m.pPeri th).dot m.l0 +
        m.s * (a * (Real.sqrt (1 - m.e ^ 2) * Real.sin E)) * (m.t th).dot m.l0 := by
      simp only [V3.dot, V3.add, V3.smul]; ring
    rw [lead_normal, turn_dot, e4, hPN, hTN, htra, cosM']
    have hsabs : |m.s| = 1 := by unfold Mog.s; split_ifs <;> norm_num
    rw [← one_mul |a * _|, ← hsabs, ← abs_mul]
    congr 1
    linear_combination (-(a * m.delta * sinDeg phi)) * hs2

/-- The hypotheses of C143 are met: any place of the orbit of a member is reached after some time. -/
example (e anomaly nu : ℝ) (he0 : 0 ≤ e) (he1 : e < 1) : ∃ w E0 M0 E,
    KeplerAnomalies e (anomaly * Real.pi / 180) E0 M0 ∧ KeplerAnomalies e (nu * Real.pi / 180) E (M0 + w * Real.pi / 180) := by
  refine ⟨(Lemmas.meanOf e (nu * Real.pi / 180) - Lemmas.meanOf e (anomaly * Real.pi / 180)) * (180 / Real.pi), _, _,
    Lemmas.eccOf e (nu * Real.pi / 180), Lemmas.kepler_eccOf he0 he1 _, ?_⟩
  have := Lemmas.kepler_eccOf he0 he1 (nu * Real.pi / 180)
  have hpi := Real.pi_pos
  convert this using 1
  field_simp; ring

/-- The other hypotheses: members of the group with axes of 1 and 2 km. -/
example : ∃ fuel ms sat, (smallGroup 0).members fuel = .ok ms ∧ ms[1]? = some sat ∧
    0 < (smallGroup 0).orbit.altitude + meanRadius ∧ (smallGroup 0).parallelAxis ≤ (smallGroup 0).orbit.altitude + meanRadius ∧
    (smallGroup 0).transverseAxis ≤ 2 * ((smallGroup 0).orbit.altitude + meanRadius) := by
  obtain ⟨fuel, ms, h⟩ := smallGroup_members
  have hlen := (C36_geometry _ fuel ms (h 0)).1
  have hR := meanRadius_pos
  have h1 : 1 < ms.length := by rw [hlen]; norm_num [smallGroup]
  refine ⟨fuel, ms, ms[1], h 0, List.getElem?_eq_getElem h1, ?_, ?_, ?_⟩
  · show 0 < 500000 + meanRadius; linarith
  · show 1000 ≤ 500000 + meanRadius; linarith
  · show 2000 ≤ 2 * (500000 + meanRadius); linarith

end Tatc.Props
