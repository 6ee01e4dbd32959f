import Verif.Model.Mog
import Verif.Spec.Orbit
import Verif.Props.Walker
import Verif.Props.Names
import Mathlib.Analysis.SpecialFunctions.Trigonometric.Inverse
import Mathlib.Analysis.SpecificLimits.Basic

/-!
# C35, C36: mutual orbiting groups
-/

namespace Tatc.Props
open Tatc.Num Tatc.Orbit Tatc.Spec Tatc.Constellation
open scoped Classical

/-! ## C35 -/

theorem keplerLoop_step (n e : ℝ) (fuel : Nat) (prev psi : ℝ) (h : |psi - prev| > 1e-6) :
    keplerLoop n e (fuel + 1) prev psi = keplerLoop n e fuel psi (n + e * Real.sin psi) := by
  rw [keplerLoop, if_pos h]

theorem sin_sub_le (a b : ℝ) : |Real.sin a - Real.sin b| ≤ |a - b| := by
  rw [Real.sin_sub_sin, abs_mul, abs_mul]
  have h1 : |Real.sin ((a - b) / 2)| ≤ |(a - b) / 2| := Real.abs_sin_le_abs
  have h2 := Real.abs_cos_le_one ((a + b) / 2)
  have h3 : |(a - b) / 2| = |a - b| / 2 := by rw [abs_div]; norm_num
  have h4 : |(2 : ℝ)| = 2 := by norm_num
  rw [h4]
  rw [h3] at h1
  nlinarith [abs_nonneg (Real.sin ((a - b) / 2)), abs_nonneg (Real.cos ((a + b) / 2)), abs_nonneg (a - b)]

/-- From a step of the iteration the loop ends after as many further steps as it takes for the
geometric bound to reach the tolerance. -/
theorem keplerLoop_ends (n e : ℝ) (he0 : 0 ≤ e) (d : Nat) (prev : ℝ)
    (hd : e ^ d * |n + e * Real.sin prev - prev| ≤ 1e-6) :
    ∃ psi, (∀ fuel, d < fuel → keplerLoop n e fuel prev (n + e * Real.sin prev) = .ok psi) ∧
      |psi - (n + e * Real.sin psi)| ≤ e * 1e-6 := by
  induction d generalizing prev with
  | zero =>
    refine ⟨n + e * Real.sin prev, ?_, ?_⟩
    · intro fuel hf
      cases fuel with
      | zero => omega
      | succ f =>
        rw [keplerLoop, if_neg]
        rw [pow_zero, one_mul] at hd
        exact not_lt.mpr hd
    · rw [pow_zero, one_mul] at hd
      set psi := n + e * Real.sin prev with hpsi
      have : psi - (n + e * Real.sin psi) = e * (Real.sin prev - Real.sin psi) := by rw [hpsi]; ring
      rw [this, abs_mul, abs_of_nonneg he0]
      refine mul_le_mul_of_nonneg_left (le_trans (sin_sub_le _ _) ?_) he0
      rw [abs_sub_comm]; exact hd
  | succ d ih =>
    by_cases hc : |n + e * Real.sin prev - prev| > 1e-6
    · set psi := n + e * Real.sin prev with hpsi
      have hstep : e ^ d * |n + e * Real.sin psi - psi| ≤ 1e-6 := by
        have : n + e * Real.sin psi - psi = e * (Real.sin psi - Real.sin prev) := by rw [hpsi]; ring
        rw [this, abs_mul, abs_of_nonneg he0, ← mul_assoc, ← pow_succ]
        refine le_trans (mul_le_mul_of_nonneg_left (sin_sub_le _ _) (by positivity)) hd
      obtain ⟨r, hr, hr2⟩ := ih psi hstep
      refine ⟨r, ?_, hr2⟩
      intro fuel hf
      cases fuel with
      | zero => omega
      | succ f => rw [keplerLoop_step _ _ _ _ _ hc]; exact hr f (by omega)
    · exact (by
        obtain ⟨r, hr, hr2⟩ := (show ∃ psi, (∀ fuel, 0 < fuel →
            keplerLoop n e fuel prev (n + e * Real.sin prev) = .ok psi) ∧
              |psi - (n + e * Real.sin psi)| ≤ e * 1e-6 from by
          refine ⟨n + e * Real.sin prev, ?_, ?_⟩
          · intro fuel hf
            cases fuel with
            | zero => omega
            | succ f => rw [keplerLoop, if_neg hc]
          · set psi := n + e * Real.sin prev with hpsi
            have : psi - (n + e * Real.sin psi) = e * (Real.sin prev - Real.sin psi) := by rw [hpsi]; ring
            rw [this, abs_mul, abs_of_nonneg he0]
            refine mul_le_mul_of_nonneg_left (le_trans (sin_sub_le _ _) ?_) he0
            rw [abs_sub_comm]; exact not_lt.mp hc)
        exact ⟨r, fun fuel hf => hr fuel (by omega), hr2⟩)

/-- C35: for an eccentricity below one the loop ends, after a number of steps that works for every
larger bound too, with a solution of Kepler's equation `psi - e sin psi = n` to within `1e-6`. -/
theorem C35_terminates (n e : ℝ) (he0 : 0 ≤ e) (he1 : e < 1) :
    ∃ steps psi, (∀ fuel, steps ≤ fuel → keplerLoop n e fuel 0 0.1 = .ok psi) ∧
      |psi - e * Real.sin psi - n| ≤ 1e-6 := by
  have h0 : |(0.1 : ℝ) - 0| > 1e-6 := by rw [sub_zero, abs_of_pos] <;> norm_num
  set D := |n + e * Real.sin 0.1 - 0.1|
  have hlim : Filter.Tendsto (fun k : ℕ => e ^ k * D) Filter.atTop (nhds (0 * D)) :=
    (tendsto_pow_atTop_nhds_zero_of_lt_one he0 he1).mul_const D
  rw [zero_mul] at hlim
  obtain ⟨d, hd⟩ := (hlim.eventually (ge_mem_nhds (show (0 : ℝ) < 1e-6 by norm_num))).exists
  obtain ⟨psi, h1, h2⟩ := keplerLoop_ends n e he0 d 0.1 hd
  refine ⟨d + 2, psi, ?_, ?_⟩
  · intro fuel hf
    obtain ⟨f, rfl⟩ : ∃ f, fuel = f + 1 := ⟨fuel - 1, by omega⟩
    rw [keplerLoop_step _ _ _ _ _ h0]
    exact h1 f (by omega)
  · have : psi - e * Real.sin psi - n = psi - (n + e * Real.sin psi) := by ring
    rw [this]
    refine le_trans h2 ?_
    nlinarith

/-- Whatever the bound, an answer solves Kepler's equation to the tolerance. -/
theorem C35_answer (n e : ℝ) (he0 : 0 ≤ e) (he1 : e < 1) (fuel : Nat) (psi : ℝ)
    (h : keplerLoop n e fuel 0 0.1 = .ok psi) : |psi - e * Real.sin psi - n| ≤ 1e-6 := by
  obtain ⟨steps, psi', h1, h2⟩ := C35_terminates n e he0 he1
  have mono : ∀ f prev cur r, keplerLoop n e f prev cur = .ok r → keplerLoop n e (f + steps) prev cur = .ok r := by
    intro f
    induction f with
    | zero => intro prev cur r h; cases h
    | succ f ih =>
      intro prev cur r h
      rw [show f + 1 + steps = (f + steps) + 1 by omega]
      rw [keplerLoop] at h ⊢
      split_ifs at h ⊢ with hc
      · exact ih _ _ _ h
      · exact h
  have := mono _ _ _ _ h
  rw [h1 _ (by omega)] at this
  rw [← Except.ok.inj this]; exact h2

/-! ## Vectors -/

theorem gram (a b p : V3) :
    ((a.cross b).smul (p.dot (a.cross b))).add
      ((a.smul (p.dot a * b.dot b - p.dot b * a.dot b)).add (b.smul (p.dot b * a.dot a - p.dot a * a.dot b))) =
    p.smul (a.dot a * b.dot b - a.dot b ^ 2) := by
  ext <;> simp only [V3.cross, V3.dot, V3.smul, V3.add] <;> ring

/-- A unit vector across `l` is given by its components along `u` and `l × u`. -/
theorem in_plane (l u p : V3) (hl : l.dot l = 1) (hu : u.dot u = 1) (hlu : l.dot u = 0) (hp : p.dot l = 0) :
    p = (u.smul (p.dot u)).add ((l.cross u).smul (p.dot (l.cross u))) := by
  have h := gram l u p
  rw [hl, hu, hlu, hp] at h
  have hx := congrArg V3.x h
  have hy := congrArg V3.y h
  have hz := congrArg V3.z h
  simp only [V3.smul, V3.add] at hx hy hz
  ext <;> simp only [V3.smul, V3.add]
  · linarith
  · linarith
  · linarith

theorem cross_sq (a b : V3) : (a.cross b).dot (a.cross b) = a.dot a * b.dot b - a.dot b ^ 2 := by
  simp only [V3.cross, V3.dot]; ring

/-- Turning about the polar axis. -/
noncomputable def turn (phi : ℝ) (a : V3) : V3 :=
  ⟨Real.cos phi * a.x - Real.sin phi * a.y, Real.sin phi * a.x + Real.cos phi * a.y, a.z⟩

theorem turn_dot (phi : ℝ) (a b : V3) : (turn phi a).dot (turn phi b) = a.dot b := by
  have h := Real.sin_sq_add_cos_sq phi
  simp only [turn, V3.dot]
  linear_combination (a.x * b.x + a.y * b.y) * h

theorem turn_cross (phi : ℝ) (a b : V3) : (turn phi a).cross (turn phi b) = turn phi (a.cross b) := by
  have h := Real.sin_sq_add_cos_sq phi
  ext <;> simp only [turn, V3.cross]
  · ring
  · ring
  · linear_combination (a.x * b.y - a.y * b.x) * h

theorem turn_smul (phi c : ℝ) (a : V3) : turn phi (a.smul c) = (turn phi a).smul c := by
  ext <;> simp only [turn, V3.smul] <;> ring

theorem turn_add (phi : ℝ) (a b : V3) : turn phi (a.add b) = (turn phi a).add (turn phi b) := by
  ext <;> simp only [turn, V3.add] <;> ring

theorem arctan2_sin (y x r : ℝ) (hr : 0 ≤ r) (h : x ^ 2 + y ^ 2 = r ^ 2) : r * Real.sin (arctan2 y x) = y := by
  have hn : ‖(⟨x, y⟩ : ℂ)‖ = r := by
    rw [Complex.norm_def, Complex.normSq_mk, show x * x + y * y = r ^ 2 by rw [← h]; ring, Real.sqrt_sq hr]
  have := Complex.norm_mul_sin_arg (⟨x, y⟩ : ℂ)
  rw [hn] at this; exact this

theorem arctan2_cos (y x r : ℝ) (hr : 0 ≤ r) (h : x ^ 2 + y ^ 2 = r ^ 2) : r * Real.cos (arctan2 y x) = x := by
  have hn : ‖(⟨x, y⟩ : ℂ)‖ = r := by
    rw [Complex.norm_def, Complex.normSq_mk, show x * x + y * y = r ^ 2 by rw [← h]; ring, Real.sqrt_sq hr]
  have := Complex.norm_mul_cos_arg (⟨x, y⟩ : ℂ)
  rw [hn] at this; exact this

theorem sinDeg_report (x : ℝ) : sinDeg (npMod (360 + degrees x) 360) = Real.sin x := by
  obtain ⟨k, hk⟩ := npMod_spec (360 + degrees x) 360
  rw [hk]; unfold sinDeg degrees
  rw [← Real.sin_add_int_mul_two_pi x (k + 1)]
  congr 1; push_cast; field_simp; ring

theorem cosDeg_report (x : ℝ) : cosDeg (npMod (360 + degrees x) 360) = Real.cos x := by
  obtain ⟨k, hk⟩ := npMod_spec (360 + degrees x) 360
  rw [hk]; unfold cosDeg degrees
  rw [← Real.cos_add_int_mul_two_pi x (k + 1)]
  congr 1; push_cast; field_simp; ring

theorem sinDeg_radians (x : ℝ) : sinDeg x = Real.sin (radians x) := by
  unfold sinDeg radians; congr 1; ring

theorem cosDeg_radians (x : ℝ) : cosDeg x = Real.cos (radians x) := by
  unfold cosDeg radians; congr 1; ring

/-! ## C36 -/

section Geometry
variable {I : Type} (m : Mog I)

theorem l0_unit : m.l0.dot m.l0 = 1 := by
  have h := Real.sin_sq_add_cos_sq (radians m.orbit.inclination)
  simp only [Mog.l0, V3.dot, V3.add, V3.smul]
  linear_combination h

theorem l_components (th : ℝ) :
    m.l th = ⟨Real.sin m.delta * Real.sin th,
      -(Real.cos m.delta * Real.sin (radians m.orbit.inclination)) +
        Real.sin m.delta * Real.cos th * Real.cos (radians m.orbit.inclination),
      Real.cos m.delta * Real.cos (radians m.orbit.inclination) +
        Real.sin m.delta * Real.cos th * Real.sin (radians m.orbit.inclination)⟩ := by
  ext <;> simp only [Mog.l, Mog.l0, V3.cross, V3.add, V3.smul] <;> ring

theorem l0_components :
    m.l0 = ⟨0, -Real.sin (radians m.orbit.inclination), Real.cos (radians m.orbit.inclination)⟩ := by
  ext <;> simp only [Mog.l0, V3.add, V3.smul] <;> ring

theorem l_unit (th : ℝ) : (m.l th).dot (m.l th) = 1 := by
  have h1 := Real.sin_sq_add_cos_sq (radians m.orbit.inclination)
  have h2 := Real.sin_sq_add_cos_sq m.delta
  have h3 := Real.sin_sq_add_cos_sq th
  rw [l_components]
  simp only [V3.dot]
  linear_combination (Real.cos m.delta ^ 2 + Real.sin m.delta ^ 2 * Real.cos th ^ 2) * h1 +
    Real.sin m.delta ^ 2 * h3 + h2

theorem l_dot_l0 (th : ℝ) : (m.l th).dot m.l0 = Real.cos m.delta := by
  have h1 := Real.sin_sq_add_cos_sq (radians m.orbit.inclination)
  rw [l_components, l0_components]
  simp only [V3.dot]
  linear_combination Real.cos m.delta * h1

theorem s_sq : m.s ^ 2 = 1 := by unfold Mog.s; split_ifs <;> norm_num

variable (hd : Real.sin m.delta ≠ 0)
include hd

theorem t_unit (th : ℝ) : (m.t th).dot (m.t th) = 1 := by
  have h := cross_sq (m.l th) m.l0
  rw [l_unit, l0_unit, l_dot_l0] at h
  have h2 := Real.sin_sq_add_cos_sq m.delta
  have h3 : ((m.l th).cross m.l0).dot ((m.l th).cross m.l0) = Real.sin m.delta ^ 2 := by rw [h]; linarith
  have : (m.t th).dot (m.t th) =
      (1 / Real.sin m.delta) ^ 2 * ((m.l th).cross m.l0).dot ((m.l th).cross m.l0) := by
    simp only [Mog.t, V3.dot, V3.smul]; ring
  rw [this, h3]; field_simp

omit hd in
theorem t_dot_l (th : ℝ) : (m.t th).dot (m.l th) = 0 := by
  simp only [Mog.t, V3.dot, V3.smul, V3.cross]; ring

omit hd in
theorem pPeri_dot_l (th : ℝ) : (m.pPeri th).dot (m.l th) = 0 := by
  simp only [Mog.pPeri, V3.dot, V3.smul, V3.cross]; ring

theorem pPeri_unit (th : ℝ) : (m.pPeri th).dot (m.pPeri th) = 1 := by
  have h := cross_sq (m.t th) (m.l th)
  rw [t_unit m hd, l_unit, t_dot_l] at h
  have h2 := s_sq m
  have : (m.pPeri th).dot (m.pPeri th) =
      m.s ^ 2 * ((m.t th).cross (m.l th)).dot ((m.t th).cross (m.l th)) := by
    simp only [Mog.pPeri, V3.dot, V3.smul]; ring
  rw [this, h, h2]; norm_num

omit hd in
theorem lz_range (th : ℝ) : -1 ≤ (m.l th).z ∧ (m.l th).z ≤ 1 := by
  have h := l_unit m th
  simp only [V3.dot] at h
  constructor <;> nlinarith [sq_nonneg (m.l th).x, sq_nonneg (m.l th).y]

omit hd in
theorem cos_i (th : ℝ) : Real.cos (m.i th) = (m.l th).z := by
  unfold Mog.i
  rw [show (m.l th).dot (V3.mk 0 0 1) = (m.l th).z by simp only [V3.dot]; ring]
  exact Real.cos_arccos (lz_range m th).1 (lz_range m th).2

omit hd in
theorem sin_i (th : ℝ) : 0 ≤ Real.sin (m.i th) ∧
    (m.l th).x ^ 2 + (m.l th).y ^ 2 = Real.sin (m.i th) ^ 2 := by
  have h := l_unit m th
  simp only [V3.dot] at h
  have h2 := Real.sin_sq_add_cos_sq (m.i th)
  rw [cos_i] at h2
  refine ⟨?_, by linarith⟩
  unfold Mog.i
  exact Real.sin_nonneg_of_nonneg_of_le_pi (Real.arccos_nonneg _) (Real.arccos_le_pi _)

omit hd in
theorem node_spec (th : ℝ) : Real.sin (m.i th) * Real.sin (m.node th) = (m.l th).x ∧
    Real.sin (m.i th) * Real.cos (m.node th) = -(m.l th).y := by
  obtain ⟨h0, h1⟩ := sin_i m th
  unfold Mog.node
  rw [show (m.l th).dot (V3.mk 1 0 0) = (m.l th).x by simp only [V3.dot]; ring,
    show ((m.l th).smul (-1)).dot (V3.mk 0 1 0) = -(m.l th).y by simp only [V3.dot, V3.smul]; ring]
  have h2 : (-(m.l th).y) ^ 2 + (m.l th).x ^ 2 = Real.sin (m.i th) ^ 2 := by rw [← h1]; ring
  exact ⟨arctan2_sin _ _ _ h0 h2, arctan2_cos _ _ _ h0 h2⟩

omit hd in
theorem pNode_unit (th : ℝ) : (m.pNode th).dot (m.pNode th) = 1 := by
  have h := Real.sin_sq_add_cos_sq (m.node th)
  simp only [Mog.pNode, V3.dot, V3.add, V3.smul]
  linear_combination h

omit hd in
theorem l_dot_pNode (th : ℝ) : (m.l th).dot (m.pNode th) = 0 := by
  obtain ⟨h1, h2⟩ := node_spec m th
  have : (m.l th).dot (m.pNode th) = (m.l th).x * Real.cos (m.node th) + (m.l th).y * Real.sin (m.node th) := by
    simp only [Mog.pNode, V3.dot, V3.add, V3.smul]; ring
  rw [this, ← h1, show (m.l th).y = -(Real.sin (m.i th) * Real.cos (m.node th)) by linarith]
  ring

theorem w_spec (th : ℝ) :
    Real.cos (m.w th) = (m.pPeri th).dot (m.pNode th) ∧
      Real.sin (m.w th) = (m.pPeri th).dot ((m.l th).cross (m.pNode th)) := by
  have hv : ((m.l th).cross (m.pNode th)).dot ((m.l th).cross (m.pNode th)) = 1 := by
    rw [cross_sq, l_unit, pNode_unit, l_dot_pNode]; norm_num
  have huv : (m.pNode th).dot ((m.l th).cross (m.pNode th)) = 0 := by
    simp only [V3.dot, V3.cross]; ring
  have hp := in_plane (m.l th) (m.pNode th) (m.pPeri th) (l_unit m th) (pNode_unit m th) (l_dot_pNode m th)
    (pPeri_dot_l m th)
  have hunit := pPeri_unit m hd th
  set u := m.pNode th
  set v := (m.l th).cross u
  set p := m.pPeri th
  have hsum : (p.dot u) ^ 2 + (p.dot v) ^ 2 = (1 : ℝ) ^ 2 := by
    have e : p.dot p = p.dot ((u.smul (p.dot u)).add (v.smul (p.dot v))) := congrArg p.dot hp
    have e2 : p.dot ((u.smul (p.dot u)).add (v.smul (p.dot v))) = (p.dot u) ^ 2 + (p.dot v) ^ 2 := by
      simp only [V3.dot, V3.add, V3.smul]; ring
    rw [one_pow, ← hunit, e, e2]
  have h1 := arctan2_cos _ _ 1 zero_le_one hsum
  have h2 := arctan2_sin _ _ 1 zero_le_one hsum
  rw [one_mul] at h1 h2
  exact ⟨h1, h2⟩

omit hd in
/-- The reported angles give the direction of the normal. -/
theorem normal_report (th : ℝ) :
    normal (npMod (360 + degrees (m.i th)) 360) (npMod (360 + degrees (radians m.orbit.raan + m.node th)) 360) =
      turn (radians m.orbit.raan) (m.l th) := by
  obtain ⟨h1, h2⟩ := node_spec m th
  unfold normal
  rw [sinDeg_report, sinDeg_report, cosDeg_report, cosDeg_report, Real.sin_add, Real.cos_add, cos_i]
  have h2' : (m.l th).y = -(Real.sin (m.i th) * Real.cos (m.node th)) := by linarith
  ext <;> simp only [turn]
  · rw [← h1, h2']; ring
  · rw [← h1, h2']; ring

omit hd in
theorem lead_normal : normal m.orbit.inclination m.orbit.raan = turn (radians m.orbit.raan) m.l0 := by
  rw [l0_components]
  unfold normal
  rw [sinDeg_radians, sinDeg_radians, cosDeg_radians, cosDeg_radians]
  ext <;> simp only [turn] <;> ring

omit hd in
theorem lead_node : nodeDirection m.orbit.raan = turn (radians m.orbit.raan) (V3.mk 1 0 0) := by
  unfold nodeDirection
  rw [sinDeg_radians, cosDeg_radians]
  ext <;> simp only [turn] <;> ring

theorem perigee_report (th : ℝ) :
    perigeeDirection (npMod (360 + degrees (m.i th)) 360)
      (npMod (360 + degrees (radians m.orbit.raan + m.node th)) 360) (npMod (360 + degrees (m.w th)) 360) =
      turn (radians m.orbit.raan) (m.pPeri th) := by
  obtain ⟨h1, h2⟩ := node_spec m th
  obtain ⟨w1, w2⟩ := w_spec m hd th
  have hp := in_plane (m.l th) (m.pNode th) (m.pPeri th) (l_unit m th) (pNode_unit m th) (l_dot_pNode m th)
    (pPeri_dot_l m th)
  rw [← w1, ← w2] at hp
  rw [hp]
  unfold perigeeDirection
  rw [sinDeg_report, sinDeg_report, sinDeg_report, cosDeg_report, cosDeg_report, cosDeg_report,
    Real.sin_add, Real.cos_add, cos_i]
  have h2' : (m.l th).y = -(Real.sin (m.i th) * Real.cos (m.node th)) := by linarith
  have h3 := Real.sin_sq_add_cos_sq (m.node th)
  ext <;> simp only [turn, V3.add, V3.smul, V3.cross, Mog.pNode]
  · ring
  · ring
  · rw [← h1, h2']
    linear_combination (-(Real.sin (m.w th) * Real.sin (m.i th))) * h3

end Geometry

/-- Members are what the orbits are, in order. -/
theorem mog_members {I : Type} (m : Mog I) (fuel : Nat) (ms : List (Satellite I)) (h : m.members fuel = .ok ms) :
    m.a ≠ 0 ∧ ms.length = m.satellites ∧ ∀ (k : Nat) (sat : Satellite I), ms[k]? = some sat →
      ∃ o, m.memberOrbit fuel (m.theta k) = .ok o ∧
        sat = ⟨zeroPad m.name m.satellites (k + 1), .keplerian o, m.instruments⟩ := by
  unfold Mog.members at h
  simp only [bind_eq_ok, require_eq_ok, pure, Except.pure, Except.ok.injEq] at h
  obtain ⟨_, ha, os, hos, rfl⟩ := h
  have hf := mapM_eq_ok _ _ _ hos
  have hlen : os.length = m.satellites := by rw [← hf.length_eq, List.length_range]
  refine ⟨ha, by simp [hlen], ?_⟩
  intro k sat hk
  rw [List.getElem?_map, List.getElem?_zipIdx] at hk
  simp only [Option.map_map, Option.map_eq_some_iff] at hk
  obtain ⟨o, ho, rfl⟩ := hk
  obtain ⟨hk', rfl⟩ := List.getElem?_eq_some_iff.mp ho
  refine ⟨os[k], ?_, by simp⟩
  have := (List.forall₂_iff_get.mp hf).2 k (by rw [List.length_range, ← hlen]; exact hk') hk'
  simpa using this

/-- What C36 asks of the orbit of member `k`: everything in terms of the angles it reports. -/
structure Tilted (lead : Circular) (parallelAxis transverseAxis : ℝ) (clockwise : Bool) (satellites k : Nat)
    (o : Keplerian) : Prop where
  /-- the size of the reference orbit -/
  altitude : o.altitude = lead.altitude
  epoch : o.epoch = lead.epoch
  /-- the parallel axis of the mutual orbit is four times semimajor axis times eccentricity -/
  eccentricity : 4 * (lead.altitude + meanRadius) * o.eccentricity = parallelAxis
  /-- the angles are in range -/
  range : Keplerian.Valid o
  /-- the normal is tilted by the requested angle ... -/
  tilt : (normal o.inclination o.raan).dot (normal lead.inclination lead.raan) =
    Real.cos (transverseAxis / (2 * (lead.altitude + meanRadius)))
  /-- ... towards the direction of the lead's node turned by `k` steps -/
  clock_node : (normal o.inclination o.raan).dot (nodeDirection lead.raan) =
    Real.sin (transverseAxis / (2 * (lead.altitude + meanRadius))) * Real.sin (2 * Real.pi * k / satellites)
  clock_across : (normal o.inclination o.raan).dot
      ((normal lead.inclination lead.raan).cross (nodeDirection lead.raan)) =
    Real.sin (transverseAxis / (2 * (lead.altitude + meanRadius))) * Real.cos (2 * Real.pi * k / satellites)
  /-- the normal and the direction of perigee are unit vectors at a right angle -/
  normal_unit : (normal o.inclination o.raan).dot (normal o.inclination o.raan) = 1
  perigee_unit : (perigeeDirection o.inclination o.raan o.perigee).dot
    (perigeeDirection o.inclination o.raan o.perigee) = 1
  perigee_plane : (perigeeDirection o.inclination o.raan o.perigee).dot (normal o.inclination o.raan) = 0
  /-- perigee is a quarter turn from the crossing of the two planes, on the side of the sense of turning -/
  perigee : perigeeDirection o.inclination o.raan o.perigee =
    ((((normal o.inclination o.raan).cross (normal lead.inclination lead.raan)).smul
      (1 / Real.sin (transverseAxis / (2 * (lead.altitude + meanRadius))))).cross
      (normal o.inclination o.raan)).smul (if clockwise then 1 else -1)

/-- C36: every generated member is tilted as requested. -/
theorem C36_geometry {I : Type} (m : Mog I) (fuel : Nat) (ms : List (Satellite I)) (h : m.members fuel = .ok ms) :
    ms.length = m.satellites ∧ ∀ (k : Nat) (sat : Satellite I), ms[k]? = some sat →
      sat.instruments = m.instruments ∧ ∃ o, sat.orbit = .keplerian o ∧
        Tilted m.orbit m.parallelAxis m.transverseAxis m.clockwise m.satellites k o := by
  obtain ⟨ha, hlen, hm⟩ := mog_members m fuel ms h
  refine ⟨hlen, ?_⟩
  intro k sat hk
  obtain ⟨o, ho, rfl⟩ := hm k sat hk
  refine ⟨rfl, o, rfl, ?_⟩
  unfold Mog.memberOrbit at ho
  simp only [bind_eq_ok, require_eq_ok] at ho
  obtain ⟨_, hd, psi, hpsi, _, he, ho⟩ := ho
  obtain ⟨h1, h2, h3, h4, h5, rfl⟩ := (keplerian_make_ok _ _ _ _ _ _ _ _).mp ho
  have hN := normal_report m (m.theta k)
  have hP := perigee_report m hd (m.theta k)
  have hN0 := lead_normal m
  have hE := lead_node m
  have hdelta : m.transverseAxis / (2 * (m.orbit.altitude + meanRadius)) = m.delta := rfl
  have htheta : 2 * Real.pi * k / m.satellites = m.theta k := by unfold Mog.theta; ring
  have hs : (if m.clockwise = true then (1 : ℝ) else -1) = m.s := rfl
  refine ⟨rfl, rfl, ?_, ⟨⟨h1, h2, h3⟩, h4, h5⟩, ?_, ?_, ?_, ?_, ?_, ?_, ?_⟩
  · show 4 * m.a * (m.parallelAxis / (4 * m.a)) = _
    field_simp
  all_goals simp only [hdelta, htheta, hs]
  · rw [hN, hN0, turn_dot, l_dot_l0]
  · rw [hN, hE, turn_dot, l_components]
    simp only [V3.dot]; ring
  · rw [hN, hN0, hE, turn_cross, turn_dot, l_components, l0_components]
    have hh := Real.sin_sq_add_cos_sq (radians m.orbit.inclination)
    simp only [V3.dot, V3.cross]
    linear_combination (Real.sin m.delta * Real.cos (m.theta k)) * hh
  · rw [hN, turn_dot, l_unit]
  · rw [hP, turn_dot, pPeri_unit m hd]
  · rw [hP, hN, turn_dot, pPeri_dot_l]
  · rw [hP, hN, hN0, turn_cross, ← turn_smul, turn_cross, ← turn_smul]
    rfl

/-- C35 and C36 together: the loops end and the members are generated, for every group whose
eccentricity is below one and whose planes stay short of turning right over. -/
theorem C36_generated {I : Type} (m : Mog I) (ho : Circular.Valid m.orbit) (ha : 0 < m.orbit.altitude + meanRadius)
    (hp0 : 0 < m.parallelAxis) (hp1 : m.parallelAxis < 4 * (m.orbit.altitude + meanRadius))
    (ht0 : 0 < m.transverseAxis)
    (ht1 : m.orbit.inclination * Real.pi / 180 + m.transverseAxis / (2 * (m.orbit.altitude + meanRadius)) < Real.pi) :
    ∃ steps ms, ∀ fuel, steps ≤ fuel → m.members fuel = .ok ms := by
  have ha' : 0 < m.a := ha
  have hd0 : 0 < m.delta := div_pos ht0 (by linarith)
  have hinc : radians m.orbit.inclination = m.orbit.inclination * Real.pi / 180 := by unfold radians; ring
  have hi0 : 0 ≤ radians m.orbit.inclination := by
    rw [hinc]; have := ho.2.1.1; have := Real.pi_pos; positivity
  have hi1 : radians m.orbit.inclination + m.delta < Real.pi := by rw [hinc]; exact ht1
  have hd1 : m.delta < Real.pi := by linarith
  have hsin : Real.sin m.delta ≠ 0 := (Real.sin_pos_of_pos_of_lt_pi hd0 hd1).ne'
  have he0 : 0 ≤ m.e := le_of_lt (div_pos hp0 (by linarith))
  have he1 : m.e < 1 := by
    show m.parallelAxis / (4 * m.a) < 1
    rw [div_lt_one (by linarith)]; exact hp1
  choose N psi hN _ using fun n : ℝ => C35_terminates n m.e he0 he1
  -- enough steps for every member
  have hbound : ∃ steps, ∀ k < m.satellites, N (m.n (m.theta k)) ≤ steps := by
    refine ⟨((List.range m.satellites).map fun k : Nat => N (m.n (m.theta k))).sum, fun k hk => ?_⟩
    exact List.single_le_sum (by simp) _ (List.mem_map.mpr ⟨k, List.mem_range.mpr hk, rfl⟩)
  obtain ⟨steps, hsteps⟩ := hbound
  have hlz : ∀ th, -1 < (m.l th).z := by
    intro th
    rw [l_components]
    simp only
    have h1 := Real.neg_one_le_cos th
    have h2 : 0 ≤ Real.sin m.delta * Real.sin (radians m.orbit.inclination) :=
      mul_nonneg (Real.sin_nonneg_of_nonneg_of_le_pi hd0.le hd1.le)
        (Real.sin_nonneg_of_nonneg_of_le_pi hi0 (by linarith))
    have h3 : -1 < Real.cos (m.delta + radians m.orbit.inclination) := by
      rw [← Real.cos_pi]
      exact Real.cos_lt_cos_of_nonneg_of_le_pi (by linarith) le_rfl (by linarith)
    rw [Real.cos_add] at h3
    nlinarith
  have hinclination : ∀ th, npMod (360 + degrees (m.i th)) 360 < 180 := by
    intro th
    have hpi := Real.pi_pos
    have h1 : m.i th < Real.pi := by
      by_contra hge
      have heq : m.i th = Real.pi := le_antisymm (Real.arccos_le_pi _) (not_lt.mp hge)
      have := cos_i m th
      rw [heq, Real.cos_pi] at this
      have := hlz th
      linarith
    have h0 : 0 ≤ m.i th := Real.arccos_nonneg _
    have hdeg0 : 0 ≤ degrees (m.i th) := mul_nonneg h0 (by positivity)
    have hdeg1 : degrees (m.i th) < 180 := by
      unfold degrees
      calc m.i th * (180 / Real.pi) < Real.pi * (180 / Real.pi) := mul_lt_mul_of_pos_right h1 (by positivity)
        _ = 180 := by field_simp
    rw [show 360 + degrees (m.i th) = degrees (m.i th) + 360 * ((1 : ℤ) : ℝ) by push_cast; ring,
      npMod_eq_of_add _ (by norm_num), npMod_self_of_range hdeg0 (by linarith)]
    exact hdeg1
  let orb : Nat → Keplerian := fun k =>
    ⟨⟨m.orbit.altitude, npMod (360 + degrees (m.nu (psi (m.n (m.theta k))))) 360, m.orbit.epoch,
      npMod (360 + degrees (m.i (m.theta k))) 360,
      npMod (360 + degrees (radians m.orbit.raan + m.node (m.theta k))) 360⟩, m.e,
      npMod (360 + degrees (m.w (m.theta k))) 360⟩
  refine ⟨steps, ((List.range m.satellites).map orb).zipIdx.map fun o =>
    ⟨zeroPad m.name m.satellites (o.2 + 1), .keplerian o.1, m.instruments⟩, fun fuel hf => ?_⟩
  unfold Mog.members
  simp only [bind_eq_ok, require_eq_ok, pure, Except.pure]
  refine ⟨(), ha'.ne', (List.range m.satellites).map orb, ?_, rfl⟩
  apply mapM_ok
  intro k hk
  unfold Mog.memberOrbit
  simp only [bind_eq_ok, require_eq_ok]
  refine ⟨(), hsin, psi (m.n (m.theta k)),
    hN _ _ (le_trans (hsteps k (List.mem_range.mp hk)) hf), (), by nlinarith, ?_⟩
  rw [keplerian_make_ok]
  exact ⟨npMod_inTurn _, ⟨(npMod_inTurn _).1, hinclination _⟩, npMod_inTurn _, he0, npMod_inTurn _, rfl⟩

theorem keplerian_make_cases (a t : ℝ) (ep : Int) (i r e p : ℝ) :
    (∃ o, Keplerian.make a t ep i r e p = .ok o) ∨ Keplerian.make a t ep i r e p = .error .validationError := by
  unfold Keplerian.make Circular.make require
  split_ifs <;> first | exact Or.inr rfl | exact Or.inl ⟨_, rfl⟩

/-- The group of `C36_generated_false`. -/
noncomputable def overturned : Mog Unit :=
  ⟨"M".toList, ⟨500000, 0, 0, 179, 0⟩, (), 1000, 2 * (500000 + meanRadius) * (Real.pi / 180), true, 2⟩

/-- Beyond that limit C36 fails: a member whose plane is turned right over has an inclination of 180
degrees, which the orbit class refuses. -/
theorem C36_generated_false : ∃ m : Mog Unit,
    Circular.Valid m.orbit ∧ 0 ≤ m.orbit.altitude ∧ 0 < m.parallelAxis ∧ 0 < m.transverseAxis ∧ 0 < m.satellites ∧
      m.e < 1 ∧ ∃ steps, ∀ fuel, steps ≤ fuel → m.members fuel = .error .validationError := by
  have hR := meanRadius_pos
  have hpi := Real.pi_pos
  have ha : 0 < overturned.a := by show 0 < 500000 + meanRadius; linarith
  have hdelta : overturned.delta = Real.pi / 180 := by
    show 2 * (500000 + meanRadius) * (Real.pi / 180) / (2 * (500000 + meanRadius)) = _
    field_simp
  have he0 : 0 ≤ overturned.e := by
    show 0 ≤ 1000 / (4 * overturned.a); positivity
  have he1 : overturned.e < 1 := by
    show 1000 / (4 * overturned.a) < 1
    rw [div_lt_one (by linarith)]; show 1000 < 4 * (500000 + meanRadius); linarith
  refine ⟨overturned, ?_, by norm_num [overturned], by norm_num [overturned], ?_, by norm_num [overturned], he1, ?_⟩
  · refine ⟨⟨?_, ?_⟩, ⟨?_, ?_⟩, ?_, ?_⟩ <;> norm_num [overturned]
  · show 0 < 2 * (500000 + meanRadius) * (Real.pi / 180); positivity
  obtain ⟨n0, psi0, h0, -⟩ := C35_terminates (overturned.n (overturned.theta 0)) _ he0 he1
  obtain ⟨n1, psi1, h1, -⟩ := C35_terminates (overturned.n (overturned.theta 1)) _ he0 he1
  refine ⟨n0 + n1, fun fuel hf => ?_⟩
  have hsin : Real.sin overturned.delta ≠ 0 := by
    rw [hdelta]; exact (Real.sin_pos_of_pos_of_lt_pi (by positivity) (by linarith)).ne'
  have hcase : ∀ k, k = 0 ∨ k = 1 →
      (∃ b, overturned.memberOrbit fuel (overturned.theta k) = .ok b) ∨
        overturned.memberOrbit fuel (overturned.theta k) = .error .validationError := by
    intro k hk
    have hloop : ∃ psi, keplerLoop (overturned.n (overturned.theta k)) overturned.e fuel 0 0.1 = .ok psi := by
      rcases hk with rfl | rfl
      · exact ⟨psi0, h0 _ (by omega)⟩
      · exact ⟨psi1, h1 _ (by omega)⟩
    obtain ⟨psi, hpsi⟩ := hloop
    unfold Mog.memberOrbit require
    rw [if_pos hsin, hpsi, if_pos (by nlinarith)]
    exact keplerian_make_cases _ _ _ _ _ _ _
  have hlz : (overturned.l (overturned.theta 1)).z = -1 := by
    have hth : overturned.theta 1 = Real.pi := by
      show ((1 : Nat) : ℝ) * (2 * Real.pi / ((2 : Nat) : ℝ)) = Real.pi
      push_cast; ring
    rw [l_components, hth, Real.cos_pi, hdelta]
    have hr : radians overturned.orbit.inclination = Real.pi - Real.pi / 180 := by
      show radians 179 = _; unfold radians; ring
    have hs := Real.sin_sq_add_cos_sq (Real.pi / 180)
    simp only [hr, Real.cos_pi_sub, Real.sin_pi_sub]
    linear_combination -hs
  have hinc : npMod (360 + degrees (overturned.i (overturned.theta 1))) 360 = 180 := by
    have : overturned.i (overturned.theta 1) = Real.pi := by
      unfold Mog.i
      rw [show (overturned.l (overturned.theta 1)).dot (V3.mk 0 0 1) = (overturned.l (overturned.theta 1)).z by
        simp only [V3.dot]; ring, hlz, Real.arccos_neg_one]
    rw [this, show degrees Real.pi = 180 by unfold degrees; field_simp,
      show (360 + 180 : ℝ) = 180 + 360 * ((1 : ℤ) : ℝ) by norm_num, npMod_eq_of_add _ (by norm_num),
      npMod_self_of_range (by norm_num) (by norm_num)]
  have hbad : overturned.memberOrbit fuel (overturned.theta 1) = .error .validationError := by
    rcases hcase 1 (Or.inr rfl) with ⟨b, hb⟩ | hb
    · exfalso
      unfold Mog.memberOrbit at hb
      simp only [bind_eq_ok, require_eq_ok] at hb
      obtain ⟨_, _, psi, _, _, _, hb⟩ := hb
      obtain ⟨-, ⟨-, h2⟩, -⟩ := (keplerian_make_ok _ _ _ _ _ _ _ _).mp hb
      rw [hinc] at h2
      exact lt_irrefl _ h2
    · exact hb
  unfold Mog.members require
  rw [if_pos ha.ne']
  have hmap := mapM_error (fun k : Nat => overturned.memberOrbit fuel (overturned.theta k)) [0, 1]
    .validationError (fun k hk => hcase k (by simpa using hk)) ⟨1, by simp, hbad⟩
  have hmap' : (List.range overturned.satellites).mapM
      (fun k : Nat => overturned.memberOrbit fuel (overturned.theta k)) = .error .validationError := hmap
  simp only [bind, Except.bind, hmap']

/-- The hypotheses of `C36_generated` are met by a group of ordinary size. -/
example : ∃ m : Mog Unit, Circular.Valid m.orbit ∧ 0 < m.orbit.altitude + meanRadius ∧ 0 < m.parallelAxis ∧
    m.parallelAxis < 4 * (m.orbit.altitude + meanRadius) ∧ 0 < m.transverseAxis ∧
    m.orbit.inclination * Real.pi / 180 + m.transverseAxis / (2 * (m.orbit.altitude + meanRadius)) < Real.pi := by
  have hR := meanRadius_pos
  have hpi := Real.pi_gt_d2
  refine ⟨⟨"M".toList, ⟨500000, 0, 0, 90, 0⟩, (), 1000, 2000, true, 6⟩, ?_, ?_, ?_, ?_, ?_, ?_⟩
  · refine ⟨⟨?_, ?_⟩, ⟨?_, ?_⟩, ?_, ?_⟩ <;> norm_num
  · show 0 < 500000 + meanRadius; linarith
  · norm_num
  · show 1000 < 4 * (500000 + meanRadius); linarith
  · norm_num
  · show 90 * Real.pi / 180 + 2000 / (2 * (500000 + meanRadius)) < Real.pi
    have : 2000 / (2 * (500000 + meanRadius)) < 1 := by
      rw [div_lt_one (by linarith)]; linarith
    linarith

/-! ## C74 -/

/-- The reference position is not used: groups that differ only in the true anomaly of the reference
orbit have the same members. -/
theorem C74_anomaly_ignored {I : Type} (m : Mog I) (anomaly : ℝ) (fuel : Nat) :
    ({ m with orbit := { m.orbit with trueAnomaly := anomaly } } : Mog I).members fuel = m.members fuel := rfl

/-- A group with axes of 1 and 2 km around a reference satellite at anomaly `nu`. -/
noncomputable def smallGroup (nu : ℝ) : Mog Unit :=
  ⟨"M".toList, ⟨500000, nu, 0, 90, 0⟩, (), 1000, 2000, true, 6⟩

theorem smallGroup_members : ∃ fuel ms, ∀ nu, (smallGroup nu).members fuel = .ok ms := by
  have hR := meanRadius_pos
  have hpi := Real.pi_gt_d2
  obtain ⟨fuel, ms, h⟩ := C36_generated (smallGroup 0)
    (by refine ⟨⟨?_, ?_⟩, ⟨?_, ?_⟩, ?_, ?_⟩ <;> norm_num [smallGroup])
    (by show 0 < 500000 + meanRadius; linarith) (by norm_num [smallGroup])
    (by show 1000 < 4 * (500000 + meanRadius); linarith) (by norm_num [smallGroup])
    (by show 90 * Real.pi / 180 + 2000 / (2 * (500000 + meanRadius)) < Real.pi
        have : 2000 / (2 * (500000 + meanRadius)) < 1 := by
          rw [div_lt_one (by linarith)]; linarith
        linarith)
  exact ⟨fuel, ms, fun nu => (C74_anomaly_ignored (smallGroup 0) nu fuel).trans (h fuel le_rfl)⟩

/-- C74 is false: a group with axes of 1 and 2 km with a member more than 3 km away from the reference
satellite at the epoch. -/
theorem C74_near_reference_false : ∃ (nu : ℝ) (fuel : Nat) (ms : List (Satellite Unit)) (sat : Satellite Unit)
    (o : Keplerian), InTurn nu ∧ (smallGroup nu).members fuel = .ok ms ∧ sat ∈ ms ∧ sat.orbit = .keplerian o ∧
      (1000 + 2000) ^ 2 <
        distSq (position (500000 + meanRadius) o.eccentricity o.inclination o.raan o.perigee o.trueAnomaly)
          (position (500000 + meanRadius) 0 90 0 0 nu) := by
  obtain ⟨fuel, ms, h⟩ := smallGroup_members
  obtain ⟨hlen, hm⟩ := C36_geometry _ fuel ms (h 0)
  have h0 : 0 < ms.length := by rw [hlen]; norm_num [smallGroup]
  obtain ⟨-, o, ho, -⟩ := hm 0 ms[0] (List.getElem?_eq_getElem h0)
  set X := position (500000 + meanRadius) o.eccentricity o.inclination o.raan o.perigee o.trueAnomaly with hX
  have hR := meanRadius_pos
  have p0 : position (500000 + meanRadius) 0 90 0 0 0 = ⟨500000 + meanRadius, 0, 0⟩ := by
    ext <;> simp [position, perigeeDirection, V3.smul, sinDeg, cosDeg]
  have p1 : position (500000 + meanRadius) 0 90 0 0 180 = ⟨-(500000 + meanRadius), 0, 0⟩ := by
    have : (180 : ℝ) * Real.pi / 180 = Real.pi := by ring
    ext <;> simp [position, perigeeDirection, V3.smul, sinDeg, cosDeg, this]
  by_cases hc : (1000 + 2000) ^ 2 < distSq X (position (500000 + meanRadius) 0 90 0 0 0)
  · exact ⟨0, fuel, ms, ms[0], o, ⟨by norm_num, by norm_num⟩, h 0, List.getElem_mem h0, ho, hc⟩
  · refine ⟨180, fuel, ms, ms[0], o, ⟨by norm_num, by norm_num⟩, h 180, List.getElem_mem h0, ho, ?_⟩
    rw [p1]
    rw [p0] at hc
    unfold distSq at *
    simp only at *
    nlinarith [sq_nonneg X.x, sq_nonneg X.y, sq_nonneg X.z]

/-- C27 for mutual orbiting groups. -/
theorem C27_mog_names {I : Type} (m : Mog I) (fuel : Nat) (ms : List (Satellite I)) (h : m.members fuel = .ok ms) :
    (ms.map (·.name)).Pairwise Before ∧ (ms.map (·.name)).Nodup ∧
      ∀ sat ∈ ms, ∃ number, sat.name = m.name ++ [' '] ++ number ∧
        number.length = (Text.dec m.satellites).length := by
  obtain ⟨-, hlen, hm⟩ := mog_members m fuel ms h
  have hnames : ms.map (·.name) = (List.range m.satellites).map fun i => zeroPad m.name m.satellites (i + 1) := by
    apply List.ext_getElem
    · simp [hlen]
    · intro i h1 h2
      have hi : i < ms.length := by simpa using h1
      obtain ⟨o, _, e⟩ := hm i ms[i] (List.getElem?_eq_getElem hi)
      rw [List.getElem_map, e, List.getElem_map, List.getElem_range]
  have hs : (ms.map (·.name)).Pairwise Before := by rw [hnames]; exact names_sorted _ _
  refine ⟨hs, nodup_of_sorted hs, ?_⟩
  intro sat hsat
  have : sat.name ∈ ms.map (·.name) := List.mem_map_of_mem hsat
  rw [hnames] at this
  obtain ⟨i, hi, e⟩ := List.mem_map.mp this
  have hn := Text.dec_length_lower m.satellites
  have hi' := List.mem_range.mp hi
  exact ⟨_, e.symm, zfill_length _ _ (by omega) (List.length_pos_iff.mpr (Text.dec_ne_nil _))⟩

end Tatc.Props
