import Verif.Model.Constellation
import Verif.Model.Vec

/-!
# Model of the mutual orbiting group

`src/tatc/schemas/satellite.py` L266-L397.
-/

namespace Tatc.Constellation
open Tatc.Num Tatc.Orbit
open scoped Classical

/-- `MOGConstellation` (`src/tatc/schemas/satellite.py` L276-L293). -/
structure Mog (I : Type) where
  name : List Char
  orbit : Circular
  instruments : I
  parallelAxis : ℝ
  transverseAxis : ℝ
  clockwise : Bool
  satellites : Nat

/-- Construction of a `MOGConstellation` (`src/tatc/schemas/satellite.py` L280-L293). -/
noncomputable def Mog.make {I : Type} (name : List Char) (orbit : Circular) (instruments : I)
    (parallelAxis transverseAxis : ℝ) (clockwise : Bool) (satellites : Int) : Except PyErr (Mog I) := do
  require (0 < parallelAxis) .validationError
  require (0 < transverseAxis) .validationError
  require (0 < satellites) .validationError
  return ⟨name, orbit, instruments, parallelAxis, transverseAxis, clockwise, satellites.toNat⟩

/-- The semimajor axis `a` (`src/tatc/schemas/satellite.py` L306). -/
noncomputable def Mog.a {I : Type} (m : Mog I) : ℝ := m.orbit.altitude + meanRadius
/-- The angle `delta` (`src/tatc/schemas/satellite.py` L309). -/
noncomputable def Mog.delta {I : Type} (m : Mog I) : ℝ := m.transverseAxis / (2 * m.a)
/-- The eccentricity `e` (`src/tatc/schemas/satellite.py` L312). -/
noncomputable def Mog.e {I : Type} (m : Mog I) : ℝ := m.parallelAxis / (4 * m.a)
/-- The direction `s` (`src/tatc/schemas/satellite.py` L315). -/
noncomputable def Mog.s {I : Type} (m : Mog I) : ℝ := if m.clockwise then 1 else -1

/-- The vector `l_0` (`src/tatc/schemas/satellite.py` L319, L326). -/
noncomputable def Mog.l0 {I : Type} (m : Mog I) : V3 :=
  let i0 := radians m.orbit.inclination
  ((V3.mk 0 0 1).smul (Real.cos i0)).add (((V3.mk 0 1 0).smul (Real.sin i0)).smul (-1))

/-- The angles of `np.linspace(0, 2 * np.pi, number_satellites, endpoint=False)`
(`src/tatc/schemas/satellite.py` L329). -/
noncomputable def Mog.theta {I : Type} (m : Mog I) (k : Nat) : ℝ := k * (2 * Real.pi / m.satellites)

/-- The vector `l` (`src/tatc/schemas/satellite.py` L332-L336). -/
noncomputable def Mog.l {I : Type} (m : Mog I) (theta : ℝ) : V3 :=
  ((m.l0.smul (Real.cos m.delta)).add
    ((m.l0.cross (V3.mk 1 0 0)).smul (Real.sin m.delta * Real.cos theta))).add
    ((V3.mk 1 0 0).smul (Real.sin m.delta * Real.sin theta))

/-- The inclination `i` (`src/tatc/schemas/satellite.py` L339). -/
noncomputable def Mog.i {I : Type} (m : Mog I) (theta : ℝ) : ℝ := Real.arccos ((m.l theta).dot (V3.mk 0 0 1))

/-- `omega - omega_0` (`src/tatc/schemas/satellite.py` L342-L344). -/
noncomputable def Mog.node {I : Type} (m : Mog I) (theta : ℝ) : ℝ :=
  arctan2 ((m.l theta).dot (V3.mk 1 0 0)) (((m.l theta).smul (-1)).dot (V3.mk 0 1 0))

/-- The vector `p_node` (`src/tatc/schemas/satellite.py` L347-L349). -/
noncomputable def Mog.pNode {I : Type} (m : Mog I) (theta : ℝ) : V3 :=
  ((V3.mk 1 0 0).smul (Real.cos (m.node theta))).add ((V3.mk 0 1 0).smul (Real.sin (m.node theta)))

/-- The vector `t` (`src/tatc/schemas/satellite.py` L352). -/
noncomputable def Mog.t {I : Type} (m : Mog I) (theta : ℝ) : V3 :=
  ((m.l theta).cross m.l0).smul (1 / Real.sin m.delta)

/-- The vector `p_peri` (`src/tatc/schemas/satellite.py` L355). -/
noncomputable def Mog.pPeri {I : Type} (m : Mog I) (theta : ℝ) : V3 := ((m.t theta).cross (m.l theta)).smul m.s

/-- The argument of perigee `w` (`src/tatc/schemas/satellite.py` L358). -/
noncomputable def Mog.w {I : Type} (m : Mog I) (theta : ℝ) : ℝ :=
  arctan2 ((m.pPeri theta).dot ((m.l theta).cross (m.pNode theta))) ((m.pPeri theta).dot (m.pNode theta))

/-- The mean anomaly `n` (`src/tatc/schemas/satellite.py` L362-L365). -/
noncomputable def Mog.n {I : Type} (m : Mog I) (theta : ℝ) : ℝ :=
  arctan2 (m.s * (m.t theta).dot (V3.mk 1 0 0)) (m.s * (m.t theta).dot (m.l0.cross (V3.mk 1 0 0)))

/-- The loop for the eccentric anomaly (`src/tatc/schemas/satellite.py` L370-L372), stopped after
`fuel` tests of its condition; `prev` and `psi` are `psi_` and `psi`. -/
noncomputable def keplerLoop (n e : ℝ) : Nat → ℝ → ℝ → Except PyErr ℝ
  | 0, _, _ => .error .running
  | fuel + 1, prev, psi =>
    if |psi - prev| > 1e-6 then keplerLoop n e fuel psi (n + e * Real.sin psi) else .ok psi

/-- The true anomaly `nu` (`src/tatc/schemas/satellite.py` L375). -/
noncomputable def Mog.nu {I : Type} (m : Mog I) (psi : ℝ) : ℝ :=
  arctan2 (Real.sin psi * Real.sqrt (1 - m.e ^ 2)) (Real.cos psi - m.e)

/-- The orbit of the member at angle `theta` (`src/tatc/schemas/satellite.py` L329-L388).  Where numpy
divides by zero (L352) or takes the root of a negative number (L375) the result is not a number and is
refused by the validation of the orbit. -/
noncomputable def Mog.memberOrbit {I : Type} (m : Mog I) (fuel : Nat) (theta : ℝ) : Except PyErr Keplerian := do
  require (Real.sin m.delta ≠ 0) .validationError
  let psi ← keplerLoop (m.n theta) m.e fuel 0 0.1
  require (0 ≤ 1 - m.e ^ 2) .validationError
  Keplerian.make m.orbit.altitude (npMod (360 + degrees (m.nu psi)) 360) m.orbit.epoch
    (npMod (360 + degrees (m.i theta)) 360)
    (npMod (360 + degrees (radians m.orbit.raan + m.node theta)) 360) m.e
    (npMod (360 + degrees (m.w theta)) 360)

/-- `generate_members` (`src/tatc/schemas/satellite.py` L295-L397); the divisions at L309 and L312 come
first. -/
noncomputable def Mog.members {I : Type} (m : Mog I) (fuel : Nat) : Except PyErr (List (Satellite I)) := do
  require (m.a ≠ 0) .zeroDivisionError
  let orbits ← (List.range m.satellites).mapM fun (k : Nat) => m.memberOrbit fuel (m.theta k)
  return orbits.zipIdx.map fun o => ⟨zeroPad m.name m.satellites (o.2 + 1), .keplerian o.1, m.instruments⟩

end Tatc.Constellation
