import Verif.Model.Constellation
import Verif.Model.Geometry

/-!
# Model of the streets of coverage constellation

`src/tatc/schemas/satellite.py` L400-L482.
-/

namespace Tatc.Constellation
open Tatc.Num Tatc.Orbit Tatc.Geometry
open scoped Classical

/-- `SOCConstellation` (`src/tatc/schemas/satellite.py` L400-L420). -/
structure Soc (I : Type) where
  name : List Char
  orbit : Circular
  instruments : I
  swathWidth : ℝ
  packing : ℝ

/-- Field constraints of `SOCConstellation` (`src/tatc/schemas/satellite.py` L415-L420). -/
noncomputable def Soc.make {I : Type} (name : List Char) (orbit : Circular) (instruments : I) (swathWidth packing : ℝ) :
    Except PyErr (Soc I) := do
  require (0 < swathWidth) .validationError
  require (0 < packing) .validationError
  require (packing ≤ 1) .validationError
  return ⟨name, orbit, instruments, swathWidth, packing⟩

/-- `math.asin`: outside `[-1, 1]` it raises (`src/tatc/schemas/satellite.py` L442, L462, L468). -/
noncomputable def mathAsin (x : ℝ) : Except PyErr ℝ := do
  require (-1 ≤ x ∧ x ≤ 1) .valueError
  return Real.arcsin x

/-- `math.ceil((2 * math.pi) / x)` (`src/tatc/schemas/satellite.py` L465, L471). -/
noncomputable def ceilTurn (x : ℝ) : Except PyErr Int := do
  require (x ≠ 0) .zeroDivisionError
  return ⌈2 * Real.pi / x⌉

/-- `SOCConstellation.generate_walker` (`src/tatc/schemas/satellite.py` L422-L481); the Walker constellation
gets the defaults `DELTA` and relative spacing 0 (L149-L173). -/
noncomputable def Soc.walker {I : Type} (c : Soc I) : Except PyErr (Walker I) := do
  let e := minElevation c.orbit.altitude (swathToFor c.orbit.altitude c.swathWidth 0) 0
  let etaRad ← mathAsin (meanRadius / (meanRadius + c.orbit.altitude) * Real.cos (radians e))
  let eta := degrees etaRad
  let gamma := 90 - e - eta
  let rFoot := meanRadius * Real.sin (radians gamma)
  let dF := 2 * rFoot * c.packing
  let dP := Real.sqrt 3 * rFoot * c.packing
  let halfF ← mathAsin (0.5 * dF / meanRadius)
  let gammaF := 2 * halfF
  let perPlane ← ceilTurn gammaF
  let halfP ← mathAsin (0.5 * dP / meanRadius)
  let gammaP := 2 * halfP
  let planes ← ceilTurn gammaP
  Walker.make c.name (.circular c.orbit) c.instruments false (perPlane * planes) planes 0

/-- `SOCConstellation.generate_members` (`src/tatc/schemas/satellite.py` L481-L482). -/
noncomputable def Soc.members {I : Type} (sun : Int → ℝ) (c : Soc I) : Except PyErr (List (Satellite I)) := do
  (← c.walker).members sun

end Tatc.Constellation
