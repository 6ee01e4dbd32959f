import Verif.Model.Real
import Verif.Model.Py
import Mathlib.LinearAlgebra.Matrix.NonsingularInverse
import Mathlib.LinearAlgebra.Matrix.Trace

/-!
# Model of the dilution of precision

`src/tatc/analysis/dop.py`.  The elevation, azimuth and range of a satellite at a time, seen from the point, are
parameters; `NaN` is `none`.
-/

namespace Tatc.Dop
open Tatc.Num
open scoped Classical

/-- `DopMethod` (`src/tatc/analysis/dop.py` L22-L31). -/
inductive Method
  | gdop | pdop | hdop | vdop | tdop

/-- Elevation and azimuth (radians) and range (metres) of a satellite (`src/tatc/analysis/dop.py` L73-L75). -/
structure Look where
  el : ℝ
  az : ℝ
  r : ℝ

/-- `x` (`src/tatc/analysis/dop.py` L81). -/
noncomputable def Look.x (l : Look) : ℝ := l.r * Real.cos l.el * Real.cos l.az
/-- `y` (`src/tatc/analysis/dop.py` L82). -/
noncomputable def Look.y (l : Look) : ℝ := l.r * Real.cos l.el * Real.sin l.az
/-- `z` (`src/tatc/analysis/dop.py` L83). -/
noncomputable def Look.z (l : Look) : ℝ := l.r * Real.sin l.el

/-- `el >= np.deg2rad(min_elevation)` (`src/tatc/analysis/dop.py` L78, L91). -/
noncomputable def isVisible (minElevation : ℝ) (l : Look) : Bool := decide (l.el ≥ radians minElevation)

/-- A row of `H` (`src/tatc/analysis/dop.py` L93-L100). -/
noncomputable def lookRow (l : Look) : Fin 4 → ℝ := ![l.x / l.r, l.y / l.r, l.z / l.r, 1]

/-- `H` for the visible satellites (`src/tatc/analysis/dop.py` L93-L100). -/
noncomputable def matrixH (looks : List Look) : Matrix (Fin looks.length) (Fin 4) ℝ := fun i => lookRow looks[i]

/-- `np.linalg.solve(A, np.eye(4))`, which raises for a singular matrix (`src/tatc/analysis/dop.py` L103-L107); exact,
so that only matrices that are singular raise. -/
noncomputable def solve (A : Matrix (Fin 4) (Fin 4) ℝ) : Option (Matrix (Fin 4) (Fin 4) ℝ) :=
  if A.det = 0 then none else some A⁻¹

/-- The value for a method (`src/tatc/analysis/dop.py` L109-L118). -/
noncomputable def value (method : Method) (M : Matrix (Fin 4) (Fin 4) ℝ) : ℝ :=
  match method with
  | .gdop => Real.sqrt M.trace
  | .pdop => Real.sqrt (M 0 0 + M 1 1 + M 2 2)
  | .hdop => Real.sqrt (M 0 0 + M 1 1)
  | .vdop => Real.sqrt (M 2 2)
  | .tdop => Real.sqrt (M 3 3)

/-- `_dop` (`src/tatc/analysis/dop.py` L85-L119). -/
noncomputable def dopAt (looks : List Look) (minElevation : ℝ) (method : Method) (minCount : Nat) : Option ℝ :=
  if (looks.countP (isVisible minElevation)) ≤ minCount then none
  else
    let H := matrixH (looks.filter (isVisible minElevation))
    (solve (H.transpose * H)).map (value method)

/-- A row of the result (`src/tatc/analysis/dop.py` L123-L132). -/
structure Row where
  time : Int
  dop : Option ℝ
  geometry : ℝ × ℝ

/-- `compute_dop` (`src/tatc/analysis/dop.py` L34-L135); the position of the point is used without elevation (L70) to
see the satellites.  With no satellite the count is a number that cannot be indexed (L78, L89). -/
noncomputable def computeDop (times : List Int) (latitude longitude : ℝ) (satellites : List (Int → Look))
    (minElevation : ℝ) (method : Method) (minCount : Nat) : Except PyErr (List Row) := do
  require (satellites ≠ [] ∨ times = []) .indexError
  return times.map fun t =>
    { time := t
      dop := dopAt (satellites.map fun s => s t) minElevation method minCount
      geometry := (latitude, longitude) }

end Tatc.Dop
