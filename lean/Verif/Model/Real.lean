import Mathlib.Analysis.SpecialFunctions.Trigonometric.Basic
import Mathlib.Analysis.SpecialFunctions.Complex.Arg
import Mathlib.Analysis.SpecialFunctions.Log.Basic
import Mathlib.Analysis.SpecialFunctions.Pow.Real

/-!
# Real arithmetic and constants

Angles, lengths and times in seconds are real numbers: rounding of floating point numbers is not
modelled.
-/

namespace Tatc.Num

/-- `np.mod(a, m)` and `a % m` for floats (`src/tatc/schemas/orbit.py` L779, L781). -/
noncomputable def npMod (a m : ℝ) : ℝ := a - m * ⌊a / m⌋

/-- `np.radians` (`src/tatc/utils.py` L48). -/
noncomputable def radians (x : ℝ) : ℝ := x * (Real.pi / 180)

/-- `np.degrees` (`src/tatc/utils.py` L55). -/
noncomputable def degrees (x : ℝ) : ℝ := x * (180 / Real.pi)

/-- `np.arctan2(y, x)` (`src/tatc/schemas/satellite.py` L342, L358, L362, L375): the argument of
`x + i y`, in `(-π, π]`, and 0 for `(0, 0)`. -/
noncomputable def arctan2 (y x : ℝ) : ℝ := Complex.arg ⟨x, y⟩

/-- Rounding to the nearest integer, half to even, as `timedelta(seconds=t)` does on microseconds
(`src/tatc/schemas/orbit.py` L748). -/
noncomputable def roundHalfEven (x : ℝ) : Int :=
  let f := ⌊x⌋
  let d := x - f
  if d < 1 / 2 then f
  else if 1 / 2 < d then f + 1
  else if f % 2 = 0 then f else f + 1

/-- `EARTH_EQUATORIAL_RADIUS` (`src/tatc/constants.py` L28). -/
noncomputable def equatorialRadius : ℝ := 6378137
/-- `EARTH_POLAR_RADIUS` (`src/tatc/constants.py` L29). -/
noncomputable def polarRadius : ℝ := 6356752.314245179
/-- `EARTH_MEAN_RADIUS` (`src/tatc/constants.py` L43). -/
noncomputable def meanRadius : ℝ := (2 * equatorialRadius + polarRadius) / 3
/-- `EARTH_MU` (`src/tatc/constants.py` L30). -/
noncomputable def mu : ℝ := 3.986004418e14
/-- `EARTH_SIDEREAL_DAY_S` (`src/tatc/constants.py` L24). -/
noncomputable def siderealDay : ℝ := 86164.0905
/-- `EARTH_FLATTENING` (`src/tatc/constants.py` L27). -/
noncomputable def flattening : ℝ := 1 / 298.257223563
/-- `EARTH_ECCENTRICITY` (`src/tatc/constants.py` L33). -/
noncomputable def eccentricity : ℝ := Real.sqrt (2 * flattening - flattening ^ 2)
/-- `EARTH_SURFACE_AREA` (`src/tatc/constants.py` L36-L42). -/
noncomputable def surfaceArea : ℝ :=
  2 * Real.pi * equatorialRadius ^ 2 +
    Real.pi * polarRadius ^ 2 / eccentricity * Real.log ((1 + eccentricity) / (1 - eccentricity))

end Tatc.Num
