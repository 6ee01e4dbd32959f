import Mathlib.Analysis.SpecialFunctions.Trigonometric.Basic
import Mathlib.Analysis.SpecialFunctions.Pow.Real

/-!
# Solar time and the precession of orbits
-/

namespace Tatc.Spec

/-- Local solar time, as a fraction of a day in `[0, 1)`, at right ascension `x` (degrees) when the Sun is at right
ascension `sun`: noon where the Sun is, and one hour later every 15 degrees to the east. -/
noncomputable def solarTime (sun x : ℝ) : ℝ := Int.fract (1 / 2 + (x - sun) / 360)

/-- The rate (radians per second) at which the oblateness of a planet turns the node of a circular orbit with
semimajor axis `a` and inclination `i` (radians): first order in the oblateness `j2`. -/
noncomputable def nodalRate (j2 radius mu a i : ℝ) : ℝ :=
  -(3 / 2) * j2 * (radius / a) ^ 2 * Real.sqrt (mu / a ^ 3) * Real.cos i

/-- The oblateness of the Earth. -/
noncomputable def earthJ2 : ℝ := 1.08263e-3

/-- A tropical year in seconds. -/
noncomputable def year : ℝ := 365.2422 * 86400

end Tatc.Spec
