import Mathlib.Analysis.SpecialFunctions.Trigonometric.Basic
import Mathlib.Analysis.SpecialFunctions.Sqrt

/-!
# Specification: the anomalies of an elliptical orbit

Angles in radians.  At eccentric anomaly `E` the satellite is at `a (cos E - e, √(1 - e²) sin E)` as seen from the
focus, at the distance `a (1 - e cos E)`; time is measured by the mean anomaly.
-/

namespace Tatc.Spec

/-- The true anomaly `ν` and the mean anomaly `M` belong to the same point of an orbit of eccentricity `e`, the one
of eccentric anomaly `E`: Kepler's equation, the direction of the point from the focus, and the same revolution. -/
structure KeplerAnomalies (e ν E M : ℝ) : Prop where
  mean : M = E - e * Real.sin E
  along : (1 - e * Real.cos E) * Real.cos ν = Real.cos E - e
  across : (1 - e * Real.cos E) * Real.sin ν = Real.sqrt (1 - e ^ 2) * Real.sin E
  revolution : |ν - E| < Real.pi

end Tatc.Spec
