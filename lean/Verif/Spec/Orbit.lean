import Mathlib.Analysis.SpecialFunctions.Trigonometric.Basic
import Verif.Model.Vec

/-!
# Directions of an orbit from its angles in degrees
-/

namespace Tatc.Spec

/-- Sine of an angle in degrees. -/
noncomputable def sinDeg (x : ℝ) : ℝ := Real.sin (x * Real.pi / 180)
/-- Cosine of an angle in degrees. -/
noncomputable def cosDeg (x : ℝ) : ℝ := Real.cos (x * Real.pi / 180)

/-- The direction of angular momentum of an orbit with this inclination and node. -/
noncomputable def normal (inclination raan : ℝ) : V3 :=
  ⟨sinDeg inclination * sinDeg raan, -(sinDeg inclination * cosDeg raan), cosDeg inclination⟩

/-- The direction of the ascending node. -/
noncomputable def nodeDirection (raan : ℝ) : V3 := ⟨cosDeg raan, sinDeg raan, 0⟩

/-- The direction of perigee of an orbit with this inclination, node and argument of perigee. -/
noncomputable def perigeeDirection (inclination raan perigee : ℝ) : V3 :=
  ⟨cosDeg raan * cosDeg perigee - sinDeg raan * sinDeg perigee * cosDeg inclination,
    sinDeg raan * cosDeg perigee + cosDeg raan * sinDeg perigee * cosDeg inclination,
    sinDeg perigee * sinDeg inclination⟩

end Tatc.Spec

namespace Tatc.Spec

/-- Position on an orbit with semimajor axis `a`, eccentricity `e` and these angles (degrees). -/
noncomputable def position (a e inclination raan perigee trueAnomaly : ℝ) : V3 :=
  (perigeeDirection inclination raan (perigee + trueAnomaly)).smul
    (a * (1 - e ^ 2) / (1 + e * cosDeg trueAnomaly))

/-- Squared distance. -/
def distSq (a b : V3) : ℝ := (a.x - b.x) ^ 2 + (a.y - b.y) ^ 2 + (a.z - b.z) ^ 2

end Tatc.Spec
