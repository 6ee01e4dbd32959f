import Mathlib.Analysis.SpecialFunctions.Trigonometric.Basic

/-!
# Directions of satellites seen from a point
-/

namespace Tatc.Spec

/-- The end points of the unit vectors (north, east, up) with elevations and azimuths (radians) of a list lie in one
plane `a n + b e + c u + d = 0`. -/
def CoplanarDirections (directions : List (ℝ × ℝ)) : Prop :=
  ∃ a b c d : ℝ, (a ≠ 0 ∨ b ≠ 0 ∨ c ≠ 0 ∨ d ≠ 0) ∧ ∀ q ∈ directions,
    a * (Real.cos q.1 * Real.cos q.2) + b * (Real.cos q.1 * Real.sin q.2) + c * Real.sin q.1 + d = 0

end Tatc.Spec
