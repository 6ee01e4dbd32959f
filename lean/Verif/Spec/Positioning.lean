import Mathlib.Analysis.SpecialFunctions.Trigonometric.Basic
import Mathlib.Algebra.BigOperators.Fin

/-!
# Positioning from ranges
-/

namespace Tatc.Spec

/-- By how much the range measured to a satellite in a direction (elevation and azimuth, radians) changes when the point is
displaced to the north, east and up, and the clock is off, by the four components of `x`. -/
noncomputable def rangeChange (direction : ℝ × ℝ) (x : Fin 4 → ℝ) : ℝ :=
  Real.cos direction.1 * Real.cos direction.2 * x 0 + Real.cos direction.1 * Real.sin direction.2 * x 1 +
    Real.sin direction.1 * x 2 + x 3

/-- The sum of the squares of what remains of the errors of the ranges if they are explained by the displacement `x`. -/
noncomputable def misfit {ι : Type} [Fintype ι] (directions : ι → ℝ × ℝ) (errors : ι → ℝ) (x : Fin 4 → ℝ) : ℝ :=
  ∑ k, (rangeChange (directions k) x - errors k) ^ 2

/-- `x` is the displacement that least squares gives. -/
def LeastSquares {ι : Type} [Fintype ι] (directions : ι → ℝ × ℝ) (errors : ι → ℝ) (x : Fin 4 → ℝ) : Prop :=
  ∀ y, misfit directions errors x ≤ misfit directions errors y

end Tatc.Spec
