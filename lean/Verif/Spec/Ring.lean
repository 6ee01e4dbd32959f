import Mathlib.Analysis.SpecialFunctions.Trigonometric.Basic

/-!
# Longitudes that go on without jumps, and positions on the globe
-/

namespace Tatc.Spec

/-- `u` follows the longitudes `lon` (both of the same length) without jumps: it starts at the same value, differs from
them by whole turns, and each step is at most half a turn. -/
structure Unwraps (lon u : List ℝ) : Prop where
  length : u.length = lon.length
  start : u.head? = lon.head?
  turns : ∀ i (h : i < u.length) (h' : i < lon.length), ∃ k : Int, u[i] = lon[i] - 360 * k
  steps : ∀ i (h : i + 1 < u.length), |u[i + 1] - u[i]| ≤ 180

/-- Two longitude and latitude pairs (degrees) are the same place of the globe: their unit vectors agree. -/
def SamePlace (a b : ℝ × ℝ) : Prop :=
  Real.cos (a.2 * (Real.pi / 180)) * Real.cos (a.1 * (Real.pi / 180)) =
    Real.cos (b.2 * (Real.pi / 180)) * Real.cos (b.1 * (Real.pi / 180)) ∧
  Real.cos (a.2 * (Real.pi / 180)) * Real.sin (a.1 * (Real.pi / 180)) =
    Real.cos (b.2 * (Real.pi / 180)) * Real.sin (b.1 * (Real.pi / 180)) ∧
  Real.sin (a.2 * (Real.pi / 180)) = Real.sin (b.2 * (Real.pi / 180))

end Tatc.Spec
