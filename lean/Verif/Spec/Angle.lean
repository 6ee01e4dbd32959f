import Mathlib.Data.Real.Basic

/-!
# Angles
-/

namespace Tatc.Spec

/-- Two angles in degrees that differ by whole turns. -/
def SameAngle (a b : ℝ) : Prop := ∃ k : ℤ, a = b + 360 * k

/-- An angle in degrees between 0 (included) and 360 (excluded). -/
def InTurn (a : ℝ) : Prop := 0 ≤ a ∧ a < 360

end Tatc.Spec
