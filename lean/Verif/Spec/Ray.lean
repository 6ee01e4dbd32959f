import Verif.Model.Vec
import Mathlib.Analysis.SpecialFunctions.Trigonometric.Inverse

/-!
# Directions as seen from a satellite
-/

namespace Tatc.Spec

/-- The angle, in degrees, between two directions. -/
noncomputable def angleBetween (a b : V3) : ℝ :=
  Real.arccos (a.dot b / (Real.sqrt (a.dot a) * Real.sqrt (b.dot b))) * (180 / Real.pi)

/-- Turning `a` about the unit axis `k` by an angle in degrees, by the right hand rule. -/
noncomputable def turnAbout (k a : V3) (degrees : ℝ) : V3 :=
  let t := degrees * (Real.pi / 180)
  ((a.smul (Real.cos t)).add ((k.cross a).smul (Real.sin t))).add (k.smul (k.dot a * (1 - Real.cos t)))

/-- Two vectors that point the same way. -/
def SameDirection (a b : V3) : Prop := ∃ c : ℝ, 0 < c ∧ a = b.smul c

/-- To the right of a satellite at `position` (with the earth's centre at the origin) that moves along `velocity`, when
looking ahead with the earth below. -/
def rightward (position velocity : V3) : V3 := velocity.cross position

/-- The boundary of the rectangle with half sides `w` and `h`. -/
def OnRectangle (w h x y : ℝ) : Prop := (|x| = w ∧ |y| ≤ h) ∨ (|x| ≤ w ∧ |y| = h)

/-- The ellipse with half axes `w` and `h`. -/
def OnEllipse (w h x y : ℝ) : Prop := (x / w) ^ 2 + (y / h) ^ 2 = 1

/-- What a requirement asks of a state: nothing when it is not set. -/
def Meets (required : Option Bool) (state : Bool) : Prop := ∀ r, required = some r → state = r


end Tatc.Spec
