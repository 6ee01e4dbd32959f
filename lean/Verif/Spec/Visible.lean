import Verif.Spec.Orbit

/-!
# A satellite seen from a point
-/

namespace Tatc.Spec

/-- Length of a vector. -/
noncomputable def len (a : V3) : ℝ := Real.sqrt (a.dot a)

/-- The vector from `b` to `a`. -/
def sub (a b : V3) : V3 := ⟨a.x - b.x, a.y - b.y, a.z - b.z⟩

/-- Seen from `point`, whose zenith is the direction away from the centre of the Earth, the satellite
stands at least `angle` degrees (between 0 and 90) above the horizon: the sine of its elevation is the
cosine of its angle from zenith. -/
def ElevationAtLeast (angle : ℝ) (satellite point : V3) : Prop :=
  sinDeg angle * (len (sub satellite point) * len point) ≤ (sub satellite point).dot point

/-- A satellite on a circular orbit of radius `a` and the given period in the plane of the orthonormal
vectors `u` and `v`. -/
noncomputable def circularPosition (a period : ℝ) (u v : V3) (t : ℝ) : V3 :=
  (u.smul (a * Real.cos (2 * Real.pi * t / period))).add (v.smul (a * Real.sin (2 * Real.pi * t / period)))

end Tatc.Spec
