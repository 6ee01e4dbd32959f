import Verif.Model.Vec
import Mathlib.Analysis.SpecialFunctions.Trigonometric.Basic

/-!
# Lines of sight and the Earth

The Earth is the ellipsoid of revolution with radius `a` at the equator and `c` at the poles.
-/

namespace Tatc.Spec

/-- The point at parameter `t` of the line from `p` in direction `r`. -/
def along (p r : V3) (t : ℝ) : V3 := ⟨p.x + t * r.x, p.y + t * r.y, p.z + t * r.z⟩

/-- 1 on the ellipsoid, less inside and more outside. -/
noncomputable def depth (a c : ℝ) (x : V3) : ℝ := (x.x ^ 2 + x.y ^ 2) / a ^ 2 + x.z ^ 2 / c ^ 2

/-- On the surface. -/
def OnEarth (a c : ℝ) (x : V3) : Prop := depth a c x = 1

/-- Above the surface. -/
def Above (a c : ℝ) (x : V3) : Prop := 1 < depth a c x

/-- `x` is where the line of sight from `p` in direction `r` first meets the Earth. -/
def FirstMet (a c : ℝ) (p r x : V3) : Prop :=
  ∃ t, 0 ≤ t ∧ x = along p r t ∧ OnEarth a c x ∧ ∀ u, 0 ≤ u → u < t → ¬ OnEarth a c (along p r u)

/-- The line of sight from `p` in direction `r` misses the Earth. -/
def Misses (a c : ℝ) (p r : V3) : Prop := ∀ t, 0 ≤ t → ¬ OnEarth a c (along p r t)

/-- `x` is on the surface, and what lies between it and `p` is above. -/
def InSight (a c : ℝ) (p x : V3) : Prop :=
  OnEarth a c x ∧ ∀ u, 0 ≤ u → u < 1 → Above a c (along p ⟨x.x - p.x, x.y - p.y, x.z - p.z⟩ u)

/-- `x` is on the horizon of `p`: the line through `p` and `x` has no point in the Earth except `x`. -/
def OnHorizon (a c : ℝ) (p x : V3) : Prop :=
  OnEarth a c x ∧ ∀ u, u ≠ 1 → Above a c (along p ⟨x.x - p.x, x.y - p.y, x.z - p.z⟩ u)

/-- The angle between two vectors. -/
def AngleBetween (r x : V3) (θ : ℝ) : Prop :=
  0 ≤ θ ∧ θ ≤ Real.pi ∧ r.dot x = Real.sqrt (r.dot r) * Real.sqrt (x.dot x) * Real.cos θ

/-- Seen from `p`, `x` lies up or down in a direction whose horizontal part is turned by `angle` from the right-hand side
(`velocity` crossed with down) towards `velocity`, or the opposite of that direction. -/
def InPlaneOf (p velocity : V3) (angle : ℝ) (x : V3) : Prop :=
  let d : V3 := ⟨x.x - p.x, x.y - p.y, x.z - p.z⟩
  Real.cos angle * (velocity.dot d / Real.sqrt (velocity.dot velocity)) =
    Real.sin angle * ((velocity.cross (p.smul (-1))).dot d /
      (Real.sqrt (velocity.dot velocity) * Real.sqrt (p.dot p)))

end Tatc.Spec
