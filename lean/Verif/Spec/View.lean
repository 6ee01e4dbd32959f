import Verif.Model.Real

/-!
# Specification of what a satellite sees

In the plane of the centre of the Earth, the satellite and a ground point; angles in radians, signed alike.
-/

namespace Tatc.Spec
open Tatc.Num

/-- The ground point at central angle `l` from the sub-satellite point, at height `elevation`, is not below
the horizon of a satellite at height `altitude`, which sees it at the angle `eta` from nadir: the
direction `(sin eta, -cos eta)` leads from `(0, R + altitude)` to
`((R + elevation) sin l, (R + elevation) cos l)`. -/
structure SeenAt (altitude elevation eta l : ℝ) : Prop where
  ahead : -(Real.pi / 2) < eta ∧ eta < Real.pi / 2
  near : -(Real.pi / 2) ≤ l ∧ l ≤ Real.pi / 2
  horizon : meanRadius + elevation ≤ (meanRadius + altitude) * Real.cos l
  direction : Real.sin eta * ((meanRadius + altitude) - (meanRadius + elevation) * Real.cos l) =
    Real.cos eta * ((meanRadius + elevation) * Real.sin l)

end Tatc.Spec
