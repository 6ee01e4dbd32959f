import Verif.Spec.Orbit

/-!
# Circular orbits that are turned about the axis of the Earth, or mirrored in its equator
-/

namespace Tatc.Spec

/-- A satellite that starts at the angle `fromNode` from the node of an orbit with this inclination and node (degrees): `u` is
the direction in which it starts, and `v` the direction a quarter of an orbit ahead. -/
def StartsAt (inclination raan fromNode : ℝ) (u v : V3) : Prop :=
  u = perigeeDirection inclination raan fromNode ∧ v = perigeeDirection inclination raan (fromNode + 90)

end Tatc.Spec
