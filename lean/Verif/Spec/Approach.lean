import Verif.Spec.Orbit

/-!
# Distances between satellites
-/

namespace Tatc.Spec

/-- Where a satellite on a circular orbit with this radius, inclination and node is, at this angle from the node (degrees). -/
noncomputable def satelliteAt (radius inclination raan fromNode : ℝ) : V3 :=
  V3.smul radius (perigeeDirection inclination raan fromNode)

/-- Distance of two places. -/
noncomputable def distance (a b : V3) : ℝ := Real.sqrt ((a.x - b.x) ^ 2 + (a.y - b.y) ^ 2 + (a.z - b.z) ^ 2)

/-- Half of the least distance, in orbit radii and signed, to which two satellites of the same orbit radius and inclination come: `along` and `nodes` are the differences of their angles from the node and of
their nodes (degrees). -/
noncomputable def nearest (inclination along nodes : ℝ) : ℝ :=
  sinDeg (along / 2) * cosDeg (nodes / 2) + cosDeg inclination * (cosDeg (along / 2) * sinDeg (nodes / 2))

end Tatc.Spec
