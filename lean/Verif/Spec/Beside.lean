import Verif.Spec.Orbit

/-!
# Where something is, seen from a satellite on a circular orbit
-/

namespace Tatc.Spec

/-- How far a place `p` is ahead (along the velocity) of a satellite at the angle `fromNode` (degrees) from the ascending node of
a circular orbit. -/
noncomputable def ahead (inclination raan fromNode : ℝ) (p : V3) : ℝ :=
  p.dot ((normal inclination raan).cross (perigeeDirection inclination raan fromNode))

/-- How far it is above the satellite, on an orbit with this radius. -/
noncomputable def above (radius inclination raan fromNode : ℝ) (p : V3) : ℝ :=
  p.dot (perigeeDirection inclination raan fromNode) - radius

/-- How far it is to the left of the satellite (of the plane of its orbit, seen from above with the velocity pointing up). -/
noncomputable def leftward (inclination raan : ℝ) (p : V3) : ℝ := p.dot (normal inclination raan)

end Tatc.Spec
