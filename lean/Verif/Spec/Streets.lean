import Verif.Spec.Orbit
import Mathlib.Analysis.SpecialFunctions.Trigonometric.Inverse

/-!
# Places seen by a constellation
-/

namespace Tatc.Spec

/-- The direction, from the centre of the Earth, of a place with this latitude that a meridian with this right ascension goes
through (degrees). -/
noncomputable def placeAt (rightAscension latitude : ℝ) : V3 :=
  ⟨cosDeg latitude * cosDeg rightAscension, cosDeg latitude * sinDeg rightAscension, sinDeg latitude⟩

/-- The angle at the centre of the Earth, in radians, between a place and a satellite on a circular orbit with this
inclination and node, at this angle from the node (degrees). -/
noncomputable def angleFromPlace (inclination raan fromNode rightAscension latitude : ℝ) : ℝ :=
  Real.arccos ((perigeeDirection inclination raan fromNode).dot (placeAt rightAscension latitude))

end Tatc.Spec
