import Verif.Spec.Regard
import Mathlib.Analysis.SpecialFunctions.Trigonometric.Inverse

/-!
# Distances on the ground from the point below the satellite
-/

namespace Tatc.Spec

/-- The distance, along the sphere around the centre of the Earth on which the place lies, of the place from the point
below the satellite: the radius times the angle between the two. -/
noncomputable def groundDistance (satellite place : V3) : ℝ :=
  len place * Real.arccos (satellite.dot place / (len satellite * len place))

end Tatc.Spec
