import Verif.Spec.Orbit

/-!
# Turning about the axis of the Earth
-/

namespace Tatc.Spec

/-- A place turned to the east about the axis of the Earth (degrees). -/
noncomputable def turned (angle : ℝ) (p : V3) : V3 :=
  ⟨cosDeg angle * p.x - sinDeg angle * p.y, sinDeg angle * p.x + cosDeg angle * p.y, p.z⟩

end Tatc.Spec
