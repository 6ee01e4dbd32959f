import Verif.Model.Real
import Verif.Spec.View

/-!
# Specification of distances on the sphere
-/

namespace Tatc.Spec
open Tatc.Num

/-- The central angle (radians) between two points of the sphere given by longitude and latitude in degrees. -/
noncomputable def centralAngle (p q : ℝ × ℝ) : ℝ :=
  Real.arccos (Real.sin (p.2 * Real.pi / 180) * Real.sin (q.2 * Real.pi / 180) +
    Real.cos (p.2 * Real.pi / 180) * Real.cos (q.2 * Real.pi / 180) * Real.cos ((p.1 - q.1) * Real.pi / 180))

/-- The target is in view from above the point `q`: a point of the target, on the sphere, is seen by the
satellite within half the field of regard (degrees) from nadir. -/
def InView (target : Set (ℝ × ℝ)) (altitude fieldOfRegard : ℝ) (q : ℝ × ℝ) : Prop :=
  ∃ p ∈ target, ∃ eta, SeenAt altitude 0 eta (centralAngle p q) ∧ eta ≤ fieldOfRegard / 2 * Real.pi / 180

end Tatc.Spec
