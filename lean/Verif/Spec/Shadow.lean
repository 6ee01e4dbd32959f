import Verif.Spec.Visible

/-!
# The Sun seen from a satellite
-/

namespace Tatc.Spec

/-- The place at the fraction `t` of the way from `a` to `b`. -/
def between (a b : V3) (t : ℝ) : V3 := ⟨a.x + t * (b.x - a.x), a.y + t * (b.y - a.y), a.z + t * (b.z - a.z)⟩

/-- Some point of a ball around the centre of the Earth lies on the straight line from the satellite to the Sun. -/
def SunHidden (radius : ℝ) (satellite sun : V3) : Prop :=
  ∃ t, 0 ≤ t ∧ t ≤ 1 ∧ len (between satellite sun t) ≤ radius

/-- The Sun at a right ascension and declination (degrees) and a distance. -/
noncomputable def sunAt (rightAscension declination distance : ℝ) : V3 :=
  ⟨distance * (cosDeg declination * cosDeg rightAscension), distance * (cosDeg declination * sinDeg rightAscension),
    distance * sinDeg declination⟩

end Tatc.Spec
