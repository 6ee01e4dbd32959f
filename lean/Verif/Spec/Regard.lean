import Verif.Spec.Visible

/-!
# What is in the field of regard, and a point that turns with the Earth
-/

namespace Tatc.Spec

/-- From the satellite, the point is at most `angle` degrees away from the centre of the Earth. -/
def OffNadirAtMost (angle : ℝ) (satellite point : V3) : Prop :=
  cosDeg angle * (len satellite * len (sub point satellite)) ≤ (sub point satellite).dot (satellite.smul (-1))

/-- A point of the equator, at the distance `r` from the centre of an Earth that turns once in `day`. -/
noncomputable def turning (r day : ℝ) (t : ℝ) : V3 :=
  ⟨r * Real.cos (2 * Real.pi * t / day), r * Real.sin (2 * Real.pi * t / day), 0⟩

/-- A place at the given latitude and longitude (radians), at the distance `r` from the centre of an Earth that turns once in
`day`. -/
noncomputable def turningAt (r lat lon day : ℝ) (t : ℝ) : V3 :=
  ⟨r * Real.cos lat * Real.cos (2 * Real.pi * t / day + lon), r * Real.cos lat * Real.sin (2 * Real.pi * t / day + lon),
    r * Real.sin lat⟩

end Tatc.Spec
