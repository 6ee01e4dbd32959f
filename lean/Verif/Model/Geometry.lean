import Verif.Model.Py
import Verif.Model.Orbit
import Mathlib.Analysis.SpecialFunctions.Trigonometric.Arctan

/-!
# Model of the viewing geometry functions

`src/tatc/utils.py` L82-L355.  The functions are compiled with numba; arithmetic is over the reals, and
the values outside the domains of the inverse sine and cosine and of divisions, where the code answers
"not a number" or raises, are modelled only where stated.
-/

namespace Tatc.Geometry
open Tatc.Num
open scoped Classical

/-- `sin_rho` (`src/tatc/utils.py` L123-L125, L187-L189, L216-L218, L242-L244). -/
noncomputable def sinRho (altitude elevation : ℝ) : ℝ := (meanRadius + elevation) / (meanRadius + altitude)

/-- The area of a sample (`src/tatc/utils.py` L94-L101). -/
noncomputable def sampleArea (distance : ℝ) : ℝ :=
  let theta := distance / meanRadius
  let radius := meanRadius * Real.cos (theta / 2)
  let height := meanRadius - radius
  2 * Real.pi * meanRadius * height

/-- `compute_number_samples` (`src/tatc/utils.py` L82-L103); a division by zero raises, and `int`
truncates a quotient that is not negative. -/
noncomputable def numberSamples (distance : ℝ) : Except PyErr Nat := do
  require (sampleArea distance ≠ 0) .zeroDivisionError
  return ⌊surfaceArea / sampleArea distance⌋₊

/-- `swath_width_to_field_of_regard` (`src/tatc/utils.py` L106-L130). -/
noncomputable def swathToFor (altitude swathWidth elevation : ℝ) : ℝ :=
  let sinLambda := Real.sin ((swathWidth / 2) / (meanRadius + elevation))
  let tanEta := sinRho altitude elevation * sinLambda /
    (1 - sinRho altitude elevation * Real.cos (Real.arcsin sinLambda))
  degrees (2 * Real.arctan tanEta)

/-- `swath_width_to_field_of_view` (`src/tatc/utils.py` L133-L168). -/
noncomputable def swathToFov (altitude swathWidth lookAngle elevation : ℝ) : ℝ :=
  let sinRho := sinRho altitude elevation
  let sinEta := min sinRho (Real.sin (radians lookAngle / 2))
  let cosEpsilon := sinEta / sinRho
  let lambda := Real.pi / 2 - Real.arcsin sinEta - Real.arccos cosEpsilon
  let sinLambda1 := Real.sin (lambda - (swathWidth / 2) / (meanRadius + elevation))
  let sinLambda2 := Real.sin (lambda + (swathWidth / 2) / (meanRadius + elevation))
  let tanEta1 := sinRho * sinLambda1 / (1 - sinRho * Real.cos (Real.arcsin sinLambda1))
  let tanEta2 := sinRho * sinLambda2 / (1 - sinRho * Real.cos (Real.arcsin sinLambda2))
  degrees (Real.arctan tanEta2 - Real.arctan tanEta1)

/-- `field_of_regard_to_swath_width` (`src/tatc/utils.py` L171-L197). -/
noncomputable def forToSwath (altitude fieldOfRegard elevation : ℝ) : ℝ :=
  let sinEta := min (sinRho altitude elevation) (Real.sin (radians fieldOfRegard / 2))
  let cosEpsilon := sinEta / sinRho altitude elevation
  let lambda := Real.pi / 2 - Real.arcsin sinEta - Real.arccos cosEpsilon
  2 * (meanRadius + elevation) * lambda

/-- `compute_field_of_regard` (`src/tatc/utils.py` L200-L223). -/
noncomputable def fieldOfRegard (altitude minElevation elevation : ℝ) : ℝ :=
  let cosEpsilon := Real.cos (radians minElevation)
  let sinEta := sinRho altitude elevation * cosEpsilon
  degrees (Real.arcsin sinEta * 2)

/-- `compute_min_elevation_angle` (`src/tatc/utils.py` L226-L250). -/
noncomputable def minElevation (altitude fieldOfRegard elevation : ℝ) : ℝ :=
  let sinEta := Real.sin (radians fieldOfRegard / 2)
  let cosEpsilon := sinEta / sinRho altitude elevation
  if cosEpsilon > 1 then 0 else degrees (Real.arccos cosEpsilon)

/-- `compute_max_access_time` (`src/tatc/utils.py` L269-L287). -/
noncomputable def maxAccessTime (altitude minElevation : ℝ) : ℝ :=
  let orbitalDistance := (meanRadius + altitude) * (Real.pi - 2 * radians minElevation)
  let orbitalVelocity := Real.sqrt (mu / (meanRadius + altitude))
  orbitalDistance / orbitalVelocity

/-- `compute_ground_velocity` (`src/tatc/utils.py` L290-L307). -/
noncomputable def groundVelocity (altitude inclination : ℝ) : ℝ :=
  let semimajorAxis := meanRadius + altitude
  let meanMotion := Real.sqrt (mu / semimajorAxis ^ 3)
  meanRadius * (meanMotion - 2 * Real.pi * Real.cos (degrees inclination) / siderealDay)

/-- `along_track_distance_to_access_time` (`src/tatc/utils.py` L310-L331). -/
noncomputable def alongTrackToAccess (altitude inclination alongTrack : ℝ) : ℝ :=
  let semimajorAxis := meanRadius + altitude
  let meanMotion := Real.sqrt (mu / semimajorAxis ^ 3)
  let groundVelocity := meanRadius * (meanMotion - 2 * Real.pi * Real.cos (degrees inclination) / siderealDay)
  alongTrack / groundVelocity

/-- `access_time_to_along_track_distance` (`src/tatc/utils.py` L334-L355). -/
noncomputable def accessToAlongTrack (altitude inclination accessTime : ℝ) : ℝ :=
  let semimajorAxis := meanRadius + altitude
  let meanMotion := Real.sqrt (mu / semimajorAxis ^ 3)
  let groundVelocity := meanRadius * (meanMotion - 2 * Real.pi * Real.cos (degrees inclination) / siderealDay)
  groundVelocity * accessTime

/-- `TwoLineElements.get_semimajor_axis` (`src/tatc/schemas/orbit.py` L294-L308) from the mean motion in
revolutions per day. -/
noncomputable def tleSemimajorAxis (meanMotion : ℝ) : ℝ :=
  let rate := meanMotion * 2 * Real.pi / 86400
  (mu / rate ^ 2) ^ (1 / 3 : ℝ)

/-- `TwoLineElements.get_altitude` (`src/tatc/schemas/orbit.py` L310-L320). -/
noncomputable def tleAltitude (meanMotion : ℝ) : ℝ := tleSemimajorAxis meanMotion - meanRadius

end Tatc.Geometry
