import Verif.Model.IeeePeriod

/-!
# Floating point arithmetic of ground velocities

`compute_ground_velocity`, `along_track_distance_to_access_time` and `access_time_to_along_track_distance`, every operation
rounded to a double precision number; cosines are taken to be correctly rounded.
-/

namespace Tatc.Ieee
open Tatc.Num

/-- `EARTH_SIDEREAL_DAY_S` (`src/tatc/constants.py` L24): the double precision number nearest to 86164.0905. -/
noncomputable def siderealSeconds : ℝ := 5921151212593349 / 2 ^ 36

/-- `mean_motion_rad_s` (`src/tatc/utils.py` L302-L303, L325-L326, L349-L350). -/
noncomputable def angularRate (altitude : ℝ) : ℝ :=
  let semimajorAxis := fl (earthMeanRadius + altitude)
  fl (Real.sqrt (fl (earthMu / cube semimajorAxis)))

/-- `compute_ground_velocity` (`src/tatc/utils.py` L290-L307). -/
noncomputable def groundVelocity (altitude inclination : ℝ) : ℝ :=
  let earthRate := fl (fl (fl (2 * pi) * fl (Real.cos (fl (inclination * degreeFactor)))) / siderealSeconds)
  fl (earthMeanRadius * fl (angularRate altitude - earthRate))

/-- `along_track_distance_to_access_time` (`src/tatc/utils.py` L310-L331). -/
noncomputable def alongTrackToAccess (altitude inclination alongTrack : ℝ) : ℝ :=
  let earthRate := fl (fl (fl (2 * pi) * fl (Real.cos (fl (inclination * degreeFactor)))) / siderealSeconds)
  let groundVelocity := fl (earthMeanRadius * fl (angularRate altitude - earthRate))
  fl (alongTrack / groundVelocity)

/-- `access_time_to_along_track_distance` (`src/tatc/utils.py` L334-L355). -/
noncomputable def accessToAlongTrack (altitude inclination accessTime : ℝ) : ℝ :=
  let earthRate := fl (fl (fl (2 * pi) * fl (Real.cos (fl (inclination * degreeFactor)))) / siderealSeconds)
  let groundVelocity := fl (earthMeanRadius * fl (angularRate altitude - earthRate))
  fl (groundVelocity * accessTime)

end Tatc.Ieee
