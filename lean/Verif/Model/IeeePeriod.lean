import Verif.Model.IeeeSamples
import Verif.Model.Orbit

/-!
# Floating point arithmetic of periods and access times

`compute_orbit_period` and `compute_max_access_time`, every operation rounded to a double precision number (a cube is two
products; the square root is correctly rounded, as IEEE 754 requires), and the conversion to a `timedelta`.
-/

namespace Tatc.Ieee
open Tatc.Num
open scoped Classical

/-- `EARTH_MU` (`src/tatc/constants.py` L30), a whole number. -/
noncomputable def earthMu : ℝ := 398600441800000

/-- `semimajor_axis**3` (`src/tatc/utils.py` L265). -/
noncomputable def cube (x : ℝ) : ℝ := fl (fl (x * x) * x)

/-- `compute_orbit_period` (`src/tatc/utils.py` L253-L266), seconds. -/
noncomputable def periodSeconds (altitude : ℝ) : ℝ :=
  let semimajorAxis := fl (earthMeanRadius + altitude)
  let meanMotion := fl (Real.sqrt (fl (earthMu / cube semimajorAxis)))
  fl (fl (2 * pi) / meanMotion)

/-- `compute_max_access_time` (`src/tatc/utils.py` L269-L287), seconds. -/
noncomputable def maxAccessSeconds (altitude minElevation : ℝ) : ℝ :=
  let orbitalDistance := fl (fl (earthMeanRadius + altitude) * fl (pi - fl (2 * fl (minElevation * radianFactor))))
  let orbitalVelocity := fl (Real.sqrt (fl (earthMu / fl (earthMeanRadius + altitude))))
  fl (orbitalDistance / orbitalVelocity)

/-- `timedelta(seconds=...)` of a positive number (`src/tatc/schemas/orbit.py` L748, `src/tatc/analysis/coverage.py` L56-L58):
the fraction of a second, which is exact, is multiplied by a million and rounded to a whole number, half to even. -/
noncomputable def microseconds (seconds : ℝ) : Int :=
  ⌊seconds⌋ * 1000000 + roundHalfEven (fl (1000000 * Int.fract seconds))

/-- `OrbitBase.get_orbit_period` (`src/tatc/schemas/orbit.py` L741-L748): microseconds. -/
noncomputable def orbitPeriod (altitude : ℝ) : Int := microseconds (periodSeconds altitude)

/-- `OrbitBase.get_mean_motion` (`src/tatc/schemas/orbit.py` L732-L739), where there is a period: revolutions per day. The
quotient of time differences is correctly rounded. -/
noncomputable def meanMotion (altitude : ℝ) : ℝ := fl (1 / fl ((orbitPeriod altitude : ℝ) / 86400000000))

/-- `max_access_time` (`src/tatc/analysis/coverage.py` L52-L58), microseconds. -/
noncomputable def maxAccess (altitude minElevation : ℝ) : Int := microseconds (maxAccessSeconds altitude minElevation)

end Tatc.Ieee
