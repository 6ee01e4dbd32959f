import Verif.Model.IeeePeriod

/-!
# Floating point arithmetic of anomalies

`mean_anomaly_to_true_anomaly` and `true_anomaly_to_mean_anomaly`, every operation rounded to a double precision number; sines
are taken to be correctly rounded, and powers are products (a fourth power is the square of a square).
-/

namespace Tatc.Ieee
open Tatc.Num

/-- `mean_anomaly_to_true_anomaly` (`src/tatc/utils.py` L36-L55). -/
noncomputable def meanToTrue (meanAnomaly eccentricity : ℝ) : ℝ :=
  let m := fl (meanAnomaly * radianFactor)
  let first := fl (fl (fl (2 * eccentricity) - fl (1 / 4 * cube eccentricity)) * fl (Real.sin m))
  let second := fl (fl (5 / 4 * fl (eccentricity * eccentricity)) * fl (Real.sin (fl (2 * m))))
  let third := fl (fl (fl (13 / 12) * cube eccentricity) * fl (Real.sin (fl (3 * m))))
  fl (fl (fl (fl (m + first) + second) + third) * degreeFactor)

/-- `eccentricity**4` (`src/tatc/utils.py` L74, L77). -/
noncomputable def fourth (x : ℝ) : ℝ := fl (fl (x * x) * fl (x * x))

/-- `true_anomaly_to_mean_anomaly` (`src/tatc/utils.py` L58-L79). -/
noncomputable def trueToMean (trueAnomaly eccentricity : ℝ) : ℝ :=
  let t := fl (trueAnomaly * radianFactor)
  let first := fl (fl (2 * eccentricity) * fl (Real.sin t))
  let second := fl (fl (fl (3 / 4 * fl (eccentricity * eccentricity)) + fl (1 / 8 * fourth eccentricity)) * fl (Real.sin (fl (2 * t))))
  let third := fl (fl (fl (1 / 3) * cube eccentricity) * fl (Real.sin (fl (3 * t))))
  let last := fl (fl (5 / 32 * fourth eccentricity) * fl (Real.sin (fl (4 * t))))
  fl (fl (fl (fl (fl (t - first) + second) - third) + last) * degreeFactor)

end Tatc.Ieee
