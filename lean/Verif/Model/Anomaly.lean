import Verif.Model.Convert

/-!
# The true anomaly of an element set
-/

namespace Tatc.Tle
open Tatc.Text

/-- `TwoLineElements.get_true_anomaly` (`src/tatc/schemas/orbit.py` L322-L334). -/
noncomputable def getTrueAnomaly (l2 : Line) : Except PyErr ℝ := do
  let meanAnomaly ← getMeanAnomaly l2
  let eccentricity ← getEccentricity l2
  return Orbit.meanToTrue meanAnomaly eccentricity

end Tatc.Tle
