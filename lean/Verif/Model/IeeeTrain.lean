import Verif.Model.IeeeWalker
import Verif.Model.IeeePeriod

/-!
# Floating point arithmetic of trains of satellites

`TrainConstellation.generate_members`, every operation rounded to a double precision number.
-/

namespace Tatc.Ieee
open Tatc.Num Tatc.Orbit Tatc.Constellation

/-- The altitude of a lead orbit (`src/tatc/schemas/orbit.py` L706, L824-L829). -/
def DoubleLead.altitude : DoubleLead → ℝ
  | .circular o => o.altitude
  | .sso altitude .. => altitude

/-- `self.interval / timedelta(days=1)` (`src/tatc/schemas/satellite.py` L98, L109): correctly rounded. -/
noncomputable def trainDays {I : Type} (t : Train I) : ℝ := fl (t.interval / 86400000000)

/-- `get_delta_mean_anomaly` (`src/tatc/schemas/satellite.py` L89-L98), where there is a period. -/
noncomputable def trainDeltaMean {I : Type} (lead : DoubleLead) (t : Train I) : ℝ :=
  fl (fl (-360 * meanMotion lead.altitude) * trainDays t)

/-- `get_delta_raan` (`src/tatc/schemas/satellite.py` L100-L110). -/
noncomputable def trainDeltaRaan {I : Type} (t : Train I) : ℝ :=
  if t.repeatGroundTrack then fl (360 * trainDays t) else 0

/-- `TrainConstellation.generate_members` (`src/tatc/schemas/satellite.py` L112-L129); `lead` stands for the orbit of the
constellation. -/
noncomputable def trainMembers {I : Type} (lead : DoubleLead) (t : Train I) : Except PyErr (List (Satellite I)) :=
  (List.range t.satellites).mapM fun (i : Nat) => do
    let o ← lead.derived (fl (i * trainDeltaMean lead t)) (fl (i * trainDeltaRaan t))
    return ⟨zeroPad t.name t.satellites (i + 1), .circular o, t.instruments⟩

end Tatc.Ieee
