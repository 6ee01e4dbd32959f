import Verif.Model.Ieee
import Verif.Model.IeeeAnomaly
import Verif.Model.IeeeTrain

/-!
# Floating point arithmetic of derived Keplerian orbits

`KeplerianOrbit.get_derived_orbit`, every operation rounded to a double precision number.
-/

namespace Tatc.Ieee
open Tatc.Num Tatc.Orbit Tatc.Constellation

/-- `KeplerianOrbit.get_derived_orbit` (`src/tatc/schemas/orbit.py` L944-L980). -/
noncomputable def keplerianDerived (o : Keplerian) (dM dRaan : ℝ) : Except PyErr Keplerian :=
  Keplerian.make o.altitude (meanToTrue (mod360 (fl (trueToMean o.trueAnomaly o.eccentricity + dM))) o.eccentricity) o.epoch
    o.inclination (mod360 (fl (o.raan + dRaan))) o.eccentricity o.perigee

/-- `WalkerConstellation.generate_members` (`src/tatc/schemas/satellite.py` L241-L263) where the orbit of the constellation is
the Keplerian orbit `lead`. -/
noncomputable def keplerianWalkerMembers {I : Type} (lead : Keplerian) (w : Walker I) : Except PyErr (List (Satellite I)) :=
  (List.range w.satellites).mapM fun (i : Nat) => do
    let o ← keplerianDerived lead (walkerIncrements w i).1 (walkerIncrements w i).2
    return ⟨zeroPad w.name w.satellites (i + 1), .keplerian o, w.instruments⟩

/-- `TrainConstellation.generate_members` (`src/tatc/schemas/satellite.py` L112-L129) where the orbit of the constellation is the
Keplerian orbit `lead`, whose mean motion is that of a circular orbit (`src/tatc/schemas/orbit.py` L732-L748). -/
noncomputable def keplerianTrainMembers {I : Type} (lead : Keplerian) (t : Train I) : Except PyErr (List (Satellite I)) :=
  (List.range t.satellites).mapM fun (i : Nat) => do
    let o ← keplerianDerived lead (fl (i * trainDeltaMean (.circular lead.toCircular) t)) (fl (i * trainDeltaRaan t))
    return ⟨zeroPad t.name t.satellites (i + 1), .keplerian o, t.instruments⟩

end Tatc.Ieee
