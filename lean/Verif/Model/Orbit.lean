import Verif.Model.Py
import Verif.Model.Real

/-!
# Model of the orbit classes

`src/tatc/schemas/orbit.py` L336-L376 and L702-L1183, with the anomaly conversions of
`src/tatc/utils.py` L36-L79.
-/

namespace Tatc.Orbit
open Tatc.Num
open scoped Classical

/-- `mean_anomaly_to_true_anomaly` (`src/tatc/utils.py` L37-L55). -/
noncomputable def meanToTrue (meanAnomaly eccentricity : ℝ) : ℝ :=
  let m := radians meanAnomaly
  degrees (m + (2 * eccentricity - 1 / 4 * eccentricity ^ 3) * Real.sin m +
    5 / 4 * eccentricity ^ 2 * Real.sin (2 * m) + 13 / 12 * eccentricity ^ 3 * Real.sin (3 * m))

/-- `true_anomaly_to_mean_anomaly` (`src/tatc/utils.py` L59-L79). -/
noncomputable def trueToMean (trueAnomaly eccentricity : ℝ) : ℝ :=
  let t := radians trueAnomaly
  degrees (t - 2 * eccentricity * Real.sin t +
    (3 / 4 * eccentricity ^ 2 + 1 / 8 * eccentricity ^ 4) * Real.sin (2 * t) -
    1 / 3 * eccentricity ^ 3 * Real.sin (3 * t) + 5 / 32 * eccentricity ^ 4 * Real.sin (4 * t))

/-- `compute_orbit_period` (`src/tatc/utils.py` L254-L266), seconds. -/
noncomputable def orbitPeriodSeconds (altitude : ℝ) : ℝ :=
  let a := meanRadius + altitude
  2 * Real.pi / Real.sqrt (mu / a ^ 3)

/-- `OrbitBase.get_orbit_period` (`src/tatc/schemas/orbit.py` L741-L748): microseconds. -/
noncomputable def orbitPeriod (altitude : ℝ) : Int := roundHalfEven (orbitPeriodSeconds altitude * 1000000)

/-- `OrbitBase.get_mean_motion` (`src/tatc/schemas/orbit.py` L732-L739): revolutions per day.  An
altitude at or below the centre of the Earth has no period (the square root is not a number), and a
period that rounds to zero cannot be inverted. -/
noncomputable def meanMotion (altitude : ℝ) : Except PyErr ℝ := do
  require (0 < meanRadius + altitude) .valueError
  require (orbitPeriod altitude ≠ 0) .zeroDivisionError
  return 1 / ((orbitPeriod altitude : ℝ) / 86400000000)

/-- `CircularOrbit` (`src/tatc/schemas/orbit.py` L702-L762). -/
structure Circular where
  altitude : ℝ
  trueAnomaly : ℝ
  epoch : Int
  inclination : ℝ
  raan : ℝ

/-- Construction of a `CircularOrbit`, with the field constraints
(`src/tatc/schemas/orbit.py` L707-L712, L756-L762). -/
noncomputable def Circular.make (altitude trueAnomaly : ℝ) (epoch : Int) (inclination raan : ℝ) :
    Except PyErr Circular := do
  require (0 ≤ trueAnomaly ∧ trueAnomaly < 360) .validationError
  require (0 ≤ inclination ∧ inclination < 180) .validationError
  require (0 ≤ raan ∧ raan < 360) .validationError
  return ⟨altitude, trueAnomaly, epoch, inclination, raan⟩

/-- `CircularOrbit.get_derived_orbit` (`src/tatc/schemas/orbit.py` L764-L788). -/
noncomputable def Circular.derived (o : Circular) (dM dRaan : ℝ) : Except PyErr Circular :=
  Circular.make o.altitude (meanToTrue (npMod (trueToMean o.trueAnomaly 0 + dM) 360) 0) o.epoch
    o.inclination (npMod (o.raan + dRaan) 360)

/-- `SunSynchronousOrbit` (`src/tatc/schemas/orbit.py` L818-L836).  The crossing time is the fraction
of the day computed at L857-L862. -/
structure Sso where
  altitude : ℝ
  trueAnomaly : ℝ
  epoch : Int
  crossingDay : ℝ
  ascending : Bool

/-- Construction of a `SunSynchronousOrbit` (`src/tatc/schemas/orbit.py` L708, L824-L829). -/
noncomputable def Sso.make (altitude trueAnomaly : ℝ) (epoch : Int) (crossingDay : ℝ) (ascending : Bool) :
    Except PyErr Sso := do
  require (0 ≤ trueAnomaly ∧ trueAnomaly < 360) .validationError
  require (0 ≤ altitude ∧ altitude < 12352000 - meanRadius) .validationError
  return ⟨altitude, trueAnomaly, epoch, crossingDay, ascending⟩

/-- `SunSynchronousOrbit.get_inclination` (`src/tatc/schemas/orbit.py` L838-L847). -/
noncomputable def Sso.inclination (o : Sso) : ℝ :=
  degrees (Real.arccos (-((meanRadius + o.altitude) / 12352000) ^ (7 / 2 : ℝ)))

/-- `SunSynchronousOrbit.get_right_ascension_ascending_node` (`src/tatc/schemas/orbit.py` L849-L872);
`sun` is the right ascension of the sun (degrees) at an epoch, from the ephemeris. -/
noncomputable def Sso.raan (sun : Int → ℝ) (o : Sso) : ℝ :=
  npMod (sun o.epoch + 360 * o.crossingDay + 180 * (if o.ascending then 1 else 0)) 360

/-- `SunSynchronousOrbit.get_derived_orbit` (`src/tatc/schemas/orbit.py` L874-L901). -/
noncomputable def Sso.derived (sun : Int → ℝ) (o : Sso) (dM dRaan : ℝ) : Except PyErr Circular :=
  Circular.make o.altitude (meanToTrue (npMod (trueToMean o.trueAnomaly 0 + dM) 360) 0) o.epoch
    o.inclination (npMod (o.raan sun + dRaan) 360)

/-- `KeplerianOrbit` (`src/tatc/schemas/orbit.py` L931-L942). -/
structure Keplerian extends Circular where
  eccentricity : ℝ
  perigee : ℝ

/-- Construction of a `KeplerianOrbit` (`src/tatc/schemas/orbit.py` L707-L712, L756-L762, L939-L942). -/
noncomputable def Keplerian.make (altitude trueAnomaly : ℝ) (epoch : Int) (inclination raan eccentricity
    perigee : ℝ) : Except PyErr Keplerian := do
  let c ← Circular.make altitude trueAnomaly epoch inclination raan
  require (0 ≤ eccentricity) .validationError
  require (0 ≤ perigee ∧ perigee < 360) .validationError
  return { toCircular := c, eccentricity := eccentricity, perigee := perigee }

/-- `KeplerianOrbit.get_mean_anomaly` (`src/tatc/schemas/orbit.py` L944-L951). -/
noncomputable def Keplerian.meanAnomaly (o : Keplerian) : ℝ := trueToMean o.trueAnomaly o.eccentricity

/-- `KeplerianOrbit.get_derived_orbit` (`src/tatc/schemas/orbit.py` L953-L980). -/
noncomputable def Keplerian.derived (o : Keplerian) (dM dRaan : ℝ) : Except PyErr Keplerian :=
  Keplerian.make o.altitude (meanToTrue (npMod (o.meanAnomaly + dM) 360) o.eccentricity) o.epoch
    o.inclination (npMod (o.raan + dRaan) 360) o.eccentricity o.perigee

/-- `MolniyaOrbit` (`src/tatc/schemas/orbit.py` L1022-L1035). -/
structure Molniya where
  altitude : ℝ
  trueAnomaly : ℝ
  epoch : Int
  inclination : ℝ
  raan : ℝ
  period : ℝ
  perigee : ℝ

/-- Construction of a `MolniyaOrbit`; an argument that is not given (`none`) takes its default value
(`src/tatc/schemas/orbit.py` L707-L712, L1028-L1035).  Extra arguments (`eccentricity`, L1096) are
ignored by pydantic. -/
noncomputable def Molniya.make (altitude trueAnomaly : ℝ) (epoch : Int) (inclination raan : ℝ)
    (period : Option ℝ) (perigee : ℝ) : Except PyErr Molniya := do
  require (0 ≤ trueAnomaly ∧ trueAnomaly < 360) .validationError
  require (0 ≤ inclination ∧ inclination < 180) .validationError
  require (0 ≤ raan ∧ raan < 360) .validationError
  require (0 < period.getD 43080) .validationError
  require (0 ≤ perigee ∧ perigee < 360) .validationError
  return ⟨altitude, trueAnomaly, epoch, inclination, raan, period.getD 43080, perigee⟩

/-- `MolniyaOrbit.get_semimajor_axis` (`src/tatc/schemas/orbit.py` L1037-L1046). -/
noncomputable def Molniya.semimajorAxis (o : Molniya) : ℝ :=
  (6.6743e-11 * 5.9736e24 * o.period ^ 2 / (4 * Real.pi ^ 2)) ^ (1 / 3 : ℝ)

/-- `MolniyaOrbit.get_eccentricity` (`src/tatc/schemas/orbit.py` L1048-L1058). -/
noncomputable def Molniya.eccentricity (o : Molniya) : ℝ :=
  (o.semimajorAxis - (o.altitude + equatorialRadius)) / o.semimajorAxis

/-- `MolniyaOrbit.get_derived_orbit` (`src/tatc/schemas/orbit.py` L1071-L1098): the orbital period is
not passed. -/
noncomputable def Molniya.derived (o : Molniya) (dM dRaan : ℝ) : Except PyErr Molniya :=
  Molniya.make o.altitude
    (meanToTrue (npMod (trueToMean o.trueAnomaly o.eccentricity + dM) 360) o.eccentricity) o.epoch
    o.inclination (npMod (o.raan + dRaan) 360) none o.perigee

/-- `TundraOrbit` (`src/tatc/schemas/orbit.py` L1140-L1151). -/
structure Tundra where
  altitude : ℝ
  trueAnomaly : ℝ
  epoch : Int
  inclination : ℝ
  raan : ℝ
  period : ℝ
  perigee : ℝ
  eccentricity : ℝ

/-- Construction of a `TundraOrbit` (`src/tatc/schemas/orbit.py` L707-L712, L1029-L1031,
L1145-L1151). -/
noncomputable def Tundra.make (altitude trueAnomaly : ℝ) (epoch : Int) (inclination raan : ℝ)
    (period : Option ℝ) (perigee eccentricity : ℝ) : Except PyErr Tundra := do
  require (0 ≤ trueAnomaly ∧ trueAnomaly < 360) .validationError
  require (0 ≤ inclination ∧ inclination < 180) .validationError
  require (0 ≤ raan ∧ raan < 360) .validationError
  require (0 < period.getD 86400) .validationError
  require (0 ≤ perigee ∧ perigee < 360) .validationError
  require (0 ≤ eccentricity) .validationError
  return ⟨altitude, trueAnomaly, epoch, inclination, raan, period.getD 86400, perigee, eccentricity⟩

/-- `TundraOrbit.get_derived_orbit` (`src/tatc/schemas/orbit.py` L1156-L1183): the orbital period is
not passed. -/
noncomputable def Tundra.derived (o : Tundra) (dM dRaan : ℝ) : Except PyErr Tundra :=
  Tundra.make o.altitude
    (meanToTrue (npMod (trueToMean o.trueAnomaly o.eccentricity + dM) 360) o.eccentricity) o.epoch
    o.inclination (npMod (o.raan + dRaan) 360) none o.perigee o.eccentricity

/-- The mean elements of one element set that `TwoLineElements.get_derived_orbit` uses: mean anomaly,
node (radians) and mean motion (revolutions per day); `rest` stands for the other elements, which are
copied (`src/tatc/schemas/orbit.py` L354-L372). -/
structure TleElements where
  meanAnomaly : ℝ
  node : ℝ
  meanMotion : ℝ
  rest : Int

/-- `TwoLineElements.get_derived_orbit` (`src/tatc/schemas/orbit.py` L336-L376) on the elements; the
export to text and the validation of that text are not modelled. -/
noncomputable def tleDerived (sets : List TleElements) (dM dRaan : ℝ) : List TleElements :=
  sets.map fun s =>
    { s with
      meanAnomaly := npMod (s.meanAnomaly + radians dM) (2 * Real.pi)
      node := npMod (s.node + radians dRaan) (2 * Real.pi) }

end Tatc.Orbit
