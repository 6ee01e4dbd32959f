import Verif.Model.Orbit
import Verif.Model.Tle
import Verif.Model.Vec
import Verif.Model.Coverage
import Verif.Model.Geometry

/-!
# Model of the conversion of orbits to element sets, and of the search for a repeat cycle

`to_tle` of the orbit classes (`src/tatc/schemas/orbit.py` L790-L815, L903-L928, L982-L1019,
L1100-L1137), without the cache (see `Model/Cache.lean`), and the search of `get_repeat_cycle`
(L513-L547).  `Satrec.sgp4init` and `exporter.export_tle` belong to the sgp4 package: the first stores its
arguments, the second is the parameter `ex`.
-/

namespace Tatc.Orbit
open Tatc.Num Tatc.Tle
open scoped Classical

/-- The `epoch` of an orbit: it may be missing (`Optional`), have no time zone, or have one
(microseconds).
(`src/tatc/schemas/orbit.py` L709-L712). -/
inductive EpochArg
  | missing
  | naive (t : Int)
  | aware (t : Int)

/-- The microseconds of `datetime(1949, 12, 31, tzinfo=timezone.utc)`, counted like the epochs from the
first of January 1970 (7306 days)
(`src/tatc/schemas/orbit.py` L1004, L1122). -/
def epoch1949 : Int := -7306 * 86400000000

/-- `(self.epoch - datetime(1949, 12, 31, tzinfo=timezone.utc)) / timedelta(days=1)`: subtracting from
`None` or from a datetime without time zone raises `TypeError`.
(`src/tatc/schemas/orbit.py` L1004-L1005, L1122-L1123). -/
noncomputable def daysSince1949 : EpochArg → Except PyErr ℝ
  | .missing => .error .typeError
  | .naive _ => .error .typeError
  | .aware t => .ok (((t - epoch1949 : Int) : ℝ) / 86400000000)

/-- The elements given to `Satrec.sgp4init`; angles in radians, mean motion in radians per minute
(`src/tatc/schemas/orbit.py` L1000-L1015).  Drag and the derivatives of the mean motion are zero. -/
structure Satrec where
  days : ℝ
  ecco : ℝ
  argpo : ℝ
  inclo : ℝ
  mo : ℝ
  no : ℝ
  nodeo : ℝ

/-- `KeplerianOrbit.to_tle`, the call of `sgp4init` (`src/tatc/schemas/orbit.py` L998-L1015). -/
noncomputable def Keplerian.satrec (o : Keplerian) (epoch : EpochArg := .aware o.epoch) :
    Except PyErr Satrec := do
  let days ← daysSince1949 epoch
  let n ← meanMotion o.altitude
  return { days := days, ecco := o.eccentricity, argpo := radians o.perigee, inclo := radians o.inclination,
           mo := radians o.meanAnomaly, no := n * 2 * Real.pi / 1440, nodeo := radians o.raan }

/-- `CircularOrbit.to_tle` (`src/tatc/schemas/orbit.py` L806-L813): a Keplerian orbit with the default
eccentricity and argument of perigee (L939-L942). -/
noncomputable def Circular.satrec (o : Circular) : Except PyErr Satrec := do
  let k ← Keplerian.make o.altitude o.trueAnomaly o.epoch o.inclination o.raan 0 0
  k.satrec

/-- `SunSynchronousOrbit.to_tle` (`src/tatc/schemas/orbit.py` L919-L926). -/
noncomputable def Sso.satrec (sun : Int → ℝ) (o : Sso) : Except PyErr Satrec := do
  let k ← Keplerian.make o.altitude o.trueAnomaly o.epoch o.inclination (o.raan sun) 0 0
  k.satrec

/-- `MolniyaOrbit.get_mean_anomaly` (`src/tatc/schemas/orbit.py` L1060-L1069). -/
noncomputable def Molniya.meanAnomaly (o : Molniya) : ℝ := trueToMean o.trueAnomaly o.eccentricity

/-- `MolniyaOrbit.to_tle`, the call of `sgp4init` (`src/tatc/schemas/orbit.py` L1116-L1133). -/
noncomputable def Molniya.satrec (o : Molniya) (epoch : EpochArg := .aware o.epoch) : Except PyErr Satrec := do
  let days ← daysSince1949 epoch
  return { days := days, ecco := o.eccentricity, argpo := radians o.perigee, inclo := radians o.inclination,
           mo := radians o.meanAnomaly, no := 2 * Real.pi / (o.period / 60), nodeo := radians o.raan }

/-- `TundraOrbit.get_semimajor_axis`, inherited (`src/tatc/schemas/orbit.py` L1037-L1046). -/
noncomputable def Tundra.semimajorAxis (o : Tundra) : ℝ :=
  (6.6743e-11 * 5.9736e24 * o.period ^ 2 / (4 * Real.pi ^ 2)) ^ (1 / 3 : ℝ)

/-- `TundraOrbit.get_mean_anomaly`: the inherited method with the eccentricity of the class
(`src/tatc/schemas/orbit.py` L1060-L1069, L1153-L1154). -/
noncomputable def Tundra.meanAnomaly (o : Tundra) : ℝ := trueToMean o.trueAnomaly o.eccentricity

/-- `TundraOrbit.to_tle`, inherited from `MolniyaOrbit` (`src/tatc/schemas/orbit.py` L1116-L1133,
L1153-L1154). -/
noncomputable def Tundra.satrec (o : Tundra) (epoch : EpochArg := .aware o.epoch) : Except PyErr Satrec := do
  let days ← daysSince1949 epoch
  return { days := days, ecco := o.eccentricity, argpo := radians o.perigee, inclo := radians o.inclination,
           mo := radians o.meanAnomaly, no := 2 * Real.pi / (o.period / 60), nodeo := radians o.raan }

/-- `tle1.replace("\x00", "U")` (`src/tatc/schemas/orbit.py` L1017, L1135). -/
def replaceNul (l : Line) : Line := l.map fun c => if c = '\x00' then 'U' else c

/-- The export of the elements and the construction of the element set
(`src/tatc/schemas/orbit.py` L1016-L1017, L1134-L1135).  `ex` is `exporter.export_tle`, `epoch` the reading
of an epoch (both of the sgp4 package). -/
def exportTle (ex : Satrec → Line × Line) (epoch : Line → Line → Except PyErr Int) (s : Satrec) :
    Except PyErr (List Line) :=
  let lines := ex s
  construct epoch [replaceNul lines.1, lines.2]

/-- `KeplerianOrbit.to_tle` without the cache (`src/tatc/schemas/orbit.py` L998-L1018). -/
noncomputable def Keplerian.toTle (ex : Satrec → Line × Line) (epoch : Line → Line → Except PyErr Int)
    (o : Keplerian) (arg : EpochArg := .aware o.epoch) : Except PyErr (List Line) := do
  let s ← o.satrec arg
  exportTle ex epoch s

/-- `CircularOrbit.to_tle` without the cache (`src/tatc/schemas/orbit.py` L805-L814). -/
noncomputable def Circular.toTle (ex : Satrec → Line × Line) (epoch : Line → Line → Except PyErr Int)
    (o : Circular) : Except PyErr (List Line) := do
  let s ← o.satrec
  exportTle ex epoch s

/-- `SunSynchronousOrbit.to_tle` without the cache (`src/tatc/schemas/orbit.py` L918-L927). -/
noncomputable def Sso.toTle (ex : Satrec → Line × Line) (epoch : Line → Line → Except PyErr Int)
    (sun : Int → ℝ) (o : Sso) : Except PyErr (List Line) := do
  let s ← o.satrec sun
  exportTle ex epoch s

/-- `MolniyaOrbit.to_tle` without the cache (`src/tatc/schemas/orbit.py` L1116-L1136). -/
noncomputable def Molniya.toTle (ex : Satrec → Line × Line) (epoch : Line → Line → Except PyErr Int)
    (o : Molniya) (arg : EpochArg := .aware o.epoch) : Except PyErr (List Line) := do
  let s ← o.satrec arg
  exportTle ex epoch s

/-- `TundraOrbit.to_tle` without the cache (`src/tatc/schemas/orbit.py` L1116-L1136). -/
noncomputable def Tundra.toTle (ex : Satrec → Line × Line) (epoch : Line → Line → Except PyErr Int)
    (o : Tundra) (arg : EpochArg := .aware o.epoch) : Except PyErr (List Line) := do
  let s ← o.satrec arg
  exportTle ex epoch s

/-- `MolniyaOrbit.get_orbit_period` and `TundraOrbit.get_orbit_period`: the method of `OrbitBase`, which
uses the altitude (`src/tatc/schemas/orbit.py` L741-L748).  Microseconds. -/
noncomputable def Molniya.orbitPeriod (o : Molniya) : Int := Orbit.orbitPeriod o.altitude

/-- `MolniyaOrbit.get_mean_motion` and `TundraOrbit.get_mean_motion`: the method of `OrbitBase`
(`src/tatc/schemas/orbit.py` L732-L739). -/
noncomputable def Molniya.meanMotion (o : Molniya) : Except PyErr ℝ := Orbit.meanMotion o.altitude

/-- `TwoLineElements.get_orbit_period` (`src/tatc/schemas/orbit.py` L269-L279): `timedelta(days=1 / n)`,
microseconds; a mean motion of zero raises. -/
noncomputable def tleOrbitPeriod (meanMotion : ℝ) : Except PyErr Int := do
  require (meanMotion ≠ 0) .zeroDivisionError
  return roundHalfEven (1 / meanMotion * 86400000000)

/-! ## The search for a repeat cycle -/

/-- `np.linalg.norm(a - b)` (`src/tatc/schemas/orbit.py` L536, L538). -/
noncomputable def distance (a b : V3) : ℝ :=
  Real.sqrt ((a.x - b.x) ^ 2 + (a.y - b.y) ^ 2 + (a.z - b.z) ^ 2)

/-- The search of `get_repeat_cycle` (`src/tatc/schemas/orbit.py` L513-L547): `position` and `velocity` are
Earth-fixed, `find a b` is `find_events` over the sub-satellite point at the epoch, with the minimum
elevation.  Times are microseconds (the rounding of `utc_datetime` is not modelled). -/
noncomputable def searchRepeat (position velocity : Int → V3)
    (find : Int → Int → List (Int × Coverage.EventKind)) (epoch : Int)
    (maxPosition maxVelocity : ℝ) (maxSearch : Int) : Option Int :=
  let events := find (epoch + 600000000) (epoch + maxSearch)
  let culminations := (events.filter fun e => e.2 = .culminate).map Prod.fst
  let valid := culminations.filter fun t =>
    decide (distance (position t) (position epoch) < maxPosition) &&
      decide (distance (velocity t) (velocity epoch) < maxVelocity)
  match valid with
  | t :: _ => some (t - epoch)
  | [] => none

end Tatc.Orbit
