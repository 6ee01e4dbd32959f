import Verif.Model.IeeeViewing
import Verif.Model.Orbit

/-!
# Floating point arithmetic of sun-synchronous orbits

`SunSynchronousOrbit.get_inclination` and `get_derived_orbit`, every operation rounded to a double precision number; powers and
arc cosines are taken to be correctly rounded.
-/

namespace Tatc.Ieee
open Tatc.Num Tatc.Orbit

/-- The bound on the altitude, `12352000 - constants.EARTH_MEAN_RADIUS` (`src/tatc/schemas/orbit.py` L828). -/
noncomputable def ssoLimit : ℝ := fl (12352000 - earthMeanRadius)

/-- The altitudes that `SunSynchronousOrbit` accepts (`src/tatc/schemas/orbit.py` L824-L829). -/
def ssoAccepted (altitude : ℝ) : Prop := 0 ≤ altitude ∧ altitude < ssoLimit

/-- `SunSynchronousOrbit.get_inclination` (`src/tatc/schemas/orbit.py` L723-L730, L838-L847); `none` where it is not a
number. -/
noncomputable def ssoInclination (altitude : ℝ) : Option ℝ := do
  let semimajorAxis := fl (earthMeanRadius + altitude)
  let power := fl (fl (semimajorAxis / 12352000) ^ (7 / 2 : ℝ))
  let angle ← npArccos (-power)
  return fl (angle * degreeFactor)

/-- `SunSynchronousOrbit.get_right_ascension_ascending_node` (`src/tatc/schemas/orbit.py` L849-L872): `sun` is the right
ascension of the sun at the epoch, from the ephemeris, and the crossing is at so many `microseconds` of the day; the quotient of
two `timedelta`s is correctly rounded. -/
noncomputable def ssoRaan (sun : ℝ) (microseconds : Nat) (ascending : Bool) : ℝ :=
  let ectDay := fl (microseconds / 86400000000)
  mod360 (fl (fl (sun + fl (360 * ectDay)) + if ascending then 180 else 0))

/-- `SunSynchronousOrbit.get_derived_orbit` (`src/tatc/schemas/orbit.py` L874-L901); "not a number" is no valid inclination. -/
noncomputable def ssoDerived (altitude trueAnomaly : ℝ) (epoch : Int) (sun : ℝ) (microseconds : Nat) (ascending : Bool)
    (dM dRaan : ℝ) : Except PyErr Circular :=
  match ssoInclination altitude with
  | none => .error .validationError
  | some inclination =>
    Circular.make altitude (thereAndBack (mod360 (fl (thereAndBack trueAnomaly + dM)))) epoch inclination
      (mod360 (fl (ssoRaan sun microseconds ascending + dRaan)))

end Tatc.Ieee
