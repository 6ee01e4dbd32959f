import Verif.Model.Orbit
import Mathlib.Data.Int.Log

/-!
# Floating point arithmetic of derived orbits

The other modules compute with real numbers.  Here `get_derived_orbit` of circular orbits and the number of satellites in a
plane are computed as Python does, every operation rounded to a double precision number (IEEE 754 binary64, to nearest, ties
to even; results too large for it are not modelled, nor are NaNs and the sign of zero).
-/

namespace Tatc.Ieee
open Tatc.Num Tatc.Orbit
open scoped Classical

/-- The exponent of the last digit of a double precision number near `x` (the arithmetic under
`src/tatc/schemas/orbit.py` L779, L781). -/
noncomputable def lastPlace (x : ℝ) : ℤ := max (Int.log 2 |x|) (-1022) - 52

/-- The double precision number nearest to `x`: the result of an operation whose exact result is `x` (the arithmetic under
`src/tatc/schemas/orbit.py` L779, L781). -/
noncomputable def fl (x : ℝ) : ℝ := roundHalfEven (x / 2 ^ lastPlace x) * 2 ^ lastPlace x

/-- `np.mod(a, 360)` of a double precision number (`src/tatc/schemas/orbit.py` L779, L781): the remainder of the division
truncated towards zero, which is exact, and a rounded sum where that is negative. -/
noncomputable def mod360 (a : ℝ) : ℝ :=
  if 0 ≤ a then npMod a 360
  else
    let r := -npMod (-a) 360
    if r = 0 then 0 else fl (r + 360)

/-- The double precision constant in `np.radians`, `math.pi / 180` (`src/tatc/utils.py` L48, L71). -/
noncomputable def radianFactor : ℝ := 5030569068109113 / 2 ^ 58

/-- The double precision constant in `np.degrees`, `180 / math.pi` (`src/tatc/utils.py` L55, L79). -/
noncomputable def degreeFactor : ℝ := 1007958012753983 / 2 ^ 44

/-- `np.degrees(np.radians(x))`: what `mean_anomaly_to_true_anomaly` and `true_anomaly_to_mean_anomaly` are with
eccentricity 0, as the other terms are zeros (`src/tatc/utils.py` L37-L55, L59-L79). -/
noncomputable def thereAndBack (x : ℝ) : ℝ := fl (fl (x * radianFactor) * degreeFactor)

/-- `CircularOrbit.get_derived_orbit` (`src/tatc/schemas/orbit.py` L764-L788). -/
noncomputable def derived (o : Circular) (dM dRaan : ℝ) : Except PyErr Circular :=
  Circular.make o.altitude (thereAndBack (mod360 (fl (thereAndBack o.trueAnomaly + dM)))) o.epoch
    o.inclination (mod360 (fl (o.raan + dRaan)))

/-- `WalkerConstellation.get_satellites_per_plane` (`src/tatc/schemas/satellite.py` L200-L207). -/
noncomputable def satellitesPerPlane (satellites planes : Nat) : Int := ⌈fl ((satellites : ℝ) / planes)⌉

end Tatc.Ieee
