import Verif.Model.IeeeViewing
import Verif.Model.Soc

/-!
# Floating point arithmetic of the streets of coverage design

`swath_width_to_field_of_regard` and `SOCConstellation.generate_walker`, every operation rounded to a double precision number;
sines, cosines, their inverses and arc tangents are taken to be correctly rounded.  Numbers of satellites are Python integers,
which are exact.
-/

namespace Tatc.Ieee
open Tatc.Num Tatc.Constellation
open scoped Classical

/-- `swath_width_to_field_of_regard` (`src/tatc/utils.py` L108-L130); `none` where `np.arcsin` is not a number. -/
noncomputable def swathToFor (altitude swathWidth elevation : ℝ) : Option ℝ := do
  let sinLambda := fl (Real.sin (fl (fl (swathWidth / 2) / fl (earthMeanRadius + elevation))))
  let lambda ← npArcsin sinLambda
  let tanEta := fl (fl (sinRho altitude elevation * sinLambda) /
    fl (1 - fl (sinRho altitude elevation * fl (Real.cos lambda))))
  return fl (fl (2 * fl (Real.arctan tanEta)) * degreeFactor)

/-- `math.asin`: outside `[-1, 1]` it raises (`src/tatc/schemas/satellite.py` L441, L460, L466). -/
noncomputable def mathAsin (x : ℝ) : Except PyErr ℝ := do
  require (-1 ≤ x ∧ x ≤ 1) .valueError
  return fl (Real.arcsin x)

/-- `math.ceil((2 * math.pi) / x)` (`src/tatc/schemas/satellite.py` L463, L469). -/
noncomputable def ceilTurn (x : ℝ) : Except PyErr Int := do
  require (x ≠ 0) .zeroDivisionError
  return ⌈fl (fl (2 * pi) / x)⌉

/-- `compute_min_elevation_angle` of `swath_width_to_field_of_regard` (`src/tatc/schemas/satellite.py` L431-L436); a result that is
not a number makes `math.ceil` raise (L463). -/
noncomputable def socElevation (altitude swathWidth : ℝ) : Except PyErr ℝ :=
  match (swathToFor altitude swathWidth 0).bind fun f => minElevation altitude f 0 with
  | some e => .ok e
  | none => .error .valueError

/-- `SOCConstellation.generate_walker` (`src/tatc/schemas/satellite.py` L422-L479); the Walker constellation gets the defaults
`DELTA` and relative spacing 0 (L149-L173). -/
noncomputable def socWalker {I : Type} (c : Soc I) : Except PyErr (Walker I) := do
  let e ← socElevation c.orbit.altitude c.swathWidth
  let etaRad ← mathAsin (fl (fl (earthMeanRadius / fl (earthMeanRadius + c.orbit.altitude)) *
    fl (Real.cos (fl (e * radianFactor)))))
  let eta := fl (etaRad * degreeFactor)
  let gamma := fl (fl (90 - e) - eta)
  let rFoot := fl (earthMeanRadius * fl (Real.sin (fl (gamma * radianFactor))))
  let dF := fl (fl (2 * rFoot) * c.packing)
  let dP := fl (fl (fl (Real.sqrt 3) * rFoot) * c.packing)
  let halfF ← mathAsin (fl (fl (0.5 * dF) / earthMeanRadius))
  let gammaF := fl (2 * halfF)
  let perPlane ← ceilTurn gammaF
  let halfP ← mathAsin (fl (fl (0.5 * dP) / earthMeanRadius))
  let gammaP := fl (2 * halfP)
  let planes ← ceilTurn gammaP
  Walker.make c.name (.circular c.orbit) c.instruments false (perPlane * planes) planes 0

end Tatc.Ieee
