import Verif.Model.IeeeViewing

/-!
# Floating point arithmetic of the field of view of a swath

`swath_width_to_field_of_view`, every operation rounded to a double precision number; sines, cosines, their inverses and arc
tangents are taken to be correctly rounded.
-/

namespace Tatc.Ieee
open Tatc.Num
open scoped Classical

/-- `_lambda` (`src/tatc/utils.py` L154-L158): the central angle of the centre of view; `none` where it is not a number. -/
noncomputable def viewCentral (altitude lookAngle elevation : ℝ) : Option ℝ := do
  let sinEta := min (sinRho altitude elevation) (sinHalf lookAngle)
  let cosEpsilon := fl (sinEta / sinRho altitude elevation)
  let eta ← npArcsin sinEta
  let epsilon ← npArccos cosEpsilon
  return fl (fl (pi / 2 - eta) - epsilon)

/-- `np.arctan(tan_eta)` for a central angle (`src/tatc/utils.py` L159-L168). -/
noncomputable def edgeAngle (rho y : ℝ) : Option ℝ := do
  let sinLambda := fl (Real.sin y)
  let lambda ← npArcsin sinLambda
  return fl (Real.arctan (fl (fl (rho * sinLambda) / fl (1 - fl (rho * fl (Real.cos lambda))))))

/-- `swath_width_to_field_of_view` (`src/tatc/utils.py` L133-L168). -/
noncomputable def swathToFov (altitude swathWidth lookAngle elevation : ℝ) : Option ℝ := do
  let lambda ← viewCentral altitude lookAngle elevation
  let half := fl (fl (swathWidth / 2) / fl (earthMeanRadius + elevation))
  let eta1 ← edgeAngle (sinRho altitude elevation) (fl (lambda - half))
  let eta2 ← edgeAngle (sinRho altitude elevation) (fl (lambda + half))
  return fl (fl (eta2 - eta1) * degreeFactor)

end Tatc.Ieee
