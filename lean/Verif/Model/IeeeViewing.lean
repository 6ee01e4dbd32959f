import Verif.Model.IeeeSamples

/-!
# Floating point arithmetic of the viewing geometry

`field_of_regard_to_swath_width`, `compute_field_of_regard` and `compute_min_elevation_angle`, every operation rounded to a
double precision number; sines, cosines and their inverses are taken to be correctly rounded.  Where the argument of an
inverse is above one or below minus one the result is "not a number", `none` here.
-/

namespace Tatc.Ieee
open Tatc.Num
open scoped Classical

/-- `np.arcsin` (`src/tatc/utils.py` L195, L222). -/
noncomputable def npArcsin (x : ℝ) : Option ℝ := if -1 ≤ x ∧ x ≤ 1 then some (fl (Real.arcsin x)) else none

/-- `np.arccos` (`src/tatc/utils.py` L195, L250). -/
noncomputable def npArccos (x : ℝ) : Option ℝ := if -1 ≤ x ∧ x ≤ 1 then some (fl (Real.arccos x)) else none

/-- `sin_rho` (`src/tatc/utils.py` L187-L189, L215-L217, L243-L245). -/
noncomputable def sinRho (altitude elevation : ℝ) : ℝ :=
  fl (fl (earthMeanRadius + elevation) / fl (earthMeanRadius + altitude))

/-- `np.sin(np.radians(field_of_regard) / 2)` (`src/tatc/utils.py` L191, L241). -/
noncomputable def sinHalf (fieldOfRegard : ℝ) : ℝ := fl (Real.sin (fl (fl (fieldOfRegard * radianFactor) / 2)))

/-- `field_of_regard_to_swath_width` (`src/tatc/utils.py` L171-L196). -/
noncomputable def forToSwath (altitude fieldOfRegard elevation : ℝ) : Option ℝ := do
  let sinEta := min (sinRho altitude elevation) (sinHalf fieldOfRegard)
  let cosEpsilon := fl (sinEta / sinRho altitude elevation)
  let eta ← npArcsin sinEta
  let epsilon ← npArccos cosEpsilon
  let lambda := fl (fl (pi / 2 - eta) - epsilon)
  return fl (fl (2 * fl (earthMeanRadius + elevation)) * lambda)

/-- `compute_field_of_regard` (`src/tatc/utils.py` L199-L222). -/
noncomputable def fieldOfRegard (altitude minElevation elevation : ℝ) : Option ℝ := do
  let cosEpsilon := fl (Real.cos (fl (minElevation * radianFactor)))
  let eta ← npArcsin (fl (sinRho altitude elevation * cosEpsilon))
  return fl (fl (eta * 2) * degreeFactor)

/-- `compute_min_elevation_angle` (`src/tatc/utils.py` L225-L250). -/
noncomputable def minElevation (altitude fieldOfRegard elevation : ℝ) : Option ℝ :=
  let cosEpsilon := fl (sinHalf fieldOfRegard / sinRho altitude elevation)
  if cosEpsilon > 1 then some 0
  else do
    let epsilon ← npArccos cosEpsilon
    return fl (epsilon * degreeFactor)

end Tatc.Ieee
