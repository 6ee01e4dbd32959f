import Verif.Model.IeeeGrid

/-!
# Floating point arithmetic of the number of samples

`compute_number_samples`, every operation rounded to a double precision number; the cosine is taken to be correctly rounded.
-/

namespace Tatc.Ieee
open Tatc.Num
open scoped Classical

/-- `np.pi` (`src/tatc/utils.py` L102). -/
noncomputable def pi : ℝ := 884279719003555 / 2 ^ 48

/-- The height of the cap of a sample (`src/tatc/utils.py` L94-L98). -/
noncomputable def sampleHeight (distance : ℝ) : ℝ :=
  let theta := fl (distance / earthMeanRadius)
  let radius := fl (earthMeanRadius * fl (Real.cos (fl (theta / 2))))
  fl (earthMeanRadius - radius)

/-- The area of a sample (`src/tatc/utils.py` L102). -/
noncomputable def sampleArea (distance : ℝ) : ℝ := fl (fl (fl (2 * pi) * earthMeanRadius) * sampleHeight distance)

/-- `compute_number_samples` (`src/tatc/utils.py` L82-L104); `surface` is `EARTH_SURFACE_AREA`, as the computer has it
(`src/tatc/constants.py` L36-L42).  A division by zero raises (as numba does unless told otherwise). -/
noncomputable def numberSamples (surface distance : ℝ) : Except PyErr Nat := do
  require (sampleArea distance ≠ 0) .zeroDivisionError
  return ⌊fl (surface / sampleArea distance)⌋₊

end Tatc.Ieee
