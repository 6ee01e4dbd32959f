import Verif.Model.IeeeSamples

/-!
# Floating point arithmetic of the Fibonacci lattice

`generate_fibonacci_lattice_points`, every operation rounded to a double precision number; the square root is (as the
standard says) and the inverse sine is taken to be correctly rounded.
-/

namespace Tatc.Ieee
open Tatc.Num Tatc.Generation
open scoped Classical

/-- The golden ratio (`src/tatc/generation/points.py` L47). -/
noncomputable def goldenRatio : ℝ := fl (fl (1 + fl (Real.sqrt 5)) / 2)

/-- `_compute_fibonacci_lattice_point_latitude` (`src/tatc/generation/points.py` L19-L33); the integers are exact. -/
noncomputable def latticeLatitude (index count : Nat) : ℝ :=
  fl (fl (Real.arcsin (fl (fl (2 * ((index : ℝ) + 1) / ((count : ℝ) + 2)) - 1))) * degreeFactor)

/-- `_compute_fibonacci_lattice_point_longitude` (`src/tatc/generation/points.py` L36-L52); the integer `360 * index` is
rounded to a double precision number. -/
noncomputable def latticeLongitude (index : Nat) : ℝ :=
  let longitude := mod360 (fl (fl (360 * (index : ℝ)) / goldenRatio))
  if longitude > 180 then fl (longitude - 360) else longitude

/-- The longitude tested against the bounds (`src/tatc/generation/points.py` L112-L118). -/
noncomputable def latticeShifted (maxLon : ℝ) (i : Nat) : ℝ :=
  if maxLon > 180 ∧ latticeLongitude i < 0 then fl (latticeLongitude i + 360) else latticeLongitude i

/-- `generate_fibonacci_lattice_points` (`src/tatc/generation/points.py` L55-L145); `surface` is `EARTH_SURFACE_AREA`. -/
noncomputable def latticePoints (clip : Clip) (surface distance elevation : ℝ) (mask : Option Mask) :
    Except PyErr (List PointRow) := do
  let samples ← numberSamples surface distance
  let (minLon, minLat, maxLon, maxLat) ← getBounds mask
  match mask with
  | none =>
    return (List.range samples).map fun (i : Nat) => ⟨i, latticeLongitude i, latticeLatitude i samples, elevation⟩
  | some m =>
    let indices := (List.range samples).filter fun (i : Nat) =>
      decide (minLat ≤ latticeLatitude i samples ∧ latticeLatitude i samples ≤ maxLat) &&
        decide (minLon ≤ latticeShifted maxLon i ∧ latticeShifted maxLon i ≤ maxLon)
    return clip.run m (indices.map fun (i : Nat) =>
      ⟨i, latticeShifted maxLon i, latticeLatitude i samples, elevation⟩)

end Tatc.Ieee
