import Verif.Model.Py
import Mathlib.Data.Real.Basic

/-!
# Construction of a point
-/

namespace Tatc

/-- `Point(id=..., longitude=..., latitude=..., elevation=...)`, as a user makes points from the rows of a frame
(`src/tatc/schemas/point.py` L13-L36). -/
structure GeoPoint where
  id : Int
  latitude : ℝ
  longitude : ℝ
  elevation : ℝ

open Classical in
/-- Validation of a point: the identifier is a `NonNegativeInt`, latitude and longitude have bounds
(`src/tatc/schemas/point.py` L18-L36). -/
noncomputable def GeoPoint.make (id : Int) (latitude longitude elevation : ℝ) : Except PyErr GeoPoint := do
  require (0 ≤ id) .validationError
  require (-90 ≤ latitude ∧ latitude ≤ 90) .validationError
  require (-180 ≤ longitude ∧ longitude ≤ 180) .validationError
  return ⟨id, latitude, longitude, elevation⟩

end Tatc
