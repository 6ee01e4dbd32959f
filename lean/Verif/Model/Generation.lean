import Verif.Model.Geometry
import Mathlib.Analysis.Convex.Hull

/-!
# Model of the point and cell generators

`src/tatc/generation/points.py` and `src/tatc/generation/cells.py`, for positive distances.
-/

namespace Tatc.Generation
open Tatc.Num Tatc.Geometry
open scoped Classical

/-- What the generators use of a `Polygon` or `MultiPolygon` mask: its bounds, its validity and which
positions it contains, boundary included (`src/tatc/generation/points.py` L84-L95, L143).  `inBounds` is
the contract of shapely's `bounds`. -/
structure Mask where
  minLon : ℝ
  minLat : ℝ
  maxLon : ℝ
  maxLat : ℝ
  valid : Bool
  contains : ℝ → ℝ → Prop
  inBounds : ∀ x y, contains x y → minLon ≤ x ∧ x ≤ maxLon ∧ minLat ≤ y ∧ y ≤ maxLat

/-- A row of a frame of points (`src/tatc/generation/points.py` L121-L140). -/
structure PointRow where
  id : Int
  lon : ℝ
  lat : ℝ
  elevation : ℝ

/-- `gpd.clip(gdf, mask)` on points (`src/tatc/generation/points.py` L143, L334): the rows whose point meets
the mask; their order is not promised. -/
structure Clip where
  run : Mask → List PointRow → List PointRow
  perm : ∀ m l, (run m l).Perm (l.filter fun r => decide (m.contains r.lon r.lat))

/-- `_get_bounds` (`src/tatc/generation/points.py` L200-L221) and L84-L95: minimum longitude, minimum
latitude, maximum longitude, maximum latitude. -/
noncomputable def getBounds (mask : Option Mask) : Except PyErr (ℝ × ℝ × ℝ × ℝ) :=
  match mask with
  | some m =>
    if m.valid then .ok (m.minLon, m.minLat, if m.maxLon = -180 then 180 else m.maxLon, m.maxLat)
    else .error .valueError
  | none => .ok (-180, -90, if (180 : ℝ) = -180 then 180 else 180, 90)

/-! ## Fibonacci lattice -/

/-- `_compute_fibonacci_lattice_point_latitude` (`src/tatc/generation/points.py` L19-L33). -/
noncomputable def fibLatitude (index count : Nat) : ℝ :=
  degrees (Real.arcsin (2 * ((index : ℝ) + 1) / ((count : ℝ) + 2) - 1))

/-- `_compute_fibonacci_lattice_point_longitude` (`src/tatc/generation/points.py` L36-L52). -/
noncomputable def fibLongitude (index : Nat) : ℝ :=
  let phi := (1 + Real.sqrt 5) / 2
  let longitude := npMod (360 * (index : ℝ) / phi) 360
  if longitude > 180 then longitude - 360 else longitude

/-- The longitude tested against the bounds (`src/tatc/generation/points.py` L112-L118). -/
noncomputable def shiftedLongitude (maxLon : ℝ) (i : Nat) : ℝ :=
  if maxLon > 180 ∧ fibLongitude i < 0 then fibLongitude i + 360 else fibLongitude i

/-- `generate_fibonacci_lattice_points` (`src/tatc/generation/points.py` L55-L145). -/
noncomputable def fibonacciPoints (clip : Clip) (distance elevation : ℝ) (mask : Option Mask) :
    Except PyErr (List PointRow) := do
  let samples ← numberSamples distance
  let (minLon, minLat, maxLon, maxLat) ← getBounds mask
  match mask with
  | none =>
    return (List.range samples).map fun (i : Nat) => ⟨i, fibLongitude i, fibLatitude i samples, elevation⟩
  | some m =>
    let indices := (List.range samples).filter fun (i : Nat) =>
      decide (minLat ≤ fibLatitude i samples ∧ fibLatitude i samples ≤ maxLat) &&
        decide (minLon ≤ shiftedLongitude maxLon i ∧ shiftedLongitude maxLon i ≤ maxLon)
    return clip.run m (indices.map fun (i : Nat) =>
      ⟨i, shiftedLongitude maxLon i, fibLatitude i samples, elevation⟩)

/-! ## Equally spaced grid -/

/-- `int(x)`: truncation (`src/tatc/generation/points.py` L197). -/
noncomputable def pyInt (x : ℝ) : Int := if 0 ≤ x then ⌊x⌋ else ⌈x⌉

/-- `_compute_equally_spaced_point_id` (`src/tatc/generation/points.py` L179-L197). -/
noncomputable def pointId (i j : Int) (thetaI thetaJ : ℝ) : Int :=
  j * pyInt (360 / thetaJ) + i % pyInt (360 / thetaI)

/-- `range(a, b)` (`src/tatc/generation/points.py` L253, L262, L270, L274). -/
def pyRange (a b : Int) : List Int := (List.range (b - a).toNat).map fun (k : Nat) => a + k

/-- The `strips` option (`src/tatc/generation/points.py` L228, L249, L258). -/
inductive Strips
  | lat
  | lon
deriving DecidableEq

/-- `_generate_equally_spaced_indices` (`src/tatc/generation/points.py` L224-L278). -/
noncomputable def gridIndices (thetaLon thetaLat : ℝ) (mask : Option Mask) (strips : Option Strips) :
    Except PyErr (List (Int × Int)) := do
  let (minLon, minLat, maxLon, maxLat) ← getBounds mask
  let rows := pyRange (roundHalfEven ((minLat + 90) / thetaLat)) (roundHalfEven ((maxLat + 90) / thetaLat))
  let columns := pyRange (roundHalfEven ((minLon + 180) / thetaLon)) (roundHalfEven ((maxLon + 180) / thetaLon))
  match strips with
  | some .lat => return rows.map fun j => (0, j)
  | some .lon => return columns.map fun i => (i, 0)
  | none => return rows.flatMap fun j => columns.map fun i => (i, j)

/-- `_generate_equally_spaced_points` (`src/tatc/generation/points.py` L281-L336). -/
noncomputable def gridPoints' (clip : Clip) (thetaLon thetaLat elevation : ℝ) (mask : Option Mask) :
    Except PyErr (List PointRow) := do
  let indices ← gridIndices thetaLon thetaLat mask none
  let rows : List PointRow := indices.map fun (i, j) =>
    ⟨pointId i j thetaLon thetaLat, -180 + ((i : ℝ) + 0.5) * thetaLon, -90 + ((j : ℝ) + 0.5) * thetaLat, elevation⟩
  match mask with
  | none => return rows
  | some m => return clip.run m rows

/-- The angular step for a distance (`src/tatc/generation/points.py` L171-L172; `src/tatc/generation/cells.py` L49-L50). -/
noncomputable def gridStep (distance : ℝ) : ℝ := degrees (distance / meanRadius)

/-- `generate_equally_spaced_points` (`src/tatc/generation/points.py` L148-L176). -/
noncomputable def gridPoints (clip : Clip) (distance elevation : ℝ) (mask : Option Mask) :
    Except PyErr (List PointRow) :=
  gridPoints' clip (gridStep distance) (gridStep distance) elevation mask

/-- The polygon with these west, east, south and north sides
(`src/tatc/generation/cells.py` L103-L168: its five vertices are the corners of this rectangle). -/
def rectangle (west east south north : ℝ) : Set (ℝ × ℝ) :=
  {p | west ≤ p.1 ∧ p.1 ≤ east ∧ south ≤ p.2 ∧ p.2 ≤ north}

/-- A row of a frame of cells (`src/tatc/generation/cells.py` L95-L174); the geometry is a set of positions. -/
structure CellRow where
  id : Int
  shape : Set (ℝ × ℝ)
  elevation : ℝ

/-- `gpd.clip(gdf, mask)` on cells (`src/tatc/generation/cells.py` L179): the rows whose polygon meets the mask,
with their common part; their order is not promised. -/
structure CellClip where
  run : Mask → List CellRow → List CellRow
  perm : ∀ m l, (run m l).Perm
    ((l.filter fun r => decide (∃ p ∈ r.shape, m.contains p.1 p.2)).map fun r =>
      { r with shape := {p ∈ r.shape | m.contains p.1 p.2} })

/-- `_generate_equally_spaced_cells` (`src/tatc/generation/cells.py` L56-L183). -/
noncomputable def gridCells' (clip : CellClip) (thetaLon thetaLat elevation : ℝ) (mask : Option Mask)
    (strips : Option Strips) : Except PyErr (List CellRow) := do
  let indices ← gridIndices thetaLon thetaLat mask strips
  let (minLon, minLat, maxLon, maxLat) ← getBounds mask
  let rows : List CellRow := indices.map fun (i, j) =>
    ⟨pointId i j thetaLon thetaLat,
      rectangle (if strips = some .lat then minLon else -180 + (i : ℝ) * thetaLon)
        (if strips = some .lat then maxLon else -180 + ((i : ℝ) + 1) * thetaLon)
        (if strips = some .lon then minLat else -90 + (j : ℝ) * thetaLat)
        (if strips = some .lon then maxLat else -90 + ((j : ℝ) + 1) * thetaLat), elevation⟩
  match mask with
  | none => return rows
  | some m => return (clip.run m rows).map fun r => { r with shape := convexHull ℝ r.shape }

/-- `generate_equally_spaced_cells` (`src/tatc/generation/cells.py` L23-L53). -/
noncomputable def gridCells (clip : CellClip) (distance elevation : ℝ) (mask : Option Mask) (strips : Option Strips) :
    Except PyErr (List CellRow) :=
  gridCells' clip (gridStep distance) (gridStep distance) elevation mask strips

end Tatc.Generation
