import Verif.Model.Real
import Verif.Model.Py
import Verif.Model.Pandas

/-!
# Model of the polygon functions

`src/tatc/utils.py` L750-L1190.  A polygon is its rings of coordinates; validity, splitting along a line, crossing of
a line and containment are those of shapely and parameters.
-/

namespace Tatc.Polygons
open Tatc.Num Tatc.Pandas
open scoped Classical

/-- A coordinate of a ring, with or without height (`src/tatc/utils.py` L765-L766). -/
@[ext]
structure Coord where
  x : ℝ
  y : ℝ
  z : Option ℝ

/-- `Polygon`: the coordinates of its exterior and interior rings (`src/tatc/utils.py` L765-L766). -/
@[ext]
structure Polygon where
  exterior : List Coord
  interiors : List (List Coord)

/-- A `Polygon` or a `MultiPolygon` (`src/tatc/utils.py` L750-L770). -/
inductive Shape
  | polygon (p : Polygon)
  | multi (ps : List Polygon)

/-- The coordinates of a ring that is made from a list: shapely repeats the first one at the end when it is not there
(`src/tatc/utils.py` L764-L767). -/
noncomputable def ring (l : List Coord) : List Coord :=
  match l.head? with
  | none => []
  | some c => if l.getLast? = some c then l else l ++ [c]

/-- `Polygon(exterior, interiors)` (`src/tatc/utils.py` L764-L767). -/
noncomputable def mkPolygon (exterior : List Coord) (interiors : List (List Coord)) : Polygon :=
  ⟨ring exterior, interiors.map ring⟩

/-- `g for p in pgons for g in (p.geoms if isinstance(p, MultiPolygon) else [p])` (`src/tatc/utils.py` L866-L872). -/
def Shape.parts : Shape → List Polygon
  | .polygon p => [p]
  | .multi ps => ps

/-! ## Projection to an elevation -/

/-- `project_polygon_to_elevation` for a `Polygon` (`src/tatc/utils.py` L763-L767). -/
noncomputable def projectPolygon (elevation : ℝ) (p : Polygon) : Polygon :=
  mkPolygon (p.exterior.map fun c => ⟨c.x, c.y, some elevation⟩)
    (p.interiors.map fun i => i.map fun c => ⟨c.x, c.y, some elevation⟩)

/-- `project_polygon_to_elevation` (`src/tatc/utils.py` L750-L771). -/
noncomputable def project (elevation : ℝ) : Shape → Shape
  | .polygon p => .polygon (projectPolygon elevation p)
  | .multi ps => .multi (ps.map (projectPolygon elevation))

/-! ## Collections -/

/-- What a `GeometryCollection` holds (`src/tatc/utils.py` L1028-L1048). -/
inductive Geom
  | polygon (p : Polygon)
  | multi (ps : List Polygon)
  | collection (gs : List Geom)
  | other

/-- `isinstance(p, Polygon)` (`src/tatc/utils.py` L1043). -/
def Geom.polygons : Geom → List Polygon
  | .polygon p => [p]
  | _ => []

/-- `p for g in ... if isinstance(g, MultiPolygon) for p in g.geoms` (`src/tatc/utils.py` L1044). -/
def Geom.multis : Geom → List Polygon
  | .multi ps => ps
  | _ => []

/-- The end of `_convert_collection_to_polygon` (`src/tatc/utils.py` L1046-L1048). -/
def ofList (pgons : List Polygon) : Shape :=
  match pgons with
  | [p] => .polygon p
  | ps => .multi ps

/-- `_convert_collection_to_polygon` (`src/tatc/utils.py` L1028-L1048). -/
def convertCollection (geoms : List Geom) : Shape :=
  ofList (geoms.flatMap Geom.polygons ++ geoms.flatMap Geom.multis)

/-! ## Shapely -/

/-- A line along which a polygon is split (`src/tatc/utils.py` L850, L856, L953, L959, L1093, L1121). -/
inductive Line
  | meridian (lon : ℝ)
  | parallel (lat : ℝ)
  /-- From (0, 90) to (0, 180). -/
  | northHalf
  /-- From (0, -90) to (0, -180). -/
  | southHalf

/-- What the functions use of shapely: `is_valid`, `split` (whose result is a collection of polygons), `crosses` and
the containment of the pole (`src/tatc/utils.py` L817, L850, L853, L1072-L1074, L1121). -/
structure Shapely where
  isValid : Polygon → Bool
  split : Polygon → Line → List Polygon
  crosses : Polygon → Line → Bool
  containsPole : List ℝ → Bool

/-! ## Antimeridian -/

/-- `_wrap_polygon_over_antimeridian` for a `Polygon` (`src/tatc/utils.py` L995-L1014).  The name `pgon` is unbound when no
branch is taken; the second branch overrides the first. -/
noncomputable def wrapAntimeridian (s : Shapely) (p : Polygon) : Except PyErr Polygon :=
  if ∀ c ∈ p.exterior, c.x ≥ -180 ∧ c.x ≤ 180 then .ok p
  else
    let west := if ∀ c ∈ p.exterior, c.x ≤ -180 then
      some (mkPolygon (p.exterior.map fun c => ⟨c.x + 360, c.y, none⟩)
        (p.interiors.map fun i => i.map fun c => ⟨c.x + 360, c.y, none⟩)) else none
    let pgon := if ∀ c ∈ p.exterior, c.x ≥ 180 then
      some (mkPolygon (p.exterior.map fun c => ⟨c.x - 360, c.y, none⟩)
        (p.interiors.map fun i => i.map fun c => ⟨c.x - 360, c.y, none⟩)) else west
    match pgon with
    | none => .error .unboundLocalError
    | some q => if s.isValid q then .ok q else .ok p

/-- `_wrap_polygon_over_antimeridian` (`src/tatc/utils.py` L979-L1025). -/
noncomputable def wrapAntimeridianShape (s : Shapely) : Shape → Except PyErr Shape
  | .polygon p => do return .polygon (← wrapAntimeridian s p)
  | .multi ps => do return .multi (← ps.mapM (wrapAntimeridian s))

/-- `np.cumsum(np.around(np.diff(lon) / 360))` (`src/tatc/utils.py` L1101), starting from a sum and a longitude. -/
noncomputable def shiftFrom (sum : Int) (lon : ℝ) : List ℝ → List Int
  | [] => []
  | b :: t => (sum + roundHalfEven ((b - lon) / 360)) :: shiftFrom (sum + roundHalfEven ((b - lon) / 360)) b t

/-- `shift` (`src/tatc/utils.py` L1101). -/
noncomputable def shifts : List ℝ → List Int
  | [] => []
  | a :: t => 0 :: shiftFrom 0 a t

/-- `np.interp(x, xp, fp)` from a point not above `x` (`src/tatc/utils.py` L1111). -/
noncomputable def interpFrom (x x0 f0 : ℝ) : List (ℝ × ℝ) → ℝ
  | [] => f0
  | (x1, f1) :: t => if x1 ≤ x then interpFrom x x1 f1 t else f0 + (f1 - f0) / (x1 - x0) * (x - x0)

/-- `np.interp(x, xp, fp)` for the points `(xp, fp)` (`src/tatc/utils.py` L1111); constant outside their range. -/
noncomputable def interp (x : ℝ) : List (ℝ × ℝ) → ℝ
  | [] => 0
  | (x0, f0) :: t => if x < x0 then f0 else interpFrom x x0 f0 t

/-- The exterior with its longitudes shifted (`src/tatc/utils.py` L1103-L1106). -/
noncomputable def unwrapExterior (coords : List Coord) : List Coord :=
  List.zipWith (fun c (k : Int) => (⟨c.x - 360 * k, c.y, none⟩ : Coord)) coords (shifts (coords.map (·.x)))

/-- The longitude of a coordinate of an interior ring, shifted (`src/tatc/utils.py` L1110-L1111); `sort` arranges the
longitudes of the exterior and their shifts by longitude. -/
noncomputable def unwrapInterior (sort : SortValues (α := ℝ × ℝ) Prod.fst) (lon : List ℝ) (x : ℝ) : ℝ :=
  x - 360 * interp x (sort.run (lon.zip ((shifts lon).map fun (k : Int) => (k : ℝ))))

/-- `pgon` (`src/tatc/utils.py` L1102-L1118). -/
noncomputable def unwrap (sort : SortValues (α := ℝ × ℝ) Prod.fst) (p : Polygon) : Polygon :=
  mkPolygon (unwrapExterior p.exterior)
    (p.interiors.map fun i => i.map fun c => ⟨unwrapInterior sort (p.exterior.map (·.x)) c.x, c.y, none⟩)

/-- The test for a crossing of the antimeridian (`src/tatc/utils.py` L1069): all steps are less than 180 degrees. -/
def smallSteps : List ℝ → Prop
  | [] => True
  | [_] => True
  | a :: b :: t => |b - a| < 180 ∧ smallSteps (b :: t)

/-- The latitude at the antimeridian of a polygon around a pole (`src/tatc/utils.py` L1081-L1083), from its western- and
easternmost coordinates. -/
noncomputable def poleLatitude (first last : Coord) : ℝ := interp 180 [(last.x, last.y), (first.x + 180, first.y)]

/-- A polygon around a pole (`src/tatc/utils.py` L1075-L1097).  Heights are refused, because the coordinates added have
none. -/
noncomputable def splitPole (s : Shapely) (sort : SortValues Coord.x) (p : Polygon) : Except PyErr Shape := do
  let coords := sort.run p.exterior.dropLast
  let ns : ℝ := if (coords.map (·.y)).sum / coords.length > 0 then 1 else -1
  match coords.head?, coords.getLast? with
  | some first, some last =>
    let lat := poleLatitude first last
    require (∀ c ∈ coords, c.z = none) .valueError
    let pgon := mkPolygon ([⟨-180, 90 * ns, none⟩, ⟨-180, lat, none⟩] ++ coords ++
      [⟨180, lat, none⟩, ⟨180, 90 * ns, none⟩, ⟨-180, 90 * ns, none⟩]) p.interiors
    return ofList (s.split pgon (.meridian 0))
  | _, _ => .error .indexError

/-- `_split_polygon_antimeridian` for a `Polygon` (`src/tatc/utils.py` L1065-L1126). -/
noncomputable def splitAntimeridian (s : Shapely) (sort : SortValues Coord.x)
    (sort' : SortValues (α := ℝ × ℝ) Prod.fst) (p : Polygon) : Except PyErr Shape :=
  let lon := p.exterior.map (·.x)
  if smallSteps lon then .ok (.polygon p)
  else if s.containsPole lon then splitPole s sort p
  else
    let shiftDir : ℝ := if ∃ k ∈ shifts lon, k ≥ 1 then -180 else 180
    wrapAntimeridianShape s (ofList (s.split (unwrap sort' p) (.meridian shiftDir)))

/-- The recursive call for each part (`src/tatc/utils.py` L863-L872, L966-L975, L1127-L1136). -/
def forParts (f : Polygon → Except PyErr Shape) : Shape → Except PyErr Shape
  | .polygon p => f p
  | .multi ps => do return .multi ((← ps.mapM f).flatMap Shape.parts)

/-! ## Poles -/

/-- A coordinate wrapped over the north pole (`src/tatc/utils.py` L800-L801). -/
noncomputable def wrapNorthCoord (shift : ℝ) (c : Coord) : Coord :=
  if c.y ≥ 90 then ⟨c.x + shift, 180 - c.y, none⟩ else ⟨c.x, c.y, none⟩

/-- `_wrap_polygon_over_north_pole` for a `Polygon` (`src/tatc/utils.py` L791-L819). -/
noncomputable def wrapNorth (s : Shapely) (p : Polygon) : Except PyErr Polygon :=
  if ∀ c ∈ p.exterior, c.y ≤ 90 then .ok p
  else
    let shift : ℝ := if ∀ c ∈ p.exterior, c.x ≤ 0 then 180 else -180
    let pgon := mkPolygon (p.exterior.map (wrapNorthCoord shift)) (p.interiors.map fun i => i.map (wrapNorthCoord shift))
    if s.isValid pgon then .ok pgon else .ok p

/-- A coordinate wrapped over the south pole (`src/tatc/utils.py` L903-L904). -/
noncomputable def wrapSouthCoord (shift : ℝ) (c : Coord) : Coord :=
  if c.y ≤ -90 then ⟨c.x + shift, -180 - c.y, none⟩ else ⟨c.x, c.y, none⟩

/-- `_wrap_polygon_over_south_pole` for a `Polygon` (`src/tatc/utils.py` L894-L922).  The coordinates of interior
rings have a tuple in the place of a number (L911), so making the polygon raises when there is one. -/
noncomputable def wrapSouth (s : Shapely) (p : Polygon) : Except PyErr Polygon :=
  if ∀ c ∈ p.exterior, c.y ≥ -90 then .ok p
  else
    let shift : ℝ := if ∀ c ∈ p.exterior, c.x ≤ 0 then 180 else -180
    if p.interiors.flatten ≠ [] then .error .typeError
    else
      let pgon := mkPolygon (p.exterior.map (wrapSouthCoord shift)) []
      if s.isValid pgon then .ok pgon else .ok p

/-- The loop over the parts (`src/tatc/utils.py` L851-L857, L954-L960): a part that crosses the half line is replaced by
its pieces. -/
noncomputable def splitParts (s : Shapely) (half : Line) (parts : List Polygon) : List Polygon :=
  parts.foldl (fun acc part => if s.crosses part half then acc.filter (fun g => g ≠ part) ++ s.split part half else acc)
    parts

/-- `_split_polygon_north_pole` for a `Polygon` (`src/tatc/utils.py` L845-L862). -/
noncomputable def splitNorth (s : Shapely) (p : Polygon) : Except PyErr Shape :=
  if ∀ c ∈ p.exterior, c.y ≤ 90 then .ok (.polygon p)
  else do
    let parts := splitParts s .northHalf (s.split p (.parallel 90))
    match ofList parts with
    | .polygon q => return .polygon (← wrapNorth s q)
    | .multi qs => return .multi (← qs.mapM (wrapNorth s))

/-- `_split_polygon_south_pole` for a `Polygon` (`src/tatc/utils.py` L948-L965). -/
noncomputable def splitSouth (s : Shapely) (p : Polygon) : Except PyErr Shape :=
  if ∀ c ∈ p.exterior, c.y ≥ -90 then .ok (.polygon p)
  else do
    let parts := splitParts s .southHalf (s.split p (.parallel (-90)))
    match ofList parts with
    | .polygon q => return .polygon (← wrapSouth s q)
    | .multi qs => return .multi (← qs.mapM (wrapSouth s))

/-- `split_polygon` before an invalid result is repaired (`src/tatc/utils.py` L1140-L1157). -/
noncomputable def splitPolygon (s : Shapely) (sort : SortValues Coord.x) (sort' : SortValues (α := ℝ × ℝ) Prod.fst)
    (shape : Shape) : Except PyErr Shape := do
  let a ← forParts (splitAntimeridian s sort sort') shape
  let b ← forParts (splitSouth s) a
  forParts (splitNorth s) b

end Tatc.Polygons
