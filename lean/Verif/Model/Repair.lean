import Verif.Model.Polygon

/-!
# The end of `split_polygon`

An invalid result is repaired with `make_valid`, which is shapely's and a parameter, and so is the validity of a whole geometry.
-/

namespace Tatc.Polygons
open Tatc.Num Tatc.Pandas

/-- A polygon or multipolygon as a geometry (`src/tatc/utils.py` L1155-L1157). -/
def Shape.geom : Shape → Geom
  | .polygon p => .polygon p
  | .multi ps => .multi ps

/-- `is_valid` of a geometry and `make_valid` (`src/tatc/utils.py` L1159-L1161). -/
structure Repair where
  isValid : Geom → Bool
  makeValid : Geom → Geom

/-- The repair at the end of `split_polygon` (`src/tatc/utils.py` L1158-L1164): what is not a collection is returned as
`make_valid` gives it. -/
def repair (v : Repair) (shape : Shape) : Geom :=
  if v.isValid shape.geom then shape.geom
  else match v.makeValid shape.geom with
    | .collection gs => (convertCollection gs).geom
    | g => g

/-- `split_polygon` (`src/tatc/utils.py` L1140-L1164). -/
noncomputable def splitRepaired (s : Shapely) (v : Repair) (sort : SortValues Coord.x)
    (sort' : SortValues (α := ℝ × ℝ) Prod.fst) (shape : Shape) : Except PyErr Geom := do
  let out ← splitPolygon s sort sort' shape
  return repair v out

/-- `project_polygon_to_elevation` of what `split_polygon` returns (`src/tatc/utils.py` L763-L771): a line or a point has
no `geoms`, and of several lines the first has none.  A collection is not returned by `split_polygon`; its parts are not
modelled here. -/
noncomputable def projectGeom (elevation : ℝ) : Geom → Except PyErr Shape
  | .polygon p => .ok (project elevation (.polygon p))
  | .multi ps => .ok (project elevation (.multi ps))
  | .collection _ => .error .attributeError
  | .other => .error .attributeError

/-- The geometry that buffering and footprints end with: `project_polygon_to_elevation(split_polygon(...), elevation)`
(`src/tatc/utils.py` L597-L607, L610-L617, L646-L668, L699-L707). -/
noncomputable def splitProjected (s : Shapely) (v : Repair) (sort : SortValues Coord.x)
    (sort' : SortValues (α := ℝ × ℝ) Prod.fst) (elevation : ℝ) (shape : Shape) : Except PyErr Shape := do
  projectGeom elevation (← splitRepaired s v sort sort' shape)

/-- `normalize_geometry` of a polygon or multipolygon (`src/tatc/utils.py` L1179-L1190): one that is not valid is refused. -/
noncomputable def normalizeShape (s : Shapely) (v : Repair) (sort : SortValues Coord.x)
    (sort' : SortValues (α := ℝ × ℝ) Prod.fst) (shape : Shape) : Except PyErr Geom :=
  if !v.isValid shape.geom then .error .valueError
  else splitRepaired s v sort sort' shape

end Tatc.Polygons
