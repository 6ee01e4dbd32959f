import Verif.Model.Globe

/-!
# One time or an array of times

Positions, footprints and limbs for an orbit track at one time or at an array of times.  An array of shape `(3, n)` is kept as
the list of its columns, on which all arithmetic of `compute_projected_ray_position` works one by one.
-/

namespace Tatc.Instruments
open Tatc

/-- `np.size(orbit_track.t)` (`src/tatc/utils.py` L595). -/
def PerTime.size {α : Type} (a : PerTime α) : Nat := a.toList.length

/-- `a[i]` of an array (`src/tatc/utils.py` L601). -/
def PerTime.item {α : Type} (i : Nat) : PerTime α → Except PyErr α
  | .scalar _ => .error .indexError
  | .vector l => match l[i]? with
    | some a => .ok a
    | none => .error .indexError

/-- A coordinate that is given to `Polygon`, which takes `float` of it (`src/tatc/utils.py` L610-L614): an array has a value
as a number when it has one element. -/
def PerTime.number {α : Type} : PerTime α → Except PyErr α
  | .scalar a => .ok a
  | .vector [a] => .ok a
  | .vector _ => .error .typeError

/-- `compute_projected_ray_position` for one time or the columns of an array (`src/tatc/utils.py` L391-L400, L467-L529). -/
noncomputable def projectTimes {Geo : Type} (g : Globe Geo) (crossFov alongFov roll pitch : ℝ) (rectangular : Bool)
    (angle elevation : ℝ) : PerTime State → PerTime Geo
  | .scalar s => .scalar (project g s crossFov alongFov roll pitch rectangular angle elevation)
  | .vector ss => .vector (ss.map fun s => project g s crossFov alongFov roll pitch rectangular angle elevation)

/-- `compute_footprint` for one time or an array of times (`src/tatc/utils.py` L582-L617), for a given number of points.
`polygon` is what makes the polygon of the vertices, splits it and gives it the elevation. -/
noncomputable def footprintTimes {Geo G : Type} (g : Globe Geo) (polygon : List Geo → Except PyErr G)
    (crossFov alongFov roll pitch : ℝ) (rectangular : Bool) (n : Nat) (elevation : ℝ) (ss : PerTime State) :
    Except PyErr (PerTime G) :=
  let points := (footprintAngles crossFov alongFov rectangular n).map fun angle =>
    projectTimes g crossFov alongFov roll pitch rectangular angle elevation ss
  if ss.size > 1 then do
    return .vector (← (List.range ss.size).mapM fun i => do polygon (← points.mapM (PerTime.item i)))
  else do
    return .scalar (← polygon (← points.mapM PerTime.number))

/-- `compute_limb` for one time or an array of times (`src/tatc/utils.py` L635-L675).  `edlimb` is the limb of a position. -/
noncomputable def limbTimes {G : Type} (edlimb : V3 → Ellipse) (polygon : List V3 → Except PyErr G) (n : Nat) :
    PerTime State → Except PyErr (PerTime G)
  | .scalar s => do return .scalar (← polygon (limbVertices (edlimb s.position) n))
  | .vector ss => do return .vector (← ss.mapM fun s => polygon (limbVertices (edlimb s.position) n))

end Tatc.Instruments
