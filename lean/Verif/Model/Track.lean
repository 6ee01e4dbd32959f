import Verif.Model.Instrument
import Verif.Model.Geometry
import Verif.Model.Polygon
import Verif.Model.Pandas
import Mathlib.Data.Prod.Lex

/-!
# Model of orbit and ground tracks

`src/tatc/analysis/track.py`.  The propagator, the height of the Sun, the reporting of times by skyfield (to the
millisecond), the buffering of footprints, `shapely.ops.split` of lines, containment in masks, `geopandas.clip` and the
database of UTM zones are parameters.
-/

namespace Tatc.Track
open Tatc.Num Tatc.Instruments Tatc.Pandas Tatc.Polygons Tatc.Geometry
open scoped Classical

/-! ## Orbit tracks -/

/-- What the propagator says of a satellite at a time (`src/tatc/analysis/track.py` L119-L120, L151-L156, L184-L190). -/
structure Sample where
  time : Int
  lon : ℝ
  lat : ℝ
  height : ℝ
  ecef : V3
  eci : V3
  ecefVelocity : V3
  eciVelocity : V3
  sunlit : Bool

/-- A place on the earth: longitude, latitude and height (`src/tatc/analysis/track.py` L120). -/
structure Place where
  lon : ℝ
  lat : ℝ
  height : ℝ

/-- The external operations: `get_orbit_track` at one time, the altitude of the Sun at a place and time, and the time
as `utc_datetime` reports it (`src/tatc/analysis/track.py` L119, L178, `src/tatc/schemas/instrument.py` L161-L168). -/
structure Sky where
  propagate : Int → Sample
  solarAltitude : Place → Int → ℝ
  report : Int → Int
  propagate_time : ∀ t, (propagate t).time = t

/-- `OrbitCoordinate` (`src/tatc/analysis/track.py` L56-L63). -/
inductive Coordinates
  | wgs84
  | ecef
  | eci
deriving DecidableEq

/-- The instrument's fields that are used (`src/tatc/schemas/instrument.py` L34-L59). -/
structure Tool where
  fieldOfRegard : ℝ
  reqSelfSunlit : Option Bool
  reqTargetSunlit : Option Bool

/-- A record of an orbit track (`src/tatc/analysis/track.py` L166-L177, L194-L206).  The names of satellite and instrument,
which are the same in all records, are left out. -/
@[ext]
structure Record where
  time : Int
  swathWidth : ℝ
  validObs : Bool
  geometry : V3
  velocity : Option V3

/-- `list[i]` (`src/tatc/analysis/track.py` L117). -/
def getItem {α : Type} (l : List α) (i : Int) : Except PyErr α :=
  let j := if i < 0 then i + l.length else i
  if j < 0 then .error .indexError
  else match l[j.toNat]? with
    | none => .error .indexError
    | some a => .ok a

/-- A mask: containment of a point, for a data frame or series containment in any of its geometries, and whether
`geopandas.clip` meets a point (`src/tatc/analysis/track.py` L123-L132, L235). -/
structure Mask where
  contains : ℝ → ℝ → Bool
  meets : ℝ → ℝ → Bool

/-- The selection of rows by `geopandas.clip(track, mask)`: the rows that meet the mask, in any order
(`src/tatc/analysis/track.py` L235, L467, L605, L755; `sort=False` is the default). -/
structure Clip (α : Type) where
  run : (α → Bool) → List α → List α
  perm : ∀ p l, (run p l).Perm (l.filter p)

/-- The point of a sample (`src/tatc/analysis/track.py` L138-L157). -/
def Sample.point (s : Sample) : Coordinates → V3
  | .wgs84 => ⟨s.lon, s.lat, s.height⟩
  | .ecef => s.ecef
  | .eci => s.eci

/-- The velocity of a sample (`src/tatc/analysis/track.py` L181-L192). -/
def Sample.velocity (s : Sample) : Coordinates → V3
  | .eci => s.eciVelocity
  | _ => s.ecefVelocity

/-- `wgs84.subpoint_of(orbit_track)` at one time (`src/tatc/schemas/instrument.py` L153). -/
def Sample.subpoint (s : Sample) : Place := ⟨s.lon, s.lat, 0⟩

/-- `instrument.is_valid_observation(orbit_track, target)` for an array of samples
(`src/tatc/analysis/track.py` L159, L382). -/
noncomputable def validity (sky : Sky) (tool : Tool) (track : List Sample) (target : Option (List Place)) :
    Except PyErr (PerTime Bool) :=
  validObservation tool.reqSelfSunlit tool.reqTargetSunlit (.vector (track.map (·.sunlit))) (track.map Sample.subpoint)
    (fun ps => .vector (List.zipWith (fun p s => sky.solarAltitude p s.time) ps track)) target

/-- The transformation of a single truth value to an array (`src/tatc/analysis/track.py` L160-L162, L383-L385). -/
def asArray (n : Nat) : PerTime Bool → Except PyErr (List Bool)
  | .scalar b => if n = 1 then .ok [b] else .error .typeError
  | .vector l => .ok l

/-- `collect_orbit_track` without a mask, from the samples (`src/tatc/analysis/track.py` L138-L210). -/
noncomputable def orbitRecords (sky : Sky) (tool : Tool) (track : List Sample) (elevation : ℝ) (coordinates : Coordinates)
    (velocity : Bool) : Except PyErr (List Record) := do
  let valid ← validity sky tool track none
  let valid ← asArray track.length valid
  track.zipIdx.mapM fun (s, i) => do
    let v ← getItem valid i
    return { time := sky.report s.time, swathWidth := forToSwath s.height tool.fieldOfRegard elevation, validObs := v,
             geometry := s.point coordinates, velocity := if velocity then some (s.velocity coordinates) else none }

/-- `collect_orbit_track` (`src/tatc/analysis/track.py` L75-L236).  The optional columns on illumination and solar angles
are left out. -/
noncomputable def collectOrbitTrack (sky : Sky) (clip : Clip Record) (tools : List Tool) (index : Int) (times : List Int)
    (elevation : ℝ) (mask : Option Mask) (coordinates : Coordinates) (velocity : Bool) : Except PyErr (List Record) := do
  if times = [] then return []
  let tool ← getItem tools index
  let track := times.map sky.propagate
  match mask with
  | none => orbitRecords sky tool track elevation coordinates velocity
  | some m =>
    let inside := track.filter fun s => m.contains s.lon s.lat
    if inside = [] then return []
    let records ← orbitRecords sky tool inside elevation coordinates velocity
    return clip.run (fun r => m.meets r.geometry.x r.geometry.y) records

/-! ## Projections -/

/-- The radius of the approximate footprint in degrees (`src/tatc/analysis/track.py` L268). -/
noncomputable def footprintRadius (swathWidth : ℝ) : ℝ := degrees (swathWidth / 2 / meanRadius)

/-- `_get_utm_epsg_code` (`src/tatc/analysis/track.py` L256-L284).  `point.buffer` has vertices due north and south of the
point, so its bounds are the latitude plus and minus the radius; `zones` are the codes that the database query gives. -/
noncomputable def utmCode (lat swathWidth : ℝ) (zones : List String) : String :=
  if lat + footprintRadius swathWidth > 84 then "EPSG:5041"
  else if lat - footprintRadius swathWidth < -80 then "EPSG:5042"
  else match zones with
    | [] => "EPSG:4087"
    | z :: _ => "EPSG:" ++ z

/-! ## The line method -/

/-- A row of the orbit track with its orbit and track identifiers (`src/tatc/analysis/track.py` L535-L543). -/
structure Row where
  time : Int
  lon : ℝ
  lat : ℝ
  swathWidth : ℝ
  validObs : Bool

/-- `(time - times[0]) // period` (`src/tatc/analysis/track.py` L536-L539). -/
def orbitId (start period time : Int) : Int := (time - start).fdiv period

/-- `valid_obs != valid_obs.shift()` (`src/tatc/analysis/track.py` L542): a comparison with NaN is true. -/
def changes (valid : List Bool) : List Bool :=
  List.zipWith (fun a (b : Option Bool) => match b with
    | none => true
    | some b => a != b) valid (shift valid)

/-- `track_id` (`src/tatc/analysis/track.py` L541-L543). -/
def trackIds (valid : List Bool) : List Nat := cumsum (changes valid)

/-- The key by which rows are grouped (`src/tatc/analysis/track.py` L548, L601). -/
abbrev Key := ℤ ×ₗ ℕ

/-- The rows with valid observations and their keys (`src/tatc/analysis/track.py` L536-L545). -/
def keyedRows (start period : Int) (rows : List Row) : List (Key × Row) :=
  (List.zipWith (fun (r : Row) (t : Nat) => (toLex (orbitId start period r.time, t), r)) rows
    (trackIds (rows.map (·.validObs)))).filter fun kr => kr.2.validObs

/-- `track.groupby(["orbit_id", "track_id"])` (`src/tatc/analysis/track.py` L548). -/
noncomputable def groups (start period : Int) (rows : List Row) : List (Key × List Row) :=
  (groupBy Prod.fst (keyedRows start period rows)).map fun g => (g.1, g.2.map Prod.snd)

/-- `LineString(points)` (`src/tatc/analysis/track.py` L558): one point is refused. -/
def mkLine (points : List V3) : Except PyErr (List V3) :=
  if points.length = 1 then .error .valueError else .ok points

/-- The points of a group whose longitudes are continued over the antimeridian (`src/tatc/analysis/track.py` L563-L566). -/
noncomputable def continued (points : List V3) : List V3 :=
  List.zipWith (fun p (k : Int) => (⟨p.x - 360 * (k : ℝ), p.y, p.z⟩ : V3)) points (shifts (points.map (·.x)))

/-- A part of a split line moved back (`src/tatc/analysis/track.py` L574-L591). -/
noncomputable def moveBack (line : List V3) : List V3 :=
  if ∀ c ∈ line, c.x ≤ -180 then line.map fun c => ⟨c.x + 360, c.y, c.z⟩
  else if ∀ c ∈ line, c.x ≥ 180 then line.map fun c => ⟨c.x - 360, c.y, c.z⟩
  else line

/-- The segments of a group (`src/tatc/analysis/track.py` L549-L591); `splitLine x` is `shapely.ops.split` by the meridian
at the longitude `x`. -/
noncomputable def segmentsOf (splitLine : ℝ → List V3 → List (List V3)) (elevation : ℝ) (g : List Row) :
    Except PyErr (List (List V3)) := do
  let points := g.map fun r => (⟨r.lon, r.lat, elevation⟩ : V3)
  let lon := g.map (·.lon)
  if smallSteps lon then
    let line ← mkLine points
    return [line]
  else
    let shiftDir : ℝ := if ∃ k ∈ shifts lon, k ≥ 1 then -180 else 180
    return (splitLine shiftDir (continued points)).map moveBack

/-- `sub_track.swath_width.mean()` (`src/tatc/analysis/track.py` L554). -/
noncomputable def meanSwath (g : List Row) : ℝ := (g.map (·.swathWidth)).sum / g.length

/-- `compute_ground_track` with the line method, up to the mask and the dissolving of orbits, from the rows of the orbit
track (`src/tatc/analysis/track.py` L535-L603): for each group the polygon that becomes its geometry.  `buffer` is
`buffer_footprint`.  The assignment of polygons refuses a list of another length. -/
noncomputable def lineTrack {G : Type} (splitLine : ℝ → List V3 → List (List V3)) (buffer : List V3 → ℝ → G)
    (elevation : ℝ) (start period : Int) (rows : List Row) : Except PyErr (List (Key × G)) := do
  let gs := groups start period rows
  let segments ← gs.mapM fun g => segmentsOf splitLine elevation g.2
  let polygons := List.zipWith buffer segments.flatten (gs.map fun g => meanSwath g.2)
  require (polygons.length = gs.length) .valueError
  return List.zipWith (fun g p => (g.1, p)) gs polygons

/-- The orbit track on which the line method works (`src/tatc/analysis/track.py` L535). -/
noncomputable def rowsOf (records : List Record) : List Row :=
  records.map fun r => ⟨r.time, r.geometry.x, r.geometry.y, r.swathWidth, r.validObs⟩

/-! ## Ground tracks and pixels -/

/-- A mask: a polygon, a data frame of polygons or a series of polygons (`src/tatc/analysis/track.py` L337-L345). -/
inductive MaskShape (P : Type)
  | polygon (p : P)
  | frame (ps : List P)
  | series (ps : List P)

/-- The external operations on geometries: `dissolve` of a frame, `intersects`, whether `buffer_target` of a geometry contains
a point, the part of a geometry inside a mask, and for a satellite at a time its footprint, the centre of its footprint,
the array of its pixels, and the footprint buffered by its swath width (`src/tatc/analysis/track.py` L336-L380, L413-L437,
L467, L701). -/
structure Ops (P G : Type) where
  dissolve : List P → P
  intersects : P → G → Bool
  near : P → ℝ → ℝ → Bool
  cut : MaskShape P → G → G
  footprint : Sample → G
  center : Sample → Place
  pixels : Sample → List Place
  buffered : Sample → ℝ → G

/-- The geometry that is given to `buffer_target` (`src/tatc/analysis/track.py` L337-L345). -/
def MaskShape.target {P : Type} (dissolve : List P → P) : MaskShape P → Except PyErr P
  | .polygon p => .ok p
  | .frame ps => if ps = [] then .error .indexError else .ok (dissolve ps)
  | .series [] => .error .indexError
  | .series (p :: _) => .ok p

/-- `mask.intersects(f)`, for frames and series `any(mask.intersects(f))` (`src/tatc/analysis/track.py` L368-L375). -/
def MaskShape.meets {P G : Type} (intersects : P → G → Bool) : MaskShape P → G → Bool
  | .polygon p, g => intersects p g
  | .frame ps, g => ps.any fun p => intersects p g
  | .series ps, g => ps.any fun p => intersects p g

/-- The culling of the orbit track (`src/tatc/analysis/track.py` L334-L378, L655-L699); both ways of leaving early give
an empty track. -/
def cull {P G : Type} (ops : Ops P G) (mask : Option (MaskShape P)) (track : List Sample) : Except PyErr (List Sample) :=
  match mask with
  | none => .ok track
  | some m =>
    if track.length > 1 then do
      let target ← m.target ops.dissolve
      let track := track.filter fun s => ops.near target s.lon s.lat
      return track.filter fun s => m.meets ops.intersects (ops.footprint s)
    else .ok track

/-- A record of a ground track (`src/tatc/analysis/track.py` L439-L445). -/
structure GroundRecord (G : Type) where
  time : Int
  validObs : Bool
  geometry : G

/-- The geometries of a ground track: footprints with `crs="spice"`, otherwise the buffered points of the orbit track at
the reported times (`src/tatc/analysis/track.py` L386-L437). -/
noncomputable def groundGeometries {P G : Type} (sky : Sky) (ops : Ops P G) (clip : Clip Record) (tools : List Tool)
    (index : Int) (elevation : ℝ) (spice : Bool) (track : List Sample) : Except PyErr (List G) :=
  if spice then .ok (track.map ops.footprint)
  else do
    let times := track.map fun s => sky.report s.time
    let orbit ← collectOrbitTrack sky clip tools index times elevation none .wgs84 false
    return List.zipWith (fun t (r : Record) => ops.buffered (sky.propagate t) r.swathWidth) times orbit

/-- `geopandas.clip(track, mask)` of a ground track (`src/tatc/analysis/track.py` L466-L467). -/
def clipTrack {P G : Type} (ops : Ops P G) (clip : Clip (GroundRecord G)) (m : MaskShape P) (l : List (GroundRecord G)) :
    List (GroundRecord G) :=
  (clip.run (fun r => m.meets ops.intersects r.geometry) l).map fun r => { r with geometry := ops.cut m r.geometry }

/-- `collect_ground_track` (`src/tatc/analysis/track.py` L287-L468).  The optional columns are left out. -/
noncomputable def collectGroundTrack {P G : Type} (sky : Sky) (ops : Ops P G) (clipRecords : Clip Record)
    (clip : Clip (GroundRecord G)) (tools : List Tool) (index : Int) (times : List Int) (elevation : ℝ)
    (mask : Option (MaskShape P)) (spice : Bool) : Except PyErr (List (GroundRecord G)) := do
  if times = [] then return []
  let tool ← getItem tools index
  let track ← cull ops mask (times.map sky.propagate)
  if track = [] then return []
  let valid ← validity sky tool track (some (track.map ops.center))
  let valid ← asArray track.length valid
  let geometries ← groundGeometries sky ops clipRecords tools index elevation spice track
  let records ← track.zipIdx.mapM fun (s, i) => do
    let v ← getItem valid i
    let g ← getItem geometries i
    return { time := sky.report s.time, validObs := v, geometry := g }
  match mask with
  | none => return records
  | some m => return clipTrack ops clip m records

/-- A record of `collect_ground_pixels` (`src/tatc/analysis/track.py` L707-L715). -/
structure PixelRecord where
  time : Int
  validObs : Bool
  geometry : Place

/-- The records of `collect_ground_pixels` (`src/tatc/analysis/track.py` L700-L721). -/
noncomputable def pixelRecords (sky : Sky) (tool : Tool) (pixels : Sample → List Place) (track : List Sample) :
    Except PyErr (List PixelRecord) := do
  let rows ← track.mapM fun s => (pixels s).mapM fun q => do
    let v ← validObservation tool.reqSelfSunlit tool.reqTargetSunlit (.scalar s.sunlit) s.subpoint
      (fun p => .scalar (sky.solarAltitude p s.time)) (some q)
    match v with
    | .scalar b => return { time := sky.report s.time, validObs := b, geometry := q }
    | .vector _ => throw PyErr.typeError
  return rows.flatten

/-- `collect_ground_pixels` (`src/tatc/analysis/track.py` L611-L756).  `rectangular` is whether an instrument is a
rectangular `PointedInstrument`, `inside` whether a point meets the mask.  The optional columns are left out. -/
noncomputable def collectGroundPixels {P G : Type} (sky : Sky) (ops : Ops P G) (clip : Clip PixelRecord)
    (inside : MaskShape P → Place → Bool) (rectangular : Tool → Bool) (tools : List Tool) (index : Int)
    (times : List Int) (mask : Option (MaskShape P)) : Except PyErr (List PixelRecord) := do
  if times = [] then return []
  let tool ← getItem tools index
  require (rectangular tool = true) .valueError
  let track ← cull ops mask (times.map sky.propagate)
  if track = [] then return []
  let records ← pixelRecords sky tool ops.pixels track
  match mask with
  | none => return records
  | some m => return clip.run (fun r => inside m r.geometry) records

/-! ## Aggregated ground tracks -/

/-- `compute_ground_track` with the point method from the records of the ground track
(`src/tatc/analysis/track.py` L518-L530): the geometries of the rows.  `union` is `dissolve`. -/
noncomputable def pointTrack {G : Type} (union : List G → G) (start period : Int) (dissolveOrbits : Bool)
    (records : List (GroundRecord G)) : List G :=
  let valid := records.filter (·.validObs)
  let rows := (groupBy (fun r : GroundRecord G => orbitId start period r.time) valid).map fun g =>
    union (g.2.map (·.geometry))
  if dissolveOrbits then (if rows = [] then [] else [union rows]) else rows

/-- `compute_ground_track` (`src/tatc/analysis/track.py` L471-L608): the geometries of the rows.  The order in which
clipping leaves the rows of the line method is not modelled. -/
noncomputable def computeGroundTrack {P G : Type} (sky : Sky) (ops : Ops P G) (union : List G → G)
    (splitLine : ℝ → List V3 → List (List V3)) (buffer : List V3 → ℝ → G) (clipRecords : Clip Record)
    (clip : Clip (GroundRecord G)) (tools : List Tool) (index : Int) (times : List Int) (elevation : ℝ) (period : Int)
    (mask : Option (MaskShape P)) (spice : Bool) (method : String) (dissolveOrbits : Bool) : Except PyErr (List G) := do
  require (method = "point" ∨ method = "line") .valueError
  if method = "point" then do
    let track ← collectGroundTrack sky ops clipRecords clip tools index times elevation mask spice
    return pointTrack union (times.headD 0) period dissolveOrbits track
  else do
    require (spice = false) .valueError
    let track ← collectOrbitTrack sky clipRecords tools index times elevation none .wgs84 false
    let rows ← lineTrack splitLine buffer elevation (times.headD 0) period (rowsOf track)
    let rows := rows.map Prod.snd
    let rows := match mask with
      | none => rows
      | some m => (rows.filter fun g => m.meets ops.intersects g).map (ops.cut m)
    return if dissolveOrbits then (if rows = [] then [] else [union rows]) else rows

end Tatc.Track
