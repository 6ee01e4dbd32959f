import Verif.Model.Py

/-!
# Model of the columns of data frames

Which columns the frames of `src/tatc/analysis` have, as functions of the columns and the number of rows of their
arguments.  The values are modelled elsewhere (`Model/Coverage.lean`, `Model/Latency.lean`, `Model/Grid.lean`,
`Model/Ro.lean`, `Model/Track.lean`).
-/

namespace Tatc.Frames

/-- What is modelled of a frame here: the names of its columns, in order, and the number of rows
(`src/tatc/analysis/coverage.py` L159, L238). -/
structure Frame where
  columns : List String
  rows : Nat
deriving DecidableEq, Repr

/-- `gdf[name] = values`: appends a column, or replaces it in place
(for example `src/tatc/analysis/coverage.py` L350-L351). -/
def Frame.assign (f : Frame) (name : String) : Frame :=
  if name ∈ f.columns then f else { f with columns := f.columns ++ [name] }

/-- Several assignments in order (for example `src/tatc/analysis/coverage.py` L350-L351). -/
def Frame.assigns (f : Frame) (names : List String) : Frame := names.foldl Frame.assign f

/-- Reading columns: a missing one raises `KeyError` (for example `src/tatc/analysis/coverage.py` L336). -/
def Frame.reads (f : Frame) (names : List String) : Except PyErr Unit :=
  require (∀ n ∈ names, n ∈ f.columns) .keyError

/-- `gdf.dissolve(by, aggfunc=...)`: the geometry and the aggregated columns; `groups` is the number of rows
(`src/tatc/analysis/coverage.py` L338-L348, L396-L403, L438-L445). -/
def Frame.dissolve (f : Frame) (key : List String) (aggregated : List String) (groups : Nat) :
    Except PyErr Frame := do
  f.reads (key ++ ["geometry"] ++ aggregated)
  return { columns := "geometry" :: aggregated, rows := groups }

/-- `reset_index()` after grouping by a key: the key becomes the first column
(`src/tatc/analysis/coverage.py` L403, L446). -/
def Frame.resetIndex (f : Frame) (key : String) : Frame := { f with columns := key :: f.columns }

/-- `_get_empty_coverage_frame` (`src/tatc/analysis/coverage.py` L128-L159). -/
def emptyCoverage (omitSolar : Bool) : Frame :=
  { columns := ["point_id", "geometry", "satellite", "instrument", "start", "epoch", "end", "sat_alt", "sat_az"] ++
      if omitSolar then [] else ["sat_sunlit", "solar_alt", "solar_az", "solar_time"]
    rows := 0 }

/-- `collect_observations`, with the number of its records (`src/tatc/analysis/coverage.py` L195-L262). -/
def collectObservations (omitSolar : Bool) (records : Nat) : Frame :=
  if 0 < records then
    let gdf : Frame :=
      { columns := ["point_id", "geometry", "satellite", "instrument", "start", "end", "epoch"], rows := records }
    let gdf := gdf.assigns ["sat_alt", "sat_az"]
    if omitSolar then gdf else gdf.assigns ["sat_sunlit", "solar_alt", "solar_az", "solar_time"]
  else emptyCoverage omitSolar

/-- `pd.concat`: the columns of the first frame, then those only later frames have; no frame raises `ValueError`
(`src/tatc/analysis/coverage.py` L294). -/
def concat (frames : List Frame) : Except PyErr Frame := do
  require (frames ≠ []) .valueError
  return { columns := (frames.flatMap Frame.columns).foldl (fun cs c => if c ∈ cs then cs else cs ++ [c]) []
           rows := (frames.map Frame.rows).sum }

/-- `collect_multi_observations`, with the number of records of each satellite and instrument
(`src/tatc/analysis/coverage.py` L285-L294). -/
def collectMulti (omitSolar : Bool) (records : List Nat) : Except PyErr Frame :=
  concat (records.map (collectObservations omitSolar))

/-- `_get_empty_aggregate_frame` (`src/tatc/analysis/coverage.py` L297-L313). -/
def emptyAggregate : Frame :=
  { columns := ["point_id", "geometry", "satellite", "instrument", "start", "epoch", "end"], rows := 0 }

/-- `aggregate_observations`; `groups` is the number of aggregated observations
(`src/tatc/analysis/coverage.py` L328-L355). -/
def aggregateObservations (observations : Frame) (groups : Nat) : Except PyErr Frame := do
  if observations.rows = 0 then return emptyAggregate
  observations.reads ["point_id", "start", "end"]
  let gdf ← (observations.assign "obs").dissolve ["obs"]
    ["point_id", "satellite", "instrument", "start", "epoch", "end"] groups
  return gdf.assigns ["access", "revisit"]

/-- `_get_empty_reduce_frame` (`src/tatc/analysis/coverage.py` L358-L372). -/
def emptyReduce : Frame := { columns := ["point_id", "geometry", "access", "revisit", "samples"], rows := 0 }

/-- `reduce_observations` (`src/tatc/analysis/coverage.py` L386-L409). -/
def reduceObservations (aggregated : Frame) (groups : Nat) : Except PyErr Frame := do
  if aggregated.rows = 0 then return emptyReduce
  aggregated.reads ["access", "revisit"]
  let gdf ← ((aggregated.assigns ["access", "revisit"]).assign "samples").dissolve ["point_id"]
    ["access", "revisit", "samples"] groups
  return (gdf.resetIndex "point_id").assigns ["access", "revisit"]

/-- The columns of `cells.sjoin(gdf)`: those of the cells, the label of the matching row, and those of the other frame
without its geometry.  Simplification: no name occurs in both, as with the cells of the generators
(`src/tatc/analysis/coverage.py` L437, `src/tatc/analysis/latency.py` L277). -/
def sjoin (cells gdf : Frame) (rows : Nat) : Frame :=
  { columns := cells.columns ++ "index_right" :: gdf.columns.filter (· ≠ "geometry"), rows := rows }

/-- `grid_observations` (`values` access and revisit) and `grid_latencies` (`values` latency); `joined` and `groups` are
the numbers of rows of the join and of the cells in it.  The weights are C07
(`src/tatc/analysis/coverage.py` L425-L453, `src/tatc/analysis/latency.py` L267-L291). -/
def gridReduced (values : List String) (reduced cells : Frame) (joined groups : Nat) : Except PyErr Frame := do
  if reduced.rows = 0 then return cells.assigns ("samples" :: values)
  reduced.reads values
  let gdf := reduced.assigns values
  gdf.reads ["samples"]
  let gdf ← (sjoin cells gdf joined).dissolve ["cell_id"] ("samples" :: values) groups
  return (gdf.resetIndex "cell_id").assigns values

/-- `_get_empty_downlinks_frame` (`src/tatc/analysis/latency.py` L22-L37). -/
def emptyDownlinks : Frame :=
  { columns := ["station", "geometry", "satellite", "start", "epoch", "end"], rows := 0 }

/-- `collect_downlinks`, with the number of its records (`src/tatc/analysis/latency.py` L57-L89). -/
def collectDownlinks (records : Nat) : Frame :=
  if 0 < records then
    { columns := ["station", "geometry", "satellite", "start", "end", "epoch"], rows := records }
  else emptyDownlinks

/-- `_get_empty_latency_frame` (`src/tatc/analysis/latency.py` L92-L109). -/
def emptyLatency : Frame :=
  { columns := ["point_id", "geometry", "satellite", "instrument", "observed", "station", "downlinked", "latency"]
    rows := 0 }

/-- `pd.merge_asof(..., by="satellite")`: names in both frames get the suffixes `_x` and `_y`
(`src/tatc/analysis/latency.py` L140-L147). -/
def mergeAsof (left right : Frame) : Frame :=
  { columns := left.columns.map (fun c => if c ∈ right.columns ∧ c ≠ "satellite" then c ++ "_x" else c) ++
      (right.columns.filter (· ≠ "satellite")).map (fun c => if c ∈ left.columns then c ++ "_y" else c)
    rows := left.rows }

/-- `obs.rename(columns=...)`: names that do not occur are ignored (`src/tatc/analysis/latency.py` L153-L163). -/
def Frame.rename (f : Frame) (names : List (String × String)) : Frame :=
  { f with columns := f.columns.map fun c => (names.lookup c).getD c }

/-- `obs[[...]]` (`src/tatc/analysis/latency.py` L166-L179). -/
def Frame.select (f : Frame) (names : List String) : Except PyErr Frame := do
  f.reads names
  return { f with columns := names }

/-- `compute_latencies` (`src/tatc/analysis/latency.py` L136-L201). -/
def computeLatencies (observations downlinks : Frame) : Except PyErr Frame := do
  if observations.rows = 0 ∨ downlinks.rows = 0 then return emptyLatency
  observations.reads ["end", "satellite"]
  downlinks.reads ["start", "satellite"]
  let obs := mergeAsof observations downlinks
  obs.reads ["epoch_y", "epoch_x"]
  let obs := (obs.assign "latency").rename
    [("station_y", "station"), ("epoch_y", "downlinked"), ("epoch_x", "observed"), ("geometry_x", "geometry"),
      ("sat_alt_x", "sat_alt"), ("sat_az_x", "sat_az")]
  obs.select ["point_id", "geometry", "satellite", "instrument", "sat_alt", "sat_az", "station", "downlinked",
    "latency", "observed"]

/-- `_get_empty_reduce_frame` (`src/tatc/analysis/latency.py` L204-L217). -/
def emptyReduceLatency : Frame := { columns := ["point_id", "geometry", "latency", "samples"], rows := 0 }

/-- `reduce_latencies` (`src/tatc/analysis/latency.py` L231-L251). -/
def reduceLatencies (latencies : Frame) (groups : Nat) : Except PyErr Frame := do
  if latencies.rows = 0 then return emptyReduceLatency
  latencies.reads ["latency"]
  let gdf ← ((latencies.assign "latency").assign "samples").dissolve ["point_id"] ["latency", "samples"] groups
  return (gdf.resetIndex "point_id").assigns ["latency"]

/-- `_get_empty_ro_frame` (`src/tatc/analysis/ro_coverage.py` L181-L201). -/
def emptyRo : Frame :=
  { columns := ["receiver", "transmitter", "is_rising", "geometry", "position", "rx_tx_pitch", "rx_tx_yaw",
      "tp_tx_azimuth", "start", "end", "time"]
    rows := 0 }

/-- `collect_ro_observations`, with the number of arcs (`src/tatc/analysis/ro_coverage.py` L237-L296). -/
def collectRo (arcs : Nat) : Frame :=
  if arcs = 0 then emptyRo
  else
    { columns := ["receiver", "transmitter", "is_rising", "geometry", "position", "rx_tx_pitch", "rx_tx_yaw",
        "tp_tx_azimuth", "start", "end", "time"]
      rows := arcs }

/-- `_get_empty_orbit_track` (`src/tatc/analysis/track.py` L38-L53). -/
def emptyOrbitTrack : Frame :=
  { columns := ["time", "satellite", "instrument", "swath_width", "valid_obs", "geometry"], rows := 0 }

/-- `collect_orbit_track`, with the numbers of times left by the mask, or in all, and left by clipping
(`src/tatc/analysis/track.py` L109-L236). -/
def collectOrbitTrack (velocity satSunlit solarAltaz solarBeta : Bool) (times clipped : Nat) : Frame :=
  if times = 0 then emptyOrbitTrack
  else
    let track : Frame :=
      { columns := ["time", "satellite", "instrument", "swath_width", "valid_obs", "geometry"] ++
          if velocity then ["velocity"] else []
        rows := clipped }
    let track := if satSunlit then track.assign "sat_sunlit" else track
    let track := if solarAltaz then track.assigns ["solar_alt", "solar_az"] else track
    if solarBeta then track.assign "solar_beta" else track

/-- `_get_empty_ground_track` (`src/tatc/analysis/track.py` L239-L253). -/
def emptyGroundTrack : Frame :=
  { columns := ["time", "satellite", "instrument", "valid_obs", "geometry"], rows := 0 }

/-- `collect_ground_track` and `collect_ground_pixels`, with the numbers of times left by the mask, or in all, and of
rows after clipping (`src/tatc/analysis/track.py` L328-L329, L362-L364, L376-L378, L438-L468, L645-L646, L683-L685,
L697-L699, L706-L756). -/
def collectGroundTrack (satAltaz solarAltaz : Bool) (times clipped : Nat) : Frame :=
  if times = 0 then emptyGroundTrack
  else
    let track : Frame := { columns := ["time", "satellite", "instrument", "valid_obs", "geometry"], rows := clipped }
    let track := if satAltaz then track.assigns ["sat_alt", "sat_az"] else track
    if solarAltaz then track.assigns ["solar_alt", "solar_az"] else track

end Tatc.Frames
