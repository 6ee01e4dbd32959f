import Mathlib.Data.List.Basic

/-!
# Model of data frames as objects

Which data frames the functions of `src/tatc/analysis` make and change.  A frame is an object that assignments to its columns
change; what the columns hold is modelled in `Model/Coverage.lean`, `Model/Grid.lean` and `Model/Latency.lean`, and here the
operations on the values are parameters.
-/

namespace Tatc.Frames

/-- The frames that exist, by number (`src/tatc/analysis/coverage.py` L389). -/
abbrev Store (F : Type) := List F

/-- The operations of pandas on the values of frames, by name: with one and two arguments, grouping, `pd.concat`, whether
there are no rows, and the empty frames of the library (`src/tatc/analysis/coverage.py` L297-L355). -/
structure Kit (F : Type) where
  isEmpty : F → Bool
  op : String → F → F
  op2 : String → F → F → F
  groups : String → F → List F
  concat : List F → F
  blank : String → F

/-- A computation that reads, makes and changes frames (`src/tatc/analysis/coverage.py` L328-L355). -/
abbrev Prog (F α : Type) := StateM (Store F) α

variable {F : Type}

/-- An operation that returns a frame makes a new one (for example `src/tatc/analysis/coverage.py` L334, L338, L389). -/
def new (f : F) : Prog F Nat := fun st => (st.length, st ++ [f])

/-- The value of a frame; `d` stands for frames that do not exist, which are never read
(for example `src/tatc/analysis/coverage.py` L328). -/
def value (d : F) (r : Nat) : Prog F F := fun st => (st.getD r d, st)

/-- `gdf[column] = ...`, or an operation with `inplace=True`: changes the frame itself
(for example `src/tatc/analysis/coverage.py` L336, `src/tatc/analysis/latency.py` L162, L198-L200). -/
def mutate (r : Nat) (f : F → F) : Prog F Unit := fun st => ((), st.modify r f)

/-- The loop body of `aggregate_observations` (`src/tatc/analysis/coverage.py` L332-L353). -/
def aggregateGroup (kit : Kit F) (d : F) (group : F) : Prog F F := do
  let r ← new group
  let g ← value d r
  let r ← new (kit.op "sort_values start" g)
  mutate r (kit.op "obs")
  let g ← value d r
  let r ← new (kit.op "dissolve obs" g)
  mutate r (kit.op "access")
  mutate r (kit.op "revisit")
  value d r

/-- `aggregate_observations` (`src/tatc/analysis/coverage.py` L328-L355). -/
def aggregate (kit : Kit F) (d : F) (observations : Nat) : Prog F Nat := do
  let o ← value d observations
  if kit.isEmpty o then new (kit.blank "aggregate")
  else do
    let gdfs ← (kit.groups "point_id" o).mapM (aggregateGroup kit d)
    new (kit.op "reset_index" (kit.concat gdfs))

/-- `reduce_observations` (`src/tatc/analysis/coverage.py` L386-L409). -/
def reduce (kit : Kit F) (d : F) (aggregated : Nat) : Prog F Nat := do
  let a ← value d aggregated
  if kit.isEmpty a then new (kit.blank "reduce")
  else do
    let gdf ← new a
    mutate gdf (kit.op "access to seconds")
    mutate gdf (kit.op "revisit to seconds")
    mutate gdf (kit.op "samples")
    let g ← value d gdf
    let gdf ← new (kit.op "dissolve point_id" g)
    mutate gdf (kit.op "access to timedelta")
    mutate gdf (kit.op "revisit to timedelta")
    return gdf

/-- `grid_observations` (`src/tatc/analysis/coverage.py` L425-L453). -/
def grid (kit : Kit F) (d : F) (reduced cells : Nat) : Prog F Nat := do
  let r ← value d reduced
  let c ← value d cells
  if kit.isEmpty r then do
    let gdf ← new c
    mutate gdf (kit.op "samples zero")
    mutate gdf (kit.op "access none")
    mutate gdf (kit.op "revisit none")
    return gdf
  else do
    let gdf ← new r
    mutate gdf (kit.op "access to seconds")
    mutate gdf (kit.op "revisit to seconds")
    let g ← value d gdf
    let gdf ← new (kit.op2 "sjoin dissolve" c g)
    mutate gdf (kit.op "access to timedelta")
    mutate gdf (kit.op "revisit to timedelta")
    return gdf

/-- `compute_latencies` (`src/tatc/analysis/latency.py` L136-L201). -/
def latencies (kit : Kit F) (d : F) (observations downlinks : Nat) : Prog F Nat := do
  let o ← value d observations
  let l ← value d downlinks
  if kit.isEmpty o || kit.isEmpty l then new (kit.blank "latency")
  else do
    let o1 ← new (kit.op "sort_values end" o)
    let l1 ← new (kit.op "sort_values start" l)
    let o ← value d o1
    let l ← value d l1
    let obs ← new (kit.op2 "merge_asof" o l)
    mutate obs (kit.op "latency")
    mutate obs (kit.op "rename")
    let v ← value d obs
    let obs ← new (kit.op "select" v)
    mutate obs (kit.op "missing downlinks")
    let v ← value d obs
    let obs ← new (kit.op "GeoDataFrame" v)
    mutate obs (kit.op "sort_values observed")
    mutate obs (kit.op "reset_index")
    return obs

/-- `reduce_latencies` (`src/tatc/analysis/latency.py` L231-L251). -/
def reduceLatency (kit : Kit F) (d : F) (observations : Nat) : Prog F Nat := do
  let a ← value d observations
  if kit.isEmpty a then new (kit.blank "reduce latency")
  else do
    let gdf ← new a
    mutate gdf (kit.op "latency to seconds")
    mutate gdf (kit.op "samples")
    let g ← value d gdf
    let gdf ← new (kit.op "dissolve point_id" g)
    mutate gdf (kit.op "latency to timedelta")
    return gdf

/-- `grid_latencies` (`src/tatc/analysis/latency.py` L267-L291). -/
def gridLatency (kit : Kit F) (d : F) (reduced cells : Nat) : Prog F Nat := do
  let r ← value d reduced
  let c ← value d cells
  if kit.isEmpty r then do
    let gdf ← new c
    mutate gdf (kit.op "samples zero")
    mutate gdf (kit.op "latency none")
    return gdf
  else do
    let gdf ← new r
    mutate gdf (kit.op "latency to seconds")
    let g ← value d gdf
    let gdf ← new (kit.op2 "sjoin dissolve latency" c g)
    mutate gdf (kit.op "latency to timedelta")
    return gdf

/-- `normalize_geometry` of a data frame (`src/tatc/utils.py` L1185-L1190): the frame given is changed and returned. -/
def normalize (kit : Kit F) (geometry : Nat) : Prog F Nat := do
  mutate geometry (kit.op "split_polygon")
  return geometry

/-- `normalize_geometry` of a series of geometries, or of one that is put into a series
(`src/tatc/utils.py` L1179-L1190): a new frame is made first. -/
def normalizeSeries (kit : Kit F) (series : F) : Prog F Nat := do
  let geometry ← new (kit.op "GeoDataFrame" series)
  normalize kit geometry

/-- A call of one of the analyses with frames that exist (`src/tatc/analysis/__init__.py` L5-L29). -/
inductive Call
  | aggregate (observations : Nat)
  | reduce (aggregated : Nat)
  | grid (reduced cells : Nat)
  | latencies (observations downlinks : Nat)
  | reduceLatency (latencies : Nat)
  | gridLatency (reduced cells : Nat)

/-- The frames given to a call (`src/tatc/analysis/__init__.py` L5-L29). -/
def Call.args : Call → List Nat
  | .aggregate o => [o]
  | .reduce a => [a]
  | .grid r c => [r, c]
  | .latencies o d => [o, d]
  | .reduceLatency l => [l]
  | .gridLatency r c => [r, c]

/-- What a call does (`src/tatc/analysis/coverage.py` L316-L453, `src/tatc/analysis/latency.py` L112-L291). -/
def Call.run (kit : Kit F) (d : F) : Call → Prog F Nat
  | .aggregate o => Frames.aggregate kit d o
  | .reduce a => Frames.reduce kit d a
  | .grid r c => Frames.grid kit d r c
  | .latencies o l => Frames.latencies kit d o l
  | .reduceLatency l => Frames.reduceLatency kit d l
  | .gridLatency r c => Frames.gridLatency kit d r c

/-- A history of calls: the numbers of the frames returned (`src/tatc/analysis/__init__.py` L5-L29). -/
def history (kit : Kit F) (d : F) (calls : List Call) : Prog F (List Nat) := calls.mapM (Call.run kit d)

end Tatc.Frames
