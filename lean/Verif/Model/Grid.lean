import Verif.Model.Coverage

/-!
# Model of `grid_observations` and `grid_latencies`

`src/tatc/analysis/coverage.py` L412-L453 and `src/tatc/analysis/latency.py` L254-L291.
-/

namespace Tatc.Grid
open Tatc.Pandas Tatc.Coverage

/-- A row of the cells frame: its index label and its `cell_id`
(`src/tatc/generation/cells.py` L96-L176). -/
structure Cell where
  label : Nat
  cellId : Int
deriving DecidableEq, Repr

/-- A row of the gridded frame; `none` is `None`/NaT.
(`src/tatc/analysis/coverage.py` L436-L453, `src/tatc/analysis/latency.py` L276-L291). -/
structure GridRow where
  cellId : Int
  samples : Nat
  values : List (Option Int)
deriving DecidableEq, Repr

/-- A row of the reduced frame as the grid functions see it: the sample count and the value
columns (access and revisit, or latency) in microseconds.  The frame returned by the reduce
functions has index labels 0, 1, 2, ... (`reset_index`).
(`src/tatc/analysis/coverage.py` L396-L409, `src/tatc/analysis/latency.py` L240-L251). -/
structure Reduced where
  pointId : Int
  samples : Nat
  values : List (Option Int)
deriving DecidableEq, Repr

/-- `gdf.loc[labels, "samples"]` with labels 0, 1, 2, ...: a missing label raises `KeyError`
(`src/tatc/analysis/coverage.py` L442-L443, `src/tatc/analysis/latency.py` L282). -/
def locSamples (reduced : List Reduced) (labels : List Nat) : Except PyErr (List Nat) :=
  labels.mapM fun l =>
    match reduced[l]? with
    | none => .error .keyError
    | some r => .ok r.samples

/-- `np.average(r, weights=w)`: raises `ZeroDivisionError` for zero total weight; NaN if any
value is NaN.
(`src/tatc/analysis/coverage.py` L442-L443, `src/tatc/analysis/latency.py` L282). -/
def npAverage (vals : List (Option ℚ)) (weights : List Nat) : Except PyErr (Option ℚ) :=
  let total : ℚ := (weights.map fun (w : Nat) => (w : ℚ)).sum
  if total = 0 then .error .zeroDivisionError
  else if vals.all Option.isSome then
    .ok (some ((List.zipWith (fun v (w : Nat) => v.getD 0 * (w : ℚ)) vals weights).sum / total))
  else .ok none

/-- `cells.sjoin(gdf, how="inner", predicate="contains")`: one row per cell and contained
point; the joined row keeps the *cell's* index label.
(`src/tatc/analysis/coverage.py` L437, `src/tatc/analysis/latency.py` L277). -/
def sjoin (contains : Cell → Reduced → Bool) (cells : List Cell) (reduced : List Reduced) :
    List (Cell × Reduced) :=
  cells.flatMap fun c => (reduced.filter (contains c)).map fun r => (c, r)

/-- The aggregation of one `cell_id` group: samples are summed and each of the `ncols` value
columns is averaged with the weights looked up by the group's index labels.
(`src/tatc/analysis/coverage.py` L438-L452, `src/tatc/analysis/latency.py` L278-L290). -/
def gridRow (ncols : Nat) (reduced : List Reduced) (k : Int) (g : List (Cell × Reduced)) :
    Except PyErr GridRow := do
  let values ← (List.range ncols).mapM fun i => do
    let w ← locSamples reduced (g.map fun cr => cr.1.label)
    let a ← npAverage (g.map fun cr => ((cr.2.values[i]?).join).map usToSeconds) w
    return a.map timedeltaSeconds
  return { cellId := k, samples := (g.map fun cr => cr.2.samples).sum, values := values }

/-- `grid_observations` (`ncols = 2`: access, revisit) and `grid_latencies` (`ncols = 1`:
latency): `src/tatc/analysis/coverage.py` L412-L453, `src/tatc/analysis/latency.py`
L254-L291.  `contains` is shapely's containment, a parameter. -/
def gridReduced (ncols : Nat) (contains : Cell → Reduced → Bool) (reduced : List Reduced)
    (cells : List Cell) : Except PyErr (List GridRow) :=
  if reduced.isEmpty then
    .ok (cells.map fun c => { cellId := c.cellId, samples := 0, values := List.replicate ncols none })
  else
    (groupBy (fun cr : Cell × Reduced => cr.1.cellId) (sjoin contains cells reduced)).mapM
      fun kg => gridRow ncols reduced kg.1 kg.2

end Tatc.Grid
