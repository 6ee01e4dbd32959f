import Verif.Model.Coverage

/-!
# Model of `src/tatc/analysis/latency.py`
-/

namespace Tatc.Latency
open Tatc.Pandas Tatc.Coverage

/-- A row of the frame returned by `collect_downlinks`
(`src/tatc/analysis/latency.py` L59-L79); geometry left out. -/
structure Downlink where
  station : String
  satellite : String
  start : Int
  epoch : ℚ
  end_ : Int
deriving DecidableEq, Repr

/-- The fields of a ground station used by `collect_downlinks`
(`src/tatc/schemas/point.py` L39-L74): name and minimum access time (microseconds). -/
structure Station where
  name : String
  minAccess : Int
deriving DecidableEq, Repr

/-- `collect_downlinks` (`src/tatc/analysis/latency.py` L40-L89) as a function of the visible
intervals of each station. -/
def collectDownlinks (sort : SortValues Downlink.start) (satellite : String)
    (stations : List (Station × List Interval)) : List Downlink :=
  let records := stations.flatMap fun sp =>
    (sp.2.filter fun p => decide (1000 * sp.1.minAccess ≤ p.right - p.left)).map fun p =>
      { station := sp.1.name, satellite := satellite, start := p.left, epoch := p.mid,
        end_ := p.right }
  if records.length > 0 then sort.run records else []

/-- A row of the frame returned by `compute_latencies`
(`src/tatc/analysis/latency.py` L166-L188); `downlink` records the matched row of the
downlinks frame, from which `station` and `downlinked` are taken. -/
structure LatRow where
  obs : Obs
  station : Option String
  downlinked : Option ℚ
  latency : Option ℚ
  observed : ℚ
deriving DecidableEq, Repr

/-- `pd.merge_asof(..., by="satellite", left_on="end", right_on="start",
direction="forward")` (`src/tatc/analysis/latency.py` L140-L147): for each left row, the
first row of the sorted right frame with the same `by` value and `right_on >= left_on`. -/
def asofForward (sorted : List Downlink) (o : Obs) : Option Downlink :=
  sorted.find? fun d => decide (d.satellite = o.satellite) && decide (o.end_ ≤ d.start)

/-- The row built for one observation (`src/tatc/analysis/latency.py` L150-L188). -/
def latencyRow (sorted : List Downlink) (o : Obs) : LatRow :=
  let d := asofForward sorted o
  { obs := o
    station := d.map (·.station)
    downlinked := d.map (·.epoch)
    latency := d.map fun d => d.epoch - o.epoch
    observed := o.epoch }

/-- `compute_latencies` (`src/tatc/analysis/latency.py` L112-L201). -/
def computeLatencies (sortEnd : SortValues Obs.end_) (sortStart : SortValues Downlink.start)
    (sortObserved : SortValues LatRow.observed) (observations : List Obs)
    (downlinks : List Downlink) : List LatRow :=
  if observations.isEmpty || downlinks.isEmpty then []
  else sortObserved.run ((sortEnd.run observations).map (latencyRow (sortStart.run downlinks)))

/-- A row of the frame returned by `reduce_latencies`
(`src/tatc/analysis/latency.py` L220-L251); latency in microseconds. -/
structure RedLat where
  pointId : Int
  latency : Option Int
  samples : Nat
deriving DecidableEq, Repr

/-- `reduce_latencies` (`src/tatc/analysis/latency.py` L220-L251); latencies are rational
nanoseconds. -/
def reduceLatencies (rows : List LatRow) : List RedLat :=
  if rows.isEmpty then []
  else
    (groupBy (fun r : LatRow => r.obs.pointId) rows).map fun kg =>
      { pointId := kg.1
        latency := (nanmean (kg.2.map fun r => r.latency.map (· / 1000000000))).map timedeltaSeconds
        samples := (kg.2.map fun _ => 1).sum }

end Tatc.Latency
