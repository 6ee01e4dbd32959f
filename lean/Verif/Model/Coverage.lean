import Verif.Model.Pandas
import Verif.Model.Py

/-!
# Model of `src/tatc/analysis/coverage.py`
-/

namespace Tatc.Coverage
open Tatc.Pandas

/-- A row of the frame returned by `collect_observations`
(`src/tatc/analysis/coverage.py` L195-L235).  Times are integer ticks (nanoseconds).
Simplification: the geometry column (a function of `point_id`) and the satellite/solar
angle columns are left out; `epoch` is rational so that the mean of epochs needs no
rounding. -/
structure Obs where
  pointId : Int
  satellite : String
  instrument : String
  start : Int
  epoch : ℚ
  end_ : Int
deriving DecidableEq, Repr

/-- A row of the frame returned by `aggregate_observations`
(`src/tatc/analysis/coverage.py` L338-L351). -/
structure AggRow extends Obs where
  access : Int
  revisit : Option Int
deriving DecidableEq, Repr

/-- `(gdf["start"] > gdf["end"].shift().cummax()).cumsum()`
(`src/tatc/analysis/coverage.py` L336). -/
def overlapLabels (s : List Obs) : List Nat :=
  cumsum (List.zipWith gtNaT (s.map (·.start)) (cummax (shift (s.map (·.end_)))))

/-- One row of the `dissolve("obs", aggfunc=...)` call
(`src/tatc/analysis/coverage.py` L338-L348). Groups are never empty; the default for
`"first"` on an empty group is not used. -/
def dissolveRow (g : List Obs) : Obs where
  pointId := match g with
    | [] => 0
    | o :: _ => o.pointId
  satellite := ", ".intercalate (g.map (·.satellite))
  instrument := ", ".intercalate (g.map (·.instrument))
  start := colMin (g.map (·.start))
  epoch := mean (g.map (·.epoch))
  end_ := colMax (g.map (·.end_))

/-- The `obs` groups of one point, in order (`src/tatc/analysis/coverage.py` L336-L339):
rows are paired with their label and grouped by it. -/
def overlapGroups (s : List Obs) : List (List Obs) :=
  (groupBy Prod.fst ((overlapLabels s).zip s)).map fun kg => kg.2.map Prod.snd

/-- `gdf["access"] = gdf["end"] - gdf["start"]` and
`gdf["revisit"] = gdf["start"] - gdf["end"].shift()`
(`src/tatc/analysis/coverage.py` L350-L351). -/
def withMetrics (rows : List Obs) : List AggRow :=
  List.zipWith
    (fun r prevEnd => { r with access := r.end_ - r.start
                               revisit := prevEnd.map (fun e => r.start - e) })
    rows (shift (rows.map (·.end_)))

/-- The loop body of `aggregate_observations` for the rows of one point
(`src/tatc/analysis/coverage.py` L333-L353). -/
def aggregatePoint (sort : SortValues Obs.start) (g : List Obs) : List AggRow :=
  withMetrics ((overlapGroups (sort.run g)).map dissolveRow)

/-- `aggregate_observations` (`src/tatc/analysis/coverage.py` L316-L355).  The early
return for an empty frame is the empty list, as is the general code on `[]`. -/
def aggregateObservations (sort : SortValues Obs.start) (observations : List Obs) :
    List AggRow :=
  if observations.isEmpty then []
  else (groupBy Obs.pointId observations).flatMap fun kg => aggregatePoint sort kg.2

end Tatc.Coverage

namespace Tatc.Coverage
open Tatc.Pandas

/-- A row of the frame returned by `reduce_observations`
(`src/tatc/analysis/coverage.py` L375-L409); durations in microseconds
(`datetime.timedelta`), geometry left out. -/
structure RedRow where
  pointId : Int
  access : Int
  revisit : Option Int
  samples : Nat
deriving DecidableEq, Repr

/-- `timedelta(seconds=t)`: rounds to microseconds, half to even
(`src/tatc/analysis/coverage.py` L405, L407, L449, L451). -/
def timedeltaSeconds (t : ℚ) : Int := roundHalfEven (t * 1000000)

/-- `td / timedelta(seconds=1)` for a duration in nanoseconds
(`src/tatc/analysis/coverage.py` L391-L392), exact. -/
def nsToSeconds (ns : Int) : ℚ := (ns : ℚ) / 1000000000

/-- `td / timedelta(seconds=1)` for a duration in microseconds
(`src/tatc/analysis/coverage.py` L434-L435), exact. -/
def usToSeconds (us : Int) : ℚ := (us : ℚ) / 1000000

/-- `reduce_observations` (`src/tatc/analysis/coverage.py` L375-L409). -/
def reduceObservations (aggregated : List AggRow) : List RedRow :=
  if aggregated.isEmpty then []
  else
    (groupBy (fun r : AggRow => r.pointId) aggregated).map fun kg =>
      { pointId := kg.1
        access := timedeltaSeconds (mean (kg.2.map fun r => nsToSeconds r.access))
        revisit := (nanmean (kg.2.map fun r => r.revisit.map nsToSeconds)).map timedeltaSeconds
        samples := (kg.2.map fun _ => 1).sum }

/-! ## Visible intervals -/

/-- Event kinds of `skyfield.find_events`: 0 rise, 1 culminate, 2 set.
(`src/tatc/analysis/coverage.py` L66, L76-L77). -/
inductive EventKind
  | rise
  | culminate
  | set
deriving DecidableEq, Repr

/-- A period with its two ends, `pd.Interval` (`src/tatc/analysis/coverage.py` L69). -/
structure Interval where
  left : Int
  right : Int
deriving DecidableEq, Repr

/-- The sets that match a rise: `rise < set` and `set < rise + 2 * max_access_time`
(`src/tatc/analysis/coverage.py` L97-L101 and L107-L110). -/
def matching (maxAccess rise : Int) (sets : List Int) : List Int :=
  sets.filter fun s => decide (rise < s) && decide (s < rise + 2 * maxAccess)

/-- `_get_visible_interval_series` (`src/tatc/analysis/coverage.py` L49-L125) as a function
of the event list returned by `get_observation_events` and of `max_access_time`; the
propagation that produces them is not modelled.  All times are ticks. -/
def visibleIntervals (start end_ maxAccess : Int) (events : List (Int × EventKind)) :
    List Interval :=
  if events ≠ [] ∧ ∀ e ∈ events, e.2 = .culminate then
    [⟨start, end_⟩]
  else if events ≠ [] then
    let rises := (events.filter fun e => e.2 = .rise).map Prod.fst
    let sets := (events.filter fun e => e.2 = .set).map Prod.fst
    let leading : List Interval :=
      match sets.head? with
      | none => []
      | some s =>
        if (match rises.head? with
            | none => true
            | some r => decide (s < r)) && decide (start < s)
        then [⟨start, s⟩] else []
    let matched : List Interval :=
      rises.filterMap fun rise =>
        match matching maxAccess rise sets with
        | [] => none
        | s :: _ => some ⟨rise, s⟩
    let trailing : List Interval :=
      match rises.getLast? with
      | none => []
      | some r =>
        if (match sets.getLast? with
            | none => true
            | some s => decide (s < r)) && decide (r < end_)
        then [⟨r, end_⟩] else []
    leading ++ matched ++ trailing
  else []

/-! ## Collected observations -/

/-- The fields of an instrument that `collect_observations` uses
(`src/tatc/schemas/instrument.py` L30-L60): minimum access time in microseconds
(a `datetime.timedelta`) and whether access time is fixed. -/
structure AccessSpec where
  name : String
  minAccess : Int
  fixed : Bool
deriving DecidableEq, Repr

/-- `pd.Interval.mid` of time stamps in nanoseconds: `left + 0.5 * length` with the product
truncated to an integer (`src/tatc/analysis/coverage.py` L204, L209, L211). -/
def Interval.mid (p : Interval) : Int := p.left + (p.right - p.left) / 2

/-- `min_access_time / 2` for a `datetime.timedelta`: microseconds, half to even
(`src/tatc/analysis/coverage.py` L204, L209). -/
def halfAccess (us : Int) : Int := roundHalfEven ((us : ℚ) / 2)

/-- One record of `collect_observations` (`src/tatc/analysis/coverage.py` L196-L212). -/
def observationRecord (pointId : Int) (satellite : String) (ins : AccessSpec) (p : Interval) :
    Obs where
  pointId := pointId
  satellite := satellite
  instrument := ins.name
  start := if ins.fixed then p.mid - 1000 * halfAccess ins.minAccess else p.left
  epoch := p.mid
  end_ := if ins.fixed then p.mid + 1000 * halfAccess ins.minAccess else p.right

/-- `collect_observations` (`src/tatc/analysis/coverage.py` L162-L262) as a function of the
visible intervals; `valid` stands for the illumination and footprint tests at the middle of
a period (L218-L233), which depend on external geometry.  The satellite and solar angle
columns are left out. -/
def collectObservations (pointId : Int) (satellite : String) (ins : AccessSpec)
    (valid : Interval → Bool) (periods : List Interval) : List Obs :=
  (periods.filter fun p =>
    decide (1000 * ins.minAccess ≤ p.right - p.left) && valid p).map
    (observationRecord pointId satellite ins)

/-- One instrument of a member satellite together with what the propagation yields for it at
the point: its visible intervals and the validity test
(`src/tatc/analysis/coverage.py` L184-L233). -/
structure InstrumentRun where
  spec : AccessSpec
  valid : Interval → Bool
  periods : List Interval

/-- A member satellite: name and instruments (`src/tatc/schemas/satellite.py` L29-L45). -/
structure Member where
  name : String
  instruments : List InstrumentRun

/-- `collect_multi_observations` (`src/tatc/analysis/coverage.py` L265-L294): a constellation is
the list of its members (`generate_members`).  `pd.concat` raises `ValueError` when the list of
frames is empty. -/
def collectMultiObservations (sort : SortValues Obs.start) (pointId : Int)
    (satellites : List (List Member)) : Except PyErr (List Obs) :=
  let gdfs := satellites.flatMap fun constellation =>
    constellation.flatMap fun satellite =>
      satellite.instruments.map fun ins =>
        collectObservations pointId satellite.name ins.spec ins.valid ins.periods
  if gdfs.isEmpty then .error .valueError else .ok (sort.run gdfs.flatten)

end Tatc.Coverage
