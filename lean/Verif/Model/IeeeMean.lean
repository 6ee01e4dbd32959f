import Verif.Model.Ieee
import Verif.Model.Latency

/-!
# Floating point arithmetic of mean values

`reduce_observations`, `reduce_latencies` and the mean epoch of `aggregate_observations` as they are computed: durations
are divided by a second, or time stamps converted, to double precision numbers; the mean of a group is a compensated sum
divided by the number of values (`group_mean` of pandas); `timedelta(seconds=...)` splits the number into its whole part
and the rest.  Results too large for double precision are not modelled.
-/

namespace Tatc.Ieee
open Tatc.Num Tatc.Pandas Tatc.Coverage Tatc.Latency
open scoped Classical

/-- A duration in nanoseconds divided by `timedelta(seconds=1)` (`src/tatc/analysis/coverage.py` L391-L392,
`src/tatc/analysis/latency.py` L236): both are converted to double precision numbers. -/
noncomputable def secondsOf (ns : ℝ) : ℝ := fl (fl ns / 10 ^ 9)

/-- One step of the compensated sum of `"mean"` (`src/tatc/analysis/coverage.py` L345, L399-L400): sum and
compensation. -/
noncomputable def kahanStep (acc : ℝ × ℝ) (x : ℝ) : ℝ × ℝ :=
  let y := fl (x - acc.2)
  let t := fl (acc.1 + y)
  (t, fl (fl (t - acc.1) - y))

/-- The compensated sum of `"mean"` (`src/tatc/analysis/coverage.py` L345, L399-L400, `src/tatc/analysis/latency.py`
L243). -/
noncomputable def kahanSum (l : List ℝ) : ℝ := (l.foldl kahanStep (0, 0)).1

/-- `"mean"` of a group (`src/tatc/analysis/coverage.py` L345, L399-L400, `src/tatc/analysis/latency.py` L243). -/
noncomputable def groupMean (l : List ℝ) : ℝ := fl (kahanSum l / l.length)

/-- The whole part of a number, as `modf` gives it (`timedelta(seconds=t)`, `src/tatc/analysis/coverage.py` L405). -/
noncomputable def wholePart (t : ℝ) : ℤ := if 0 ≤ t then ⌊t⌋ else ⌈t⌉

/-- `timedelta(seconds=t)` in microseconds (`src/tatc/analysis/coverage.py` L405, L407, `src/tatc/analysis/latency.py`
L249): whole seconds are exact, the rest is multiplied by a million and rounded, half to even. -/
noncomputable def timedeltaOf (t : ℝ) : ℤ := 10 ^ 6 * wholePart t + Num.roundHalfEven (fl (10 ^ 6 * (t - wholePart t)))

/-- The mean of the values that are not missing, as a `timedelta` (`src/tatc/analysis/coverage.py` L399-L408). -/
noncomputable def meanDuration (l : List ℝ) : Option ℤ :=
  if l = [] then none else some (timedeltaOf (groupMean (l.map secondsOf)))

/-- `reduce_observations` (`src/tatc/analysis/coverage.py` L375-L409). -/
noncomputable def reduceObservations (aggregated : List AggRow) : List RedRow :=
  if aggregated.isEmpty then []
  else
    (groupBy (fun r : AggRow => r.pointId) aggregated).map fun kg =>
      { pointId := kg.1
        access := timedeltaOf (groupMean (kg.2.map fun r => secondsOf r.access))
        revisit := meanDuration ((kg.2.filterMap (·.revisit)).map fun x : Int => (x : ℝ))
        samples := (kg.2.map fun _ => 1).sum }

/-- `reduce_latencies` (`src/tatc/analysis/latency.py` L220-L251); latencies are nanoseconds. -/
noncomputable def reduceLatencies (rows : List LatRow) : List RedLat :=
  if rows.isEmpty then []
  else
    (groupBy (fun r : LatRow => r.obs.pointId) rows).map fun kg =>
      { pointId := kg.1
        latency := meanDuration ((kg.2.filterMap (·.latency)).map fun x : ℚ => (x : ℝ))
        samples := (kg.2.map fun _ => 1).sum }

/-- The mean epoch of the observations that are merged in a row (`src/tatc/analysis/coverage.py` L345): time stamps
(nanoseconds since 1970) are converted to double precision numbers and the mean back to an integer, truncated. -/
noncomputable def meanEpoch (epochs : List ℝ) : Int := wholePart (groupMean (epochs.map fl))

/-- One row of the `dissolve("obs", aggfunc=...)` call (`src/tatc/analysis/coverage.py` L338-L348). -/
noncomputable def dissolveRow (g : List Obs) : Obs :=
  { Coverage.dissolveRow g with epoch := meanEpoch (g.map fun o => (o.epoch : ℝ)) }

/-- The loop body of `aggregate_observations` for the rows of one point (`src/tatc/analysis/coverage.py`
L333-L353). -/
noncomputable def aggregatePoint (sort : SortValues Obs.start) (g : List Obs) : List AggRow :=
  withMetrics ((overlapGroups (sort.run g)).map dissolveRow)

/-- `aggregate_observations` (`src/tatc/analysis/coverage.py` L316-L355). -/
noncomputable def aggregateObservations (sort : SortValues Obs.start) (observations : List Obs) : List AggRow :=
  if observations.isEmpty then []
  else (groupBy Obs.pointId observations).flatMap fun kg => aggregatePoint sort kg.2

end Tatc.Ieee
