import Verif.Model.Coverage
import Verif.Model.Latency
import Verif.Model.Geometry

/-!
# The settings with which observations are collected

What `collect_observations` makes of an instrument before and after the visible intervals.
-/

namespace Tatc.Coverage
open Tatc Tatc.Num Tatc.Geometry

/-- The elevation angle from which a satellite observes (`src/tatc/analysis/coverage.py` L185-L193): from the altitude at the
start of the window; the elevation of the point is not passed. -/
noncomputable def regardThreshold (altitudeAtStart fieldOfRegard : ℝ) : ℝ := minElevation altitudeAtStart fieldOfRegard 0

/-- `max_access_time` (`src/tatc/analysis/coverage.py` L52-L57) in ticks of nanoseconds, of the altitude at the start of the
window: `timedelta` rounds to microseconds. -/
noncomputable def accessLimit (altitudeAtStart minElevation : ℝ) : Int :=
  1000 * Num.roundHalfEven (maxAccessTime altitudeAtStart minElevation * 1000000)

/-- The tests of a period (`src/tatc/analysis/coverage.py` L216-L233), which are made in its middle: `lit` is
`is_valid_observation` and `inside` whether the footprint contains the point, at a time; the latter is tested of pointed
instruments. -/
def testsAt (pointed : Bool) (lit inside : Int → Bool) (p : Interval) : Bool :=
  lit p.mid && (!pointed || inside p.mid)

/-- An instrument with which observations are collected, and the events that `get_observation_events` gives for its
minimum elevation angle (`src/tatc/analysis/coverage.py` L184-L233, L58-L61). -/
structure Looking where
  spec : AccessSpec
  fieldOfRegard : ℝ
  valid : Interval → Bool
  events : List (Int × EventKind)

/-- What `collect_observations` makes of it (`src/tatc/analysis/coverage.py` L184-L214, L50-L118): the visible intervals,
with the access limit of the altitude at the start and the minimum elevation angle of the field of regard. -/
noncomputable def instrumentRun (altitudeAtStart : ℝ) (start end_ : Int) (l : Looking) : InstrumentRun :=
  ⟨l.spec, l.valid,
    visibleIntervals start end_ (accessLimit altitudeAtStart (regardThreshold altitudeAtStart l.fieldOfRegard)) l.events⟩

/-- A ground station, and the events that `get_observation_events` gives for its minimum elevation angle
(`src/tatc/analysis/latency.py` L70-L78, `src/tatc/schemas/point.py` L39-L74). -/
structure Listening where
  station : Tatc.Latency.Station
  latitude : ℝ
  longitude : ℝ
  minElevation : ℝ
  events : List (Int × EventKind)

/-- What `collect_downlinks` makes of it (`src/tatc/analysis/latency.py` L70-L77, `src/tatc/analysis/coverage.py` L50-L118):
the visible intervals, with the access limit of the altitude at the start and the minimum elevation angle of the station. -/
noncomputable def stationRun (altitudeAtStart : ℝ) (start end_ : Int) (l : Listening) : Tatc.Latency.Station × List Interval :=
  (l.station, visibleIntervals start end_ (accessLimit altitudeAtStart l.minElevation) l.events)

end Tatc.Coverage
