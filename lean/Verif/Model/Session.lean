import Verif.Model.Cache
import Verif.Model.Config
import Verif.Model.Real

/-!
# Model of a session: settings that change between calls

`tatc.config.rc` can be replaced, or its attributes assigned, at any time; calls read it for the arguments that are not
given.  The session has one object with one element set, whose repeat cycle is stored in it.
-/

namespace Tatc.Session
open Tatc.Config

/-- What the search for a repeat depends on (`src/tatc/schemas/orbit.py` L476-L479); the duration is in microseconds. -/
structure Criteria where
  deltaPosition : ℝ
  deltaVelocity : ℝ
  elevation : ℝ
  duration : Int

/-- The arguments of `get_repeat_cycle`, which may be left out (`src/tatc/schemas/orbit.py` L474-L481). -/
structure CycleArgs where
  deltaPosition : Option ℝ := none
  deltaVelocity : Option ℝ := none
  elevation : Option ℝ := none
  duration : Option Int := none
  lazy : Option Bool := none

/-- `# load defaults` (`src/tatc/schemas/orbit.py` L496-L505): the settings at the time of the call. -/
noncomputable def criteria (rc : RuntimeConfig) (a : CycleArgs) : Criteria :=
  ⟨a.deltaPosition.getD rc.deltaPosition, a.deltaVelocity.getD rc.deltaVelocity, a.elevation.getD rc.searchElevation,
    a.duration.getD (Num.roundHalfEven (rc.searchDuration * 86400000000))⟩

/-- The settings and the repeat cycle stored in the object (`src/tatc/config.py` L86-L93,
`src/tatc/schemas/orbit.py` L510, L548). -/
structure State where
  settings : RuntimeConfig
  stored : Option Int

/-- What a user does in a session: change the settings; `get_repeat_cycle`; `get_orbit_track` and
`get_observation_events` with `try_repeat`; `compute_footprint` with `is_rectangular` and `number_points`
(`src/tatc/schemas/orbit.py` L474-L481, L554-L556, L617-L624, `src/tatc/utils.py` L532-L541). -/
inductive Op
  | configure (rc : RuntimeConfig)
  | repeatCycle (a : CycleArgs)
  | track (tryRepeat : Option Bool)
  | events (tryRepeat : Option Bool)
  | footprint (rectangular : Bool) (points : Option Int)

/-- What a call is computed with: a repeat cycle, or none; a number of points on a side or on the ellipse
(`src/tatc/schemas/orbit.py` L550-L552, L588-L592, L666-L668, `src/tatc/utils.py` L562-L565). -/
inductive Used
  | cycle (c : Option Int)
  | points (n : Int)
deriving DecidableEq

/-- `get_repeat_cycle` (`src/tatc/schemas/orbit.py` L474-L552). -/
noncomputable def cycleCall (search : Criteria → Option Int) (s : State) (a : CycleArgs) : Option Int × State :=
  let r := Cache.getRepeatCycle search (criteria s.settings a) (a.lazy.getD s.settings.lazyLoad) s.stored
  (r.1, { s with stored := r.2 })

/-- One step (`src/tatc/schemas/orbit.py` L567-L569, L587-L592, L639-L641, L664-L668, `src/tatc/utils.py` L560-L565); `search` is
the search for the first repeat (`src/tatc/schemas/orbit.py` L513-L547). -/
noncomputable def step (search : Criteria → Option Int) (s : State) : Op → Option Used × State
  | .configure rc => (none, { s with settings := rc })
  | .repeatCycle a => let r := cycleCall search s a; (some (.cycle r.1), r.2)
  | .track tryRepeat =>
    if tryRepeat.getD s.settings.forOrbitTrack then
      let r := cycleCall search s {}; (some (.cycle r.1), r.2)
    else (some (.cycle none), s)
  | .events tryRepeat =>
    if tryRepeat.getD s.settings.forObservationEvents then
      let r := cycleCall search s {}; (some (.cycle r.1), r.2)
    else (some (.cycle none), s)
  | .footprint rectangular points =>
    let default := if rectangular then s.settings.pointsRectangularSide else s.settings.pointsElliptical
    (some (.points (points.getD default)), s)

/-- A session: what each step was computed with (`src/tatc/schemas/orbit.py` L474-L693, `src/tatc/utils.py` L532-L565). -/
noncomputable def run (search : Criteria → Option Int) : State → List Op → List (Option Used)
  | _, [] => []
  | s, op :: ops => let r := step search s op; r.1 :: run search r.2 ops

end Tatc.Session
