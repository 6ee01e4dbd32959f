import Verif.Model.Real
import Verif.Model.Vec
import Verif.Model.Py
import Verif.Model.Pandas
import Mathlib.Data.List.MinMax

/-!
# Model of the radio occultation analysis

`src/tatc/analysis/ro_coverage.py`.  The arrays with one column per time are functions of the index of the
time; positions and velocities from the propagator, the geodetic position of a point and the azimuth seen
from it are parameters.
-/

namespace Tatc.Ro
open Tatc.Num Tatc.Pandas
open scoped Classical

/-- `tx_pv - rx_pv` (`src/tatc/analysis/ro_coverage.py` L38). -/
def sub (a b : V3) : V3 := ⟨a.x - b.x, a.y - b.y, a.z - b.z⟩

/-- The tangent point `tp_p` (`src/tatc/analysis/ro_coverage.py` L41-L48). -/
noncomputable def tangentPoint (tx rx : V3) : V3 :=
  let d := sub tx rx
  sub tx (d.smul (tx.dot d / d.dot d))

/-- The velocity of the tangent point `tp_v` (`src/tatc/analysis/ro_coverage.py` L56-L95); `u` and `w` are the
velocities of transmitter and receiver. -/
noncomputable def tangentVelocity (tx rx u w : V3) : V3 :=
  let d := sub tx rx
  let v := sub u w
  sub (sub u (v.smul (tx.dot d / d.dot d)))
    (d.smul ((u.dot d + tx.dot v) / d.dot d - 2 * (v.dot d * tx.dot d / d.dot d ^ 2)))

/-- `np.sign` (`src/tatc/analysis/ro_coverage.py` L97). -/
noncomputable def sign (x : ℝ) : Int := if 0 < x then 1 else if x < 0 then -1 else 0

/-- `tp_sign` (`src/tatc/analysis/ro_coverage.py` L97-L99). -/
noncomputable def tangentSign (tx rx : V3) : Int :=
  let tp := tangentPoint tx rx
  sign ((sub tp tx).dot (sub tp rx))

/-- `np.divide(a, np.linalg.norm(a, axis=0))` (`src/tatc/analysis/ro_coverage.py` L226-L233). -/
noncomputable def unit (a : V3) : V3 := a.smul (1 / Real.sqrt (a.dot a))

/-- `rx_v_u` (`src/tatc/analysis/ro_coverage.py` L226-L228). -/
noncomputable def along (_rx w : V3) : V3 := unit w
/-- `rx_n_u` (`src/tatc/analysis/ro_coverage.py` L230-L231). -/
noncomputable def across (rx w : V3) : V3 := unit (rx.cross w)
/-- `rx_b_u` (`src/tatc/analysis/ro_coverage.py` L233). -/
noncomputable def up (rx _w : V3) : V3 := unit rx

/-- `rx_tx_pitch` (`src/tatc/analysis/ro_coverage.py` L101-L114). -/
noncomputable def pitch (tx rx w : V3) : ℝ :=
  let d := sub tx rx
  let plane := sub d ((across rx w).smul ((across rx w).dot d))
  degrees (arctan2 (plane.dot (up rx w)) (plane.dot (along rx w)))

/-- `rx_tx_yaw` (`src/tatc/analysis/ro_coverage.py` L105-L121). -/
noncomputable def yaw (tx rx w : V3) : ℝ :=
  let d := sub tx rx
  let plane := sub d ((up rx w).smul ((up rx w).dot d))
  degrees (arctan2 (plane.dot (across rx w)) (plane.dot (along rx w)))

/-- The test of the yaw angle (`src/tatc/analysis/ro_coverage.py` L127). -/
noncomputable def yawAccepted (yaw maxYaw : ℝ) : Bool := decide (npMod |yaw| (180 - maxYaw) < maxYaw)

/-- `valid` (`src/tatc/analysis/ro_coverage.py` L127). -/
noncomputable def valid (tx rx w : V3) (maxYaw : ℝ) : Bool :=
  decide (tangentSign tx rx < 0) && yawAccepted (yaw tx rx w) maxYaw

/-- A sample of an occultation (`src/tatc/analysis/ro_coverage.py` L161-L169) and whether it is valid (L127). -/
structure Sample where
  time : Int
  valid : Bool
  lon : ℝ
  lat : ℝ
  elevation : ℝ
  pitch : ℝ
  yaw : ℝ
  azimuth : ℝ

/-- `occ_arc` (`src/tatc/analysis/ro_coverage.py` L147-L151). -/
structure Arc where
  tx : String
  isRising : Bool
  points : List Sample

/-- One pass of the loop for a valid time (`src/tatc/analysis/ro_coverage.py` L129-L177); the state is `occ_obs` and
`occ_arc`, `n` is the number of times and `s` the samples. -/
noncomputable def arcStep (tx : String) (n : Nat) (s : Nat → Sample) (lo hi : ℝ)
    (state : List Arc × Option Arc) (j : Nat) : List Arc × Option Arc :=
  if (s j).elevation > lo ∧ (s j).elevation < hi then
    let arc := match state.2 with
      | none => (⟨tx, decide ((s j).pitch > -90), []⟩ : Arc)
      | some a => a
    let arc := { arc with points := arc.points ++ [s j] }
    if j + 1 ≥ n ∨ (s j).valid ≠ (s (j + 1)).valid then (state.1 ++ [arc], none) else (state.1, some arc)
  else
    match state.2 with
    | some a => (state.1 ++ [a], none)
    | none => state

/-- The loop over `np.nonzero(valid)` and the result (`src/tatc/analysis/ro_coverage.py` L123-L178). -/
noncomputable def collectArcs (tx : String) (n : Nat) (s : Nat → Sample) (lo hi : ℝ) : List Arc :=
  (((List.range n).filter fun j => (s j).valid).foldl (arcStep tx n s lo hi) ([], none)).1

/-- A transmitter: its name, and its position and velocity at a time (`src/tatc/analysis/ro_coverage.py` L35),
with the azimuth at which it is seen from a tangent point (L154-L159). -/
structure Transmitter where
  name : String
  position : Int → V3
  velocity : Int → V3
  azimuth : Int → ℝ × ℝ × ℝ → ℝ

/-- The geodetic position (longitude, latitude, elevation) of a point moving with a velocity
(`src/tatc/analysis/ro_coverage.py` L133-L139). -/
abbrev Geodetic := Int → V3 → V3 → ℝ × ℝ × ℝ

/-- The samples computed by `_collect_ro_series` (`src/tatc/analysis/ro_coverage.py` L35-L127, L133-L169); `rx` and `w`
are position and velocity of the receiver. -/
noncomputable def sampleAt (geo : Geodetic) (t : Transmitter) (rx w : Int → V3) (maxYaw : ℝ) (time : Int) : Sample :=
  let tp := geo time (tangentPoint (t.position time) (rx time))
    (tangentVelocity (t.position time) (rx time) (t.velocity time) (w time))
  { time := time
    valid := valid (t.position time) (rx time) (w time) maxYaw
    lon := tp.1
    lat := tp.2.1
    elevation := tp.2.2
    pitch := pitch (t.position time) (rx time) (w time)
    yaw := yaw (t.position time) (rx time) (w time)
    azimuth := t.azimuth time tp }

/-- `_collect_ro_series` (`src/tatc/analysis/ro_coverage.py` L24-L178). -/
noncomputable def collectSeries (geo : Geodetic) (rx w : Int → V3) (times : List Int) (maxYaw lo hi : ℝ)
    (t : Transmitter) : List Arc :=
  collectArcs t.name times.length (fun j => sampleAt geo t rx w maxYaw (times.getD j 0)) lo hi

/-- A row of the result (`src/tatc/analysis/ro_coverage.py` L259-L284). -/
structure Row where
  receiver : String
  transmitter : String
  isRising : Bool
  geometry : List (ℝ × ℝ × ℝ)
  position : ℝ × ℝ × ℝ
  pitch : ℝ
  yaw : ℝ
  azimuth : ℝ
  start : Int
  end_ : Int
  time : Int

/-- A row for an arc (`src/tatc/analysis/ro_coverage.py` L259-L293): the sample with the least distance from the
sample elevation, the first of them.  `min` of an empty range raises. -/
noncomputable def makeRow (receiver : String) (sampleElevation : ℝ) (arc : Arc) : Except PyErr Row := do
  let index ← match (List.range arc.points.length).argmin
      (fun i => |((arc.points[i]?.map (·.elevation)).getD 0) - sampleElevation|) with
    | some i => .ok i
    | none => .error .valueError
  match arc.points[index]?, arc.points.head?, arc.points.getLast? with
  | some p, some first, some last =>
    return { receiver := receiver
             transmitter := arc.tx
             isRising := arc.isRising
             geometry := arc.points.map fun q => (q.lon, q.lat, q.elevation)
             position := (p.lon, p.lat, p.elevation)
             pitch := p.pitch
             yaw := p.yaw
             azimuth := p.azimuth
             start := first.time
             end_ := last.time
             time := p.time }
  | _, _, _ => .error .indexError

/-- `collect_ro_observations` (`src/tatc/analysis/ro_coverage.py` L204-L296) for a list of transmitters. -/
noncomputable def collectRo (sort : SortValues Row.time) (geo : Geodetic) (receiver : String) (rx w : Int → V3)
    (transmitters : List Transmitter) (times : List Int) (sampleElevation maxYaw lo hi : ℝ) :
    Except PyErr (List Row) := do
  let arcs := transmitters.flatMap (collectSeries geo rx w times maxYaw lo hi)
  if arcs.length = 0 then return []
  return sort.run (← arcs.mapM (makeRow receiver sampleElevation))

end Tatc.Ro
