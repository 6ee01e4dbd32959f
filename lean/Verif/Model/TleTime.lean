import Verif.Model.Pandas
import Verif.Model.Coverage
import Verif.Model.Py

/-!
# Model of the time handling of `TwoLineElements`

`src/tatc/schemas/orbit.py` L391-L472 and L554-L690.  Times are integer microseconds
(`datetime`), durations integer microseconds (`timedelta`).
-/

namespace Tatc.TleTime
open Tatc.Pandas Tatc.Coverage

/-- `np.searchsorted(epochs, t, side="left")` on an ascending array: the number of elements
before `t`.
(`src/tatc/schemas/orbit.py` L416, L428). -/
def searchsortedLeft (epochs : List Int) (t : Int) : Nat :=
  (epochs.takeWhile fun e => decide (e < t)).length

/-- Scalar case of `get_closest_tle_index` (`src/tatc/schemas/orbit.py` L414-L426).  Indices past
the end never arise (see the bounds in the theorems); `getD` stands for the array access. -/
def closestIndex (epochs : List Int) (t : Int) : Nat :=
  let idx := searchsortedLeft epochs t
  if 0 < idx ∧ (idx = epochs.length ∨ |t - epochs.getD (idx - 1) 0| < |t - epochs.getD idx 0|)
  then idx - 1 else idx

/-- Vector case of `get_closest_tle_index` (`src/tatc/schemas/orbit.py` L427-L441). -/
def closestIndices (epochs : List Int) (ts : List Int) : List Nat :=
  let indices := ts.map (searchsortedLeft epochs)
  indices.zipIdx.map fun p =>
    let idx := p.1
    let t := ts.getD p.2 0
    if 0 < idx ∧ (idx = epochs.length ∨ |t - epochs.getD (idx - 1) 0| < |t - epochs.getD idx 0|)
    then idx - 1 else idx

/-- `timedelta / 2`: microseconds, half to even.
(`src/tatc/schemas/orbit.py` L462). -/
def halfDelta (d : Int) : Int := roundHalfEven ((d : ℚ) / 2)

/-- `sorted[1:] + (sorted[:-1] - sorted[1:]) / 2` (`src/tatc/schemas/orbit.py` L461-L463). -/
def midpoints (epochs : List Int) : List Int :=
  List.zipWith (fun next prev => next + halfDelta (prev - next)) epochs.tail epochs.dropLast

/-- `partition_by_tle_index` (`src/tatc/schemas/orbit.py` L443-L472).  The epochs are ascending
(validated at construction), so `np.sort` returns them unchanged.  `argsort` is the result of
`np.argsort(epochs)`. -/
def partitionByTle (argsort : List Nat) (epochs : List Int) (start end_ : Int) :
    List Int × List Nat :=
  if epochs.length ≤ 1 then ([start, end_], [0, 0])
  else
    let mids := midpoints epochs
    let sel := mids.zipIdx.filter fun p => decide (start < p.1) && decide (p.1 < end_)
    ([start] ++ sel.map Prod.fst ++ [end_],
      [closestIndex epochs start] ++ sel.map (fun p => argsort.getD p.2 0) ++
        [closestIndex epochs end_])

/-- Time actually propagated by `get_orbit_track` when a repeat cycle is used
(`src/tatc/schemas/orbit.py` L592-L610): `epoch + sign(offset) * mod(abs(offset), cycle)`. -/
def repeatTime (epoch cycle t : Int) : Int :=
  epoch + (t - epoch).sign * (|t - epoch| % cycle)

/-- `get_orbit_track` for a single element set (`src/tatc/schemas/orbit.py` L587-L616):
the time propagated for a requested time; `cycle` is the result of `get_repeat_cycle`. -/
def propagatedTime (tryRepeat : Bool) (epoch : Int) (cycle : Option Int) (t : Int) : Int :=
  if tryRepeat then
    match cycle with
    | some c => repeatTime epoch c t
    | none => t
  else t

/-- The repeat branch of `get_observation_events` (`src/tatc/schemas/orbit.py` L663-L686):
`base` are the events found in `[start, start + cycle]`.  `ceil` of the float quotient is
modelled by the exact ceiling. -/
def repeatEvents (start end_ cycle : Int) (base : List (Int × EventKind)) :
    List (Int × EventKind) :=
  if base.isEmpty then []
  else
    let n := ⌈((end_ - start : Int) : ℚ) / (cycle : ℚ)⌉.toNat
    let all := (List.range n).flatMap fun i : Nat => base.map fun e => (e.1 + (i : Int) * cycle, e.2)
    all.filter fun e => decide (e.1 ≤ end_)

/-- `get_observation_events` for one element set (`src/tatc/schemas/orbit.py` L661-L690).
`find a b` is skyfield's `find_events` between `a` and `b`. -/
def observationEvents (tryRepeat : Bool) (cycle : Option Int)
    (find : Int → Int → List (Int × EventKind)) (start end_ : Int) : List (Int × EventKind) :=
  if tryRepeat then
    match cycle with
    | some c =>
      if c < end_ - start then repeatEvents start end_ c (find start (start + c))
      else find start end_
    | none => find start end_
  else find start end_

/-- `get_observation_events` for several element sets (`src/tatc/schemas/orbit.py` L643-L660).
`find i a b` is `find_events` of element set `i` between `a` and `b`. -/
def multiEvents (argsort : List Nat) (epochs : List Int)
    (find : Nat → Int → Int → List (Int × EventKind)) (start end_ : Int) :
    List (Int × EventKind) :=
  let p := partitionByTle argsort epochs start end_
  (List.range (p.1.length - 1)).flatMap fun i =>
    find (p.2.getD i 0) (p.1.getD i 0) (p.1.getD (i + 1) 0)

end Tatc.TleTime
