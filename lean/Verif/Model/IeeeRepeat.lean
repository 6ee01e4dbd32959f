import Verif.Model.Ieee
import Verif.Model.TleTime

/-!
# Floating point arithmetic of the number of repeat cycles
-/

namespace Tatc.Ieee
open Tatc.Num Tatc.Coverage

/-- `int(np.ceil((end - start) / repeat_cycle))` (`src/tatc/schemas/orbit.py` L671): the quotient of two time differences,
whole numbers of microseconds, is rounded to a double precision number. -/
noncomputable def numberCycles (start end_ cycle : Int) : Int := ⌈fl (((end_ - start : Int) : ℝ) / (cycle : ℝ))⌉

/-- The events of the cycles (`src/tatc/schemas/orbit.py` L671-L686). -/
noncomputable def repeatEvents (start end_ cycle : Int) (base : List (Int × EventKind)) : List (Int × EventKind) :=
  if base.isEmpty then []
  else
    let all := (List.range (numberCycles start end_ cycle).toNat).flatMap fun i : Nat =>
      base.map fun e => (e.1 + (i : Int) * cycle, e.2)
    all.filter fun e => decide (e.1 ≤ end_)

/-- `get_observation_events` for one element set (`src/tatc/schemas/orbit.py` L661-L690). `find a b` is skyfield's
`find_events` between `a` and `b`. -/
noncomputable def observationEvents (tryRepeat : Bool) (cycle : Option Int)
    (find : Int → Int → List (Int × EventKind)) (start end_ : Int) : List (Int × EventKind) :=
  if tryRepeat then
    match cycle with
    | some c =>
      if c < end_ - start then repeatEvents start end_ c (find start (start + c))
      else find start end_
    | none => find start end_
  else find start end_

end Tatc.Ieee
