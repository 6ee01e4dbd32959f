import Mathlib.Data.Option.Basic
import Mathlib.Tactic.Lemma

/-!
# Model of the cached conversions

`to_tle` of `CircularOrbit`, `SunSynchronousOrbit`, `KeplerianOrbit` and `MolniyaOrbit`
(`src/tatc/schemas/orbit.py` L790-L815, L903-L928, L982-L1019, L1100-L1137), the cached epochs of
`get_closest_tle_index` (L406-L413), and `get_repeat_cycle` (L474-L552).
-/

namespace Tatc.Cache

/-- An orbit object: its fields and the value stored in `__dict__["tle"]` (or
`__dict__["tle_epochs"]`).
(`src/tatc/schemas/orbit.py` L802-L814, L407-L413). -/
structure Object (F T : Type) where
  fields : F
  cache : Option T

/-- A freshly constructed object has nothing stored.
(`src/tatc/schemas/orbit.py` L751-L762). -/
def fresh {F T : Type} (f : F) : Object F T := ⟨f, none⟩

/-- `to_tle(lazy_load)` (`src/tatc/schemas/orbit.py` L800-L815 and the other classes): the stored
value is used when loading lazily, otherwise the conversion is done and stored.  `convert` is the
conversion itself (`KeplerianOrbit(...).to_tle()` or the SGP4 export).  The epochs of
`get_closest_tle_index` (L406-L413) are the case `lazy = true`. -/
def toTle {F T : Type} (convert : F → T) (lazy : Bool) (s : Object F T) : T × Object F T :=
  let tle := if lazy then s.cache else none
  match tle with
  | some t => (t, s)
  | none => (convert s.fields, { s with cache := some (convert s.fields) })

/-- Operations on an orbit object.  `assign` is attribute assignment (or `model_copy(update=...)`):
pydantic sets the field and leaves other `__dict__` entries alone.
(`src/tatc/schemas/orbit.py` L790-L815). -/
inductive Op (F : Type)
  | call (lazy : Bool)
  | assign (f : F)

/-- One operation: the answer (of a call) and the new object.
(`src/tatc/schemas/orbit.py` L790-L815). -/
def step {F T : Type} (convert : F → T) (s : Object F T) : Op F → Option T × Object F T
  | .call lazy => let r := toTle convert lazy s; (some r.1, r.2)
  | .assign f => (none, { s with fields := f })

/-- A history of operations: the answers and the final object.
(`src/tatc/schemas/orbit.py` L790-L815). -/
def run {F T : Type} (convert : F → T) : Object F T → List (Op F) → List (Option T) × Object F T
  | s, [] => ([], s)
  | s, op :: ops =>
    let r := step convert s op
    let rest := run convert r.2 ops
    (r.1 :: rest.1, rest.2)

/-! ## Repeat cycle -/

/-- `get_repeat_cycle(args, lazy_load)` (`src/tatc/schemas/orbit.py` L509-L552): `search` is the
search for the first repeat, `none` if there is none; the stored value is a `timedelta`
(microseconds), zero for "none". -/
def getRepeatCycle {A : Type} (search : A → Option Int) (args : A) (lazy : Bool)
    (stored : Option Int) : Option Int × Option Int :=
  let loaded := if lazy then stored else none
  let value := match loaded with
    | some v => v
    | none => (search args).getD 0
  (if 0 < value then some value else none, some value)

/-- A history of repeat-cycle queries on one object: the answers.
(`src/tatc/schemas/orbit.py` L509-L552). -/
def runCycle {A : Type} (search : A → Option Int) : Option Int → List (A × Bool) → List (Option Int)
  | _, [] => []
  | stored, (args, lazy) :: rest =>
    let r := getRepeatCycle search args lazy stored
    r.1 :: runCycle search r.2 rest

end Tatc.Cache
