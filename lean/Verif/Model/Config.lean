import Verif.Model.Py
import Mathlib.Data.Real.Basic

/-!
# Model of the runtime configuration

`src/tatc/config.py`.  What the YAML parser makes of a file is a parameter, and so is pydantic's reading of a value as
an integer, a number or a truth value.  NaN and infinite numbers are not modelled.
-/

namespace Tatc.Config
open scoped Classical

/-- A YAML value as `yaml.safe_load` gives it (`src/tatc/config.py` L77). -/
inductive Yaml
  | null
  | bool (b : Bool)
  | int (i : Int)
  | float (x : ℝ)
  | str (s : String)
  | list (l : List Yaml)
  | map (m : List (Yaml × Yaml))
  | date

/-- What reading and parsing a path comes to (`src/tatc/config.py` L73-L77): there is nothing; it cannot be opened; it is no
UTF-8 text; the parser, or else the scanner, composer or constructor, refuses it; or it is a value. -/
inductive Document
  | missing
  | unreadable
  | undecodable
  | parserError
  | otherYamlError
  | value (y : Yaml)

/-- pydantic's reading of a value as a field's type (`src/tatc/config.py` L25-L60). -/
structure Reading where
  int : Yaml → Option Int
  float : Yaml → Option ℝ
  bool : Yaml → Option Bool

/-- `RuntimeConfiguration` (`src/tatc/config.py` L20-L60). -/
structure RuntimeConfig where
  pointsElliptical : Int
  pointsRectangularSide : Int
  deltaPosition : ℝ
  deltaVelocity : ℝ
  searchElevation : ℝ
  searchDuration : ℝ
  lazyLoad : Bool
  forOrbitTrack : Bool
  forObservationEvents : Bool
  tleLazyLoad : Bool

/-- `RuntimeConfiguration()` (`src/tatc/config.py` L25-L60, L93). -/
noncomputable def defaults : RuntimeConfig := ⟨32, 8, 10000, 10, 88, 30, true, true, true, true⟩

/-- One field: its default if the key is absent, otherwise the value read as its type and checked
(`src/tatc/config.py` L25-L60). -/
noncomputable def field {α : Type} (m : List (String × Yaml)) (key : String) (default : α) (read : Yaml → Option α)
    (ok : α → Prop) : Except PyErr α :=
  match m.lookup key with
  | none => .ok default
  | some v => match read v with
    | none => .error .validationError
    | some a => if ok a then .ok a else .error .validationError

/-- `RuntimeConfiguration(**config)` of a mapping with text keys; other keys are ignored (`src/tatc/config.py` L81). -/
noncomputable def construct (r : Reading) (m : List (String × Yaml)) : Except PyErr RuntimeConfig := do
  let pointsElliptical ← field m "footprint_points_elliptical" 32 r.int (fun n => 4 ≤ n)
  let pointsRectangularSide ← field m "footprint_points_rectangular_side" 8 r.int (fun n => 1 ≤ n)
  let deltaPosition ← field m "repeat_cycle_delta_position_m" 10000 r.float (fun x => 0 < x)
  let deltaVelocity ← field m "repeat_cycle_delta_velocity_m_per_s" 10 r.float (fun x => 0 < x)
  let searchElevation ← field m "repeat_cycle_search_elevation_deg" 88 r.float (fun x => 0 < x)
  let searchDuration ← field m "repeat_cycle_search_duration_days" 30 r.float (fun _ => True)
  let lazyLoad ← field m "repeat_cycle_lazy_load" true r.bool (fun _ => True)
  let forOrbitTrack ← field m "repeat_cycle_for_orbit_track" true r.bool (fun _ => True)
  let forObservationEvents ← field m "repeat_cycle_for_observation_events" true r.bool (fun _ => True)
  let tleLazyLoad ← field m "orbit_tle_lazy_load" true r.bool (fun _ => True)
  return ⟨pointsElliptical, pointsRectangularSide, deltaPosition, deltaVelocity, searchElevation, searchDuration,
    lazyLoad, forOrbitTrack, forObservationEvents, tleLazyLoad⟩

/-- The keyword arguments of a mapping, if all its keys are text (`src/tatc/config.py` L81). -/
def keywords : List (Yaml × Yaml) → Option (List (String × Yaml))
  | [] => some []
  | (.str k, v) :: t => (keywords t).map fun m => (k, v) :: m
  | _ :: _ => none

/-- `load_yaml_config` (`src/tatc/config.py` L63-L83). -/
noncomputable def load (r : Reading) : Document → Except PyErr RuntimeConfig
  | .missing => .error .configError
  | .unreadable => .error .fileError
  | .undecodable => .error .valueError
  | .parserError => .error .configError
  | .otherYamlError => .error .yamlError
  | .value (.map m) => match keywords m with
    | none => .error .typeError
    | some m => match construct r m with
      | .error .validationError => .error .configError
      | e => e
  | .value _ => .error .typeError

/-- The configuration at import (`src/tatc/config.py` L86-L93). -/
noncomputable def atImport (r : Reading) (d : Document) : Except PyErr RuntimeConfig :=
  match load r d with
  | .error .configError => .ok defaults
  | e => e

end Tatc.Config
