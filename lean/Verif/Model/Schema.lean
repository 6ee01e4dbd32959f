import Mathlib.Data.Rat.Defs
import Mathlib.Algebra.Order.Ring.Rat
import Verif.Model.Py

/-!
# Objects made from data and written back to data

The classes of `src/tatc/schemas` are pydantic models: an object is made by checking the values given for
its fields, and `model_dump` writes the values of the fields that a class *declares*.  Here the declarations are tables
and one pair of functions reads and writes them.

Simplifications.  Values are accepted only in the type of the field (pydantic also turns, for example, the text
"50" into the number 50).  Numbers are rational.  Keys are listed in the order of the declarations.
-/

namespace Tatc.Schema
open Tatc

/-- The values of the fields that are not objects: `None`, `bool`, `float`/`int`, `str`, `timedelta`, `time`,
`datetime` (microseconds) and the lines of two line elements
(for example `src/tatc/schemas/instrument.py` L34-L59 and `src/tatc/schemas/orbit.py` L32-L39). -/
inductive Scalar
  | none
  | bool (b : Bool)
  | num (q : ℚ)
  | text (s : String)
  | span (us : Int)
  | clock (us : Int)
  | time (us : Int)
  | lines (l : List String)
deriving DecidableEq, Repr

/-- Values under their keys: the keyword arguments of a class or the result of `model_dump`
(for example `src/tatc/schemas/satellite.py` L115-L121). -/
abbrev Doc := List (String × Scalar)

/-- One declaration `key: type = Field(default, constraints)`
(for example `src/tatc/schemas/instrument.py` L35-L41). -/
structure Field where
  key : String
  default : Option Scalar
  ok : Scalar → Bool

/-- `float` with a constraint (for example `src/tatc/schemas/orbit.py` L708). -/
def isNum (p : ℚ → Bool) : Scalar → Bool
  | .num q => p q
  | _ => false

/-- `int` with a constraint (for example `src/tatc/schemas/satellite.py` L77-L79). -/
def isInt (p : ℚ → Bool) : Scalar → Bool := isNum fun q => decide (q.den = 1) && p q

/-- `str` (for example `src/tatc/schemas/satellite.py` L34-L38). -/
def isText : Scalar → Bool
  | .text _ => true
  | _ => false

/-- `bool` (for example `src/tatc/schemas/satellite.py` L84-L87). -/
def isBool : Scalar → Bool
  | .bool _ => true
  | _ => false

/-- `Optional[bool]` (for example `src/tatc/schemas/instrument.py` L47-L51). -/
def isFlag : Scalar → Bool
  | .bool _ => true
  | .none => true
  | _ => false

/-- `timedelta` (for example `src/tatc/schemas/satellite.py` L80-L83). -/
def isSpan : Scalar → Bool
  | .span _ => true
  | _ => false

/-- `time` (`src/tatc/schemas/orbit.py` L830-L832). -/
def isClock : Scalar → Bool
  | .clock _ => true
  | _ => false

/-- `Optional[datetime]` (`src/tatc/schemas/orbit.py` L709-L712). -/
def isEpoch : Scalar → Bool
  | .time _ => true
  | .none => true
  | _ => false

/-- `Literal[s]` with default `s` (for example `src/tatc/schemas/orbit.py` L32). -/
def literal (s : String) : Field := ⟨"type", some (.text s), fun v => decide (v = .text s)⟩

/-- What the declarations depend on: the time at which the module is imported (microseconds), which is
the default epoch because `datetime.now` is evaluated with the class body (`src/tatc/schemas/orbit.py`
L709-L712), and the three validators of two line elements (`src/tatc/schemas/orbit.py` L33-L38). -/
structure Env where
  imported : Int
  tleOk : List String → Bool

/-- The classes whose fields are all scalars: instruments (`src/tatc/schemas/instrument.py` L29, L177), orbits
(`src/tatc/schemas/orbit.py` L27, L751, L818, L931, L1022, L1140), points and ground stations
(`src/tatc/schemas/point.py` L13, L39). -/
inductive Cls
  | instrument | pointed
  | tle | circular | sso | keplerian | molniya | tundra
  | station | point
deriving DecidableEq, Repr

/-- Direct base classes among these (`src/tatc/schemas/instrument.py` L177, `src/tatc/schemas/orbit.py` L931,
L1140). -/
def Cls.base : Cls → Option Cls
  | .pointed => some .instrument
  | .keplerian => some .circular
  | .tundra => some .molniya
  | _ => none

/-- `issubclass(c, d)` (`src/tatc/schemas/instrument.py` L177, `src/tatc/schemas/orbit.py` L931, L1140). -/
def Cls.isSub (c d : Cls) : Bool := decide (c = d ∨ c.base = some d)

/-- The fields of `Instrument` (`src/tatc/schemas/instrument.py` L34-L59). -/
def instrumentFields : List Field := [
  ⟨"name", some (.text "Default"), isText⟩,
  ⟨"field_of_regard", some (.num 180), isNum fun q => decide (0 < q) && decide (q ≤ 360)⟩,
  ⟨"min_access_time", some (.span 0), isSpan⟩,
  ⟨"req_self_sunlit", some .none, isFlag⟩,
  ⟨"req_target_sunlit", some .none, isFlag⟩,
  ⟨"access_time_fixed", some (.bool false), isBool⟩]

/-- The fields that `PointedInstrument` adds (`src/tatc/schemas/instrument.py` L182-L220). -/
def pointingFields : List Field := [
  ⟨"cross_track_field_of_view", none, isNum fun q => decide (0 < q) && decide (q ≤ 180)⟩,
  ⟨"along_track_field_of_view", none, isNum fun q => decide (0 < q) && decide (q ≤ 180)⟩,
  ⟨"roll_angle", some (.num 0), isNum fun q => decide (-180 ≤ q) && decide (q ≤ 180)⟩,
  ⟨"pitch_angle", some (.num 0), isNum fun q => decide (-180 ≤ q) && decide (q ≤ 180)⟩,
  ⟨"is_rectangular", some (.bool false), isBool⟩,
  ⟨"cross_track_pixels", some (.num 1), isInt fun q => decide (1 ≤ q)⟩,
  ⟨"along_track_pixels", some (.num 1), isInt fun q => decide (1 ≤ q)⟩,
  ⟨"cross_track_oversampling", some (.num 0), isNum fun q => decide (0 ≤ q) && decide (q < 1)⟩,
  ⟨"along_track_oversampling", some (.num 0), isNum fun q => decide (0 ≤ q) && decide (q < 1)⟩]

/-- An angle in [0, 360) (for example `src/tatc/schemas/orbit.py` L708). -/
def angle (key : String) (default : ℚ) : Field :=
  ⟨key, some (.num default), isNum fun q => decide (0 ≤ q) && decide (q < 360)⟩

/-- `true_anomaly` and `epoch` of `OrbitBase` (`src/tatc/schemas/orbit.py` L708-L712). -/
def orbitBase (env : Env) : List Field := [
  angle "true_anomaly" 0,
  ⟨"epoch", some (.time env.imported), isEpoch⟩]

/-- `altitude` of `OrbitBase` (`src/tatc/schemas/orbit.py` L707). -/
def altitude : Field := ⟨"altitude", none, isNum fun _ => true⟩

/-- `inclination` (`src/tatc/schemas/orbit.py` L759, L1028, L1146). -/
def inclination (default : ℚ) : Field :=
  ⟨"inclination", some (.num default), isNum fun q => decide (0 ≤ q) && decide (q < 180)⟩

/-- `orbital_period` (`src/tatc/schemas/orbit.py` L1032, L1147). -/
def orbitalPeriod (default : ℚ) : Field := ⟨"orbital_period", some (.num default), isNum fun q => decide (0 < q)⟩

/-- `eccentricity` (`src/tatc/schemas/orbit.py` L939, L1151). -/
def eccentricity (default : ℚ) : Field := ⟨"eccentricity", some (.num default), isNum fun q => decide (0 ≤ q)⟩

/-- The fields of each class (`src/tatc/schemas/orbit.py` L32-L49, L707-L712, L756-L762, L823-L836, L936-L942,
L1027-L1035, L1145-L1151; `src/tatc/schemas/instrument.py` L34-L59, L182-L220; `src/tatc/schemas/point.py`
L18-L36, L44-L74). -/
def Cls.fields (env : Env) : Cls → List Field
  | .instrument => instrumentFields
  | .pointed => instrumentFields ++ pointingFields
  | .tle => [literal "tle",
      ⟨"tle", none, fun v => match v with
        | .lines l => decide (2 ≤ l.length) && env.tleOk l
        | _ => false⟩]
  | .circular => altitude :: orbitBase env ++
      [literal "circular", inclination 0, angle "right_ascension_ascending_node" 0]
  | .sso => ⟨"altitude", none, isNum fun q => decide (0 ≤ q) && decide (q < 12352000 - (2 * 6378137 + 6356752314245179 / 1000000000) / 3)⟩ ::
      orbitBase env ++ [literal "sso", ⟨"equator_crossing_time", none, isClock⟩,
        ⟨"equator_crossing_ascending", some (.bool true), isBool⟩]
  | .keplerian => altitude :: orbitBase env ++
      [literal "keplerian", inclination 0, angle "right_ascension_ascending_node" 0, eccentricity 0,
        angle "perigee_argument" 0]
  | .molniya => altitude :: orbitBase env ++
      [literal "molniya", inclination 0, angle "right_ascension_ascending_node" 0, orbitalPeriod 43080,
        angle "perigee_argument" 0]
  | .tundra => altitude :: orbitBase env ++
      [literal "tundra", inclination (634 / 10), angle "right_ascension_ascending_node" 0, orbitalPeriod 86400,
        angle "perigee_argument" 270, eccentricity (2 / 10)]
  | .station => [⟨"name", none, isText⟩,
      ⟨"latitude", none, isNum fun q => decide (-90 ≤ q) && decide (q ≤ 90)⟩,
      ⟨"longitude", none, isNum fun q => decide (-180 ≤ q) && decide (q ≤ 180)⟩,
      ⟨"elevation", some (.num 0), isNum fun _ => true⟩,
      ⟨"min_elevation_angle", some (.num 0), isNum fun q => decide (0 ≤ q) && decide (q ≤ 90)⟩,
      ⟨"min_access_time", some (.span 0), isSpan⟩]
  | .point => [⟨"id", none, isInt fun q => decide (0 ≤ q)⟩,
      ⟨"latitude", none, isNum fun q => decide (-90 ≤ q) && decide (q ≤ 90)⟩,
      ⟨"longitude", none, isNum fun q => decide (-180 ≤ q) && decide (q ≤ 180)⟩,
      ⟨"elevation", some (.num 0), isNum fun _ => true⟩]

/-- An object: its class and the values of its fields (for example `src/tatc/schemas/instrument.py` L29-L59). -/
structure Obj where
  cls : Cls
  vals : Doc
deriving DecidableEq, Repr

/-- One field is read from the data: the value is checked; without one the default is taken, unchecked; other
keys are ignored (for example `src/tatc/schemas/instrument.py` L35-L41). -/
def readField (doc : Doc) (f : Field) : Except PyErr (String × Scalar) :=
  match doc.lookup f.key with
  | some v => if f.ok v then .ok (f.key, v) else .error .validationError
  | none => match f.default with
    | some v => .ok (f.key, v)
    | none => .error .validationError

/-- `Class(**data)` and `Class.model_validate(data)` (for example `src/tatc/schemas/instrument.py` L29-L59). -/
def readObj (env : Env) (c : Cls) (doc : Doc) : Except PyErr Obj := do
  let vals ← (c.fields env).mapM (readField doc)
  return ⟨c, vals⟩

/-- The values that declarations `fields` write, whatever the object
(for example `src/tatc/schemas/instrument.py` L34-L59). -/
def writeFields (fields : List Field) (vals : Doc) : Doc :=
  fields.filterMap fun f => (vals.lookup f.key).map fun v => (f.key, v)

/-- An object written as an object of class `c`: the keys that `c` declares
(for example `src/tatc/schemas/satellite.py` L42-L44, where `c` is `Instrument` whatever the object is). -/
def writeObj (env : Env) (c : Cls) (o : Obj) : Doc := writeFields (c.fields env) o.vals

/-- A value given for a field that holds an object: data, or an object already made
(for example `src/tatc/schemas/satellite.py` L115-L121). -/
abbrev Given := Doc ⊕ Obj

/-- A field of class `c` takes data for `c`, or an object of `c` or of a class derived from it, which is kept as it
is (for example `src/tatc/schemas/satellite.py` L42-L44). -/
def acceptObj (env : Env) (c : Cls) : Given → Except PyErr Obj
  | .inl doc => readObj env c doc
  | .inr o => if o.cls.isSub c then .ok o else .error .validationError

/-- A field of several classes takes what one of them takes (`src/tatc/schemas/satellite.py` L39-L41).  When
several do, pydantic has rules of preference, which are left out: the first is taken. -/
def acceptUnion (env : Env) (cs : List Cls) (g : Given) : Except PyErr Obj :=
  match cs.findSome? fun c => (acceptObj env c g).toOption with
  | some o => .ok o
  | none => .error .validationError

/-- A field of several classes writes an object as its own class if that is one of them, and otherwise as the first
that it is derived from (`src/tatc/schemas/satellite.py` L39-L41). -/
def writeUnion (env : Env) (cs : List Cls) (o : Obj) : Doc :=
  if o.cls ∈ cs then writeObj env o.cls o
  else match cs.find? o.cls.isSub with
    | some c => writeObj env c o
    | none => o.vals

/-! ## Satellites and constellations -/

/-- `src/tatc/schemas/satellite.py` L47, L66, L141, L266, L400. -/
inductive SysCls
  | satellite | train | walker | mog | soc
deriving DecidableEq, Repr

/-- All constellations are derived from `Satellite` (`src/tatc/schemas/satellite.py` L66, L141, L266, L400). -/
def SysCls.isSub (c d : SysCls) : Bool := decide (c = d ∨ d = .satellite)

/-- `number_satellites` and the like (`src/tatc/schemas/satellite.py` L77-L79, L155-L173, L291-L293). -/
def count (key : String) (least default : ℚ) : Field :=
  ⟨key, some (.num default), isInt fun q => decide (least ≤ q)⟩

/-- The fields that are not objects (`src/tatc/schemas/satellite.py` L34-L38, L52-L54, L71-L87, L146-L173, L276-L293,
L411-L420). -/
def SysCls.fields : SysCls → List Field
  | .satellite => [⟨"name", none, isText⟩, literal "satellite"]
  | .train => [⟨"name", none, isText⟩, literal "train", count "number_satellites" 1 1,
      ⟨"interval", none, isSpan⟩, ⟨"repeat_ground_track", some (.bool true), isBool⟩]
  | .walker => [⟨"name", none, isText⟩, literal "walker",
      ⟨"configuration", some (.text "delta"), fun v => decide (v = .text "delta" ∨ v = .text "star")⟩,
      count "number_satellites" 1 1, count "number_planes" 1 1, count "relative_spacing" 0 0]
  | .mog => [⟨"name", none, isText⟩, literal "mog",
      ⟨"parallel_axis", none, isNum fun q => decide (0 < q)⟩,
      ⟨"transverse_axis", none, isNum fun q => decide (0 < q)⟩,
      ⟨"clockwise", some (.bool true), isBool⟩, count "number_satellites" 1 2]
  | .soc => [⟨"name", none, isText⟩, literal "soc",
      ⟨"swath_width", none, isNum fun q => decide (0 < q)⟩,
      ⟨"packing_distance", none, isNum fun q => decide (0 < q) && decide (q ≤ 1)⟩]

/-- The classes declared for the orbit (`src/tatc/schemas/satellite.py` L39-L41, L74-L76, L152-L154, L277-L279,
L412-L414). -/
def SysCls.orbits : SysCls → List Cls
  | .satellite => [.tle, .circular, .sso, .keplerian]
  | .train | .walker => [.tle, .sso, .circular, .keplerian]
  | .mog | .soc => [.circular]

/-- The number under a key, 0 when there is none (`src/tatc/schemas/satellite.py` L180-L184). -/
def numAt (vals : Doc) (key : String) : ℚ :=
  match vals.lookup key with
  | some (.num q) => q
  | _ => 0

/-- The model validators: `number_planes_le_number_satellites` and `relative_spacing_lt_number_planes` of
`WalkerConstellation` (`src/tatc/schemas/satellite.py` L175-L199). -/
def SysCls.check (c : SysCls) (vals : Doc) : Bool :=
  match c with
  | .walker => decide (numAt vals "number_planes" ≤ numAt vals "number_satellites") &&
      decide (numAt vals "relative_spacing" < numAt vals "number_planes")
  | _ => true

/-- A satellite or constellation (`src/tatc/schemas/satellite.py` L29-L45). -/
structure Sys where
  cls : SysCls
  vals : Doc
  orbit : Obj
  instruments : List Obj
deriving DecidableEq, Repr

/-- The keyword arguments of a satellite or constellation, or its dump
(`src/tatc/schemas/satellite.py` L34-L44). -/
structure SysDoc where
  vals : Doc
  orbit : Option Given
  instruments : Option (List Given)

/-- The orbit of a satellite: required (`src/tatc/schemas/satellite.py` L39-L41). -/
def readOrbit (env : Env) (cs : List Cls) : Option Given → Except PyErr Obj
  | some g => acceptUnion env cs g
  | none => .error .validationError

/-- The instruments of a satellite: without any there is one default instrument
(`src/tatc/schemas/satellite.py` L42-L44). -/
def readInstruments (env : Env) : Option (List Given) → Except PyErr (List Obj)
  | some gs => gs.mapM (acceptObj env .instrument)
  | none => (readObj env .instrument []).map fun i => [i]

/-- `Satellite(**data)` and the constellations (`src/tatc/schemas/satellite.py` L29-L45, L175-L199).  An empty list of
instruments is refused. -/
def readSys (env : Env) (c : SysCls) (doc : SysDoc) : Except PyErr Sys := do
  let vals ← c.fields.mapM (readField doc.vals)
  let orbit ← readOrbit env c.orbits doc.orbit
  let instruments ← readInstruments env doc.instruments
  require (instruments ≠ []) .validationError
  require (c.check vals = true) .validationError
  return ⟨c, vals, orbit, instruments⟩

/-- A satellite or constellation written as one of class `c`: `model_dump`
(`src/tatc/schemas/satellite.py` L29-L45). -/
def writeSys (env : Env) (c : SysCls) (s : Sys) : SysDoc where
  vals := writeFields c.fields s.vals
  orbit := some (.inl (writeUnion env c.orbits s.orbit))
  instruments := some (s.instruments.map fun i => .inl (writeObj env .instrument i))

/-! ## Architectures -/

/-- The classes declared for the satellites of an architecture (`src/tatc/schemas/architecture.py` L27-L29). -/
def archClasses : List SysCls := [.satellite, .train, .walker, .mog]

/-- One entry of the satellites of an architecture: as for orbits
(`src/tatc/schemas/architecture.py` L27-L29). -/
def acceptSys (env : Env) (g : SysDoc ⊕ Sys) : Except PyErr Sys :=
  match archClasses.findSome? fun c => (match g with
    | .inl doc => readSys env c doc
    | .inr s => if s.cls.isSub c then .ok s else .error .validationError).toOption with
  | some s => .ok s
  | none => .error .validationError

/-- `Architecture` (`src/tatc/schemas/architecture.py` L21-L32). -/
structure Arch where
  name : String
  satellites : List Sys
  stations : List Obj
deriving DecidableEq, Repr

/-- The keyword arguments of an architecture, or its dump (`src/tatc/schemas/architecture.py` L26-L32). -/
structure ArchDoc where
  name : String
  satellites : List (SysDoc ⊕ Sys)
  stations : List Given

/-- `Architecture(**data)` (`src/tatc/schemas/architecture.py` L21-L32). -/
def readArch (env : Env) (doc : ArchDoc) : Except PyErr Arch := do
  let satellites ← doc.satellites.mapM (acceptSys env)
  let stations ← doc.stations.mapM (acceptObj env .station)
  return ⟨doc.name, satellites, stations⟩

/-- An entry of the satellites of an architecture written out: as its own class if that is declared, and otherwise
as a `Satellite` (`src/tatc/schemas/architecture.py` L27-L29). -/
def writeEntry (env : Env) (s : Sys) : SysDoc :=
  if s.cls ∈ archClasses then writeSys env s.cls s else writeSys env .satellite s

/-- `Architecture.model_dump` (`src/tatc/schemas/architecture.py` L21-L32). -/
def writeArch (env : Env) (a : Arch) : ArchDoc where
  name := a.name
  satellites := a.satellites.map fun s => .inl (writeEntry env s)
  stations := a.stations.map fun o => .inl (writeObj env .station o)

end Tatc.Schema
