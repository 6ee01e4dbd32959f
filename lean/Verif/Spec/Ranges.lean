import Verif.Model.Schema

/-!
# The documented values

What the documentation of each class says about its arguments: which must be given, the type and range
of each and the value that stands in for one that is left out.
-/

namespace Tatc.Spec
open Tatc.Schema

/-- The value given under a name, `none` for one left out. -/
def given (doc : Doc) (key : String) : Option Scalar := doc.lookup key

/-- Left out, or a number in a range. -/
def Number (v : Option Scalar) (range : ℚ → Prop) : Prop := v = none ∨ ∃ q, v = some (.num q) ∧ range q

/-- Left out, or an integer that is not below `least`. -/
def Count (v : Option Scalar) (least : ℤ) : Prop := v = none ∨ ∃ n : ℤ, v = some (.num n) ∧ least ≤ n

/-- Left out, or a text. -/
def Text (v : Option Scalar) : Prop := v = none ∨ ∃ s, v = some (.text s)

/-- Left out, or one of these texts. -/
def OneOf (v : Option Scalar) (texts : List String) : Prop := v = none ∨ ∃ s ∈ texts, v = some (.text s)

/-- Left out, or true or false. -/
def TrueFalse (v : Option Scalar) : Prop := v = none ∨ ∃ b, v = some (.bool b)

/-- Left out, or true or false or `None`. -/
def Requirement (v : Option Scalar) : Prop := v = none ∨ v = some .none ∨ ∃ b, v = some (.bool b)

/-- Left out, or a length of time. -/
def Duration (v : Option Scalar) : Prop := v = none ∨ ∃ d, v = some (.span d)

/-- Left out, or a time or `None`. -/
def Time (v : Option Scalar) : Prop := v = none ∨ v = some .none ∨ ∃ t, v = some (.time t)

/-- An instrument. -/
def InstrumentRanges (g : String → Option Scalar) : Prop :=
  Text (g "name") ∧
  Number (g "field_of_regard") (fun a => 0 < a ∧ a ≤ 360) ∧
  Duration (g "min_access_time") ∧
  Requirement (g "req_self_sunlit") ∧
  Requirement (g "req_target_sunlit") ∧
  TrueFalse (g "access_time_fixed")

/-- What a pointed instrument adds: its fields of view must be given. -/
def PointingRanges (g : String → Option Scalar) : Prop :=
  (∃ a, g "cross_track_field_of_view" = some (.num a) ∧ 0 < a ∧ a ≤ 180) ∧
  (∃ a, g "along_track_field_of_view" = some (.num a) ∧ 0 < a ∧ a ≤ 180) ∧
  Number (g "roll_angle") (fun a => -180 ≤ a ∧ a ≤ 180) ∧
  Number (g "pitch_angle") (fun a => -180 ≤ a ∧ a ≤ 180) ∧
  TrueFalse (g "is_rectangular") ∧
  Count (g "cross_track_pixels") 1 ∧
  Count (g "along_track_pixels") 1 ∧
  Number (g "cross_track_oversampling") (fun x => 0 ≤ x ∧ x < 1) ∧
  Number (g "along_track_oversampling") (fun x => 0 ≤ x ∧ x < 1)

/-- An altitude must be given, the true anomaly and the epoch may be. -/
def OrbitRanges (g : String → Option Scalar) (name : String) : Prop :=
  (∃ h, g "altitude" = some (.num h)) ∧
  Number (g "true_anomaly") (fun a => 0 ≤ a ∧ a < 360) ∧
  Time (g "epoch") ∧
  OneOf (g "type") [name]

/-- The plane of an orbit. -/
def PlaneRanges (g : String → Option Scalar) : Prop :=
  Number (g "inclination") (fun a => 0 ≤ a ∧ a < 180) ∧
  Number (g "right_ascension_ascending_node") (fun a => 0 ≤ a ∧ a < 360)

/-- A place must be given: latitude, longitude; its elevation may be. -/
def PlaceRanges (g : String → Option Scalar) : Prop :=
  (∃ a, g "latitude" = some (.num a) ∧ -90 ≤ a ∧ a ≤ 90) ∧
  (∃ a, g "longitude" = some (.num a) ∧ -180 ≤ a ∧ a ≤ 180) ∧
  Number (g "elevation") (fun _ => True)

/-- The documented arguments of each class; `g` is the value given under a name, `none` for one left out.
Sun synchronous orbits are below 12352 km from the centre of the sphere whose radius is the mean radius of the
WGS 84 ellipsoid, (2·6378137 + 6356752.314245179) / 3 m. -/
def Ranges (env : Env) (c : Cls) (g : String → Option Scalar) : Prop :=
  match c with
  | .instrument => InstrumentRanges g
  | .pointed => InstrumentRanges g ∧ PointingRanges g
  | .tle => OneOf (g "type") ["tle"] ∧
      ∃ lines, g "tle" = some (.lines lines) ∧ 2 ≤ lines.length ∧ env.tleOk lines = true
  | .circular => OrbitRanges g "circular" ∧ PlaneRanges g
  | .sso => OrbitRanges g "sso" ∧
      (∃ h, g "altitude" = some (.num h) ∧ 0 ≤ h ∧ 3 * h < 3 * 12352000 - (2 * 6378137 + 6356752.314245179)) ∧
      (∃ t, g "equator_crossing_time" = some (.clock t)) ∧
      TrueFalse (g "equator_crossing_ascending")
  | .keplerian => OrbitRanges g "keplerian" ∧ PlaneRanges g ∧
      Number (g "eccentricity") (fun e => 0 ≤ e) ∧
      Number (g "perigee_argument") (fun a => 0 ≤ a ∧ a < 360)
  | .molniya => OrbitRanges g "molniya" ∧ PlaneRanges g ∧
      Number (g "orbital_period") (fun t => 0 < t) ∧
      Number (g "perigee_argument") (fun a => 0 ≤ a ∧ a < 360)
  | .tundra => OrbitRanges g "tundra" ∧ PlaneRanges g ∧
      Number (g "orbital_period") (fun t => 0 < t) ∧
      Number (g "perigee_argument") (fun a => 0 ≤ a ∧ a < 360) ∧
      Number (g "eccentricity") (fun e => 0 ≤ e)
  | .station => (∃ s, g "name" = some (.text s)) ∧ PlaceRanges g ∧
      Number (g "min_elevation_angle") (fun a => 0 ≤ a ∧ a ≤ 90) ∧
      Duration (g "min_access_time")
  | .point => (∃ n : ℕ, g "id" = some (.num n)) ∧ PlaceRanges g

/-- The values of an instrument that are left out. -/
def instrumentDefaults : Doc := [("name", .text "Default"), ("field_of_regard", .num 180),
  ("min_access_time", .span 0), ("req_self_sunlit", .none), ("req_target_sunlit", .none),
  ("access_time_fixed", .bool false)]

/-- The documented values of the arguments that may be left out, by class. -/
def defaults (env : Env) : Cls → Doc
  | .instrument => instrumentDefaults
  | .pointed => instrumentDefaults ++ [("roll_angle", .num 0), ("pitch_angle", .num 0),
      ("is_rectangular", .bool false), ("cross_track_pixels", .num 1), ("along_track_pixels", .num 1),
      ("cross_track_oversampling", .num 0), ("along_track_oversampling", .num 0)]
  | .tle => [("type", .text "tle")]
  | .circular => [("true_anomaly", .num 0), ("epoch", .time env.imported), ("type", .text "circular"),
      ("inclination", .num 0), ("right_ascension_ascending_node", .num 0)]
  | .sso => [("true_anomaly", .num 0), ("epoch", .time env.imported), ("type", .text "sso"),
      ("equator_crossing_ascending", .bool true)]
  | .keplerian => [("true_anomaly", .num 0), ("epoch", .time env.imported), ("type", .text "keplerian"),
      ("inclination", .num 0), ("right_ascension_ascending_node", .num 0), ("eccentricity", .num 0),
      ("perigee_argument", .num 0)]
  | .molniya => [("true_anomaly", .num 0), ("epoch", .time env.imported), ("type", .text "molniya"),
      ("inclination", .num 0), ("right_ascension_ascending_node", .num 0), ("orbital_period", .num 43080),
      ("perigee_argument", .num 0)]
  | .tundra => [("true_anomaly", .num 0), ("epoch", .time env.imported), ("type", .text "tundra"),
      ("inclination", .num 63.4), ("right_ascension_ascending_node", .num 0), ("orbital_period", .num 86400),
      ("perigee_argument", .num 270), ("eccentricity", .num 0.2)]
  | .station => [("elevation", .num 0), ("min_elevation_angle", .num 0), ("min_access_time", .span 0)]
  | .point => [("elevation", .num 0)]

/-- The arguments that must be given, by class. -/
def required : Cls → List String
  | .instrument => []
  | .pointed => ["cross_track_field_of_view", "along_track_field_of_view"]
  | .tle => ["tle"]
  | .circular | .keplerian | .molniya | .tundra => ["altitude"]
  | .sso => ["altitude", "equator_crossing_time"]
  | .station => ["name", "latitude", "longitude"]
  | .point => ["id", "latitude", "longitude"]

/-- The documented arguments of satellites and constellations, apart from the orbit and the instruments. -/
def SystemRanges (c : SysCls) (g : String → Option Scalar) : Prop :=
  (∃ s, g "name" = some (.text s)) ∧
  match c with
  | .satellite => OneOf (g "type") ["satellite"]
  | .train => OneOf (g "type") ["train"] ∧ Count (g "number_satellites") 1 ∧
      (∃ d, g "interval" = some (.span d)) ∧ TrueFalse (g "repeat_ground_track")
  | .walker => OneOf (g "type") ["walker"] ∧ OneOf (g "configuration") ["delta", "star"] ∧
      ∃ satellites planes spacing : ℤ,
        (g "number_satellites").getD (.num 1) = .num satellites ∧
        (g "number_planes").getD (.num 1) = .num planes ∧
        (g "relative_spacing").getD (.num 0) = .num spacing ∧
        1 ≤ planes ∧ planes ≤ satellites ∧ 0 ≤ spacing ∧ spacing < planes
  | .mog => OneOf (g "type") ["mog"] ∧
      (∃ x, g "parallel_axis" = some (.num x) ∧ 0 < x) ∧
      (∃ x, g "transverse_axis" = some (.num x) ∧ 0 < x) ∧
      TrueFalse (g "clockwise") ∧ Count (g "number_satellites") 1
  | .soc => OneOf (g "type") ["soc"] ∧
      (∃ x, g "swath_width" = some (.num x) ∧ 0 < x) ∧
      (∃ x, g "packing_distance" = some (.num x) ∧ 0 < x ∧ x ≤ 1)

/-- The orbits from which a satellite or constellation may be made.  An orbit object may also be of a class
derived from these: a Keplerian orbit is a circular orbit. -/
def Orbits : SysCls → Cls → Prop
  | .satellite, c | .train, c | .walker, c => c = .tle ∨ c = .circular ∨ c = .sso ∨ c = .keplerian
  | .mog, c | .soc, c => c = .circular

/-- Data for one of the orbits, or an orbit object. -/
def OrbitGiven (env : Env) (c : SysCls) : Given → Prop
  | .inl doc => ∃ d, Orbits c d ∧ Ranges env d (given doc)
  | .inr o => Orbits c o.cls ∨ o.cls = .keplerian

/-- Data for an instrument, or an instrument object. -/
def InstrumentGiven : Given → Prop
  | .inl doc => InstrumentRanges (given doc)
  | .inr o => o.cls = .instrument ∨ o.cls = .pointed

end Tatc.Spec
