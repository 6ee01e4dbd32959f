import Verif.Model.Orbit
import Verif.Model.Text

/-!
# Model of the constellations

`src/tatc/schemas/satellite.py` and `zero_pad` of `src/tatc/utils.py` L1193-L1206.
-/

namespace Tatc.Constellation
open Tatc.Num Tatc.Orbit Tatc.Text
open scoped Classical

/-- `zero_pad` (`src/tatc/utils.py` L1193-L1206). -/
def zeroPad (name : List Char) (maxNumber current : Nat) : List Char :=
  name ++ [' '] ++ zfill (dec maxNumber).length (dec current)

/-- The lead orbit of a train or Walker constellation (`src/tatc/schemas/satellite.py` L74-L76,
L152-L154). -/
inductive Lead
  | tle (sets : List TleElements)
  | sso (o : Sso)
  | circular (o : Circular)
  | keplerian (o : Keplerian)

/-- `self.orbit.get_derived_orbit(...)` (`src/tatc/schemas/satellite.py` L123, L252). -/
noncomputable def Lead.derived (sun : Int → ℝ) (l : Lead) (dM dRaan : ℝ) : Except PyErr Lead :=
  match l with
  | .tle sets => .ok (.tle (tleDerived sets dM dRaan))
  | .sso o => (o.derived sun dM dRaan).map .circular
  | .circular o => (o.derived dM dRaan).map .circular
  | .keplerian o => (o.derived dM dRaan).map .keplerian

/-- `self.orbit.get_mean_motion()` (`src/tatc/schemas/satellite.py` L98; `src/tatc/schemas/orbit.py`
L256-L267, L732-L739). -/
noncomputable def Lead.meanMotion (l : Lead) : Except PyErr ℝ :=
  match l with
  | .tle (s :: _) => .ok s.meanMotion
  | .tle [] => .error .indexError
  | .sso o => Orbit.meanMotion o.altitude
  | .circular o => Orbit.meanMotion o.altitude
  | .keplerian o => Orbit.meanMotion o.altitude

/-- A member satellite: its name, orbit and instruments (`src/tatc/schemas/satellite.py` L29-L45);
`I` is the type of instrument lists. -/
structure Satellite (I : Type) where
  name : List Char
  orbit : Lead
  instruments : I

/-! ## Walker -/

/-- `WalkerConstellation` (`src/tatc/schemas/satellite.py` L141-L172). -/
structure Walker (I : Type) where
  name : List Char
  orbit : Lead
  instruments : I
  star : Bool
  satellites : Nat
  planes : Nat
  spacing : Nat

/-- Construction of a `WalkerConstellation` from integers: the field constraints and the two
validators (`src/tatc/schemas/satellite.py` L155-L198). -/
def Walker.make {I : Type} (name : List Char) (orbit : Lead) (instruments : I) (star : Bool)
    (satellites planes spacing : Int) : Except PyErr (Walker I) := do
  require (1 ≤ satellites) .validationError
  require (1 ≤ planes) .validationError
  require (0 ≤ spacing) .validationError
  require (¬ planes > satellites) .validationError
  require (¬ spacing ≥ planes) .validationError
  return ⟨name, orbit, instruments, star, satellites.toNat, planes.toNat, spacing.toNat⟩

/-- `get_satellites_per_plane` (`src/tatc/schemas/satellite.py` L200-L207), the quotient being exact. -/
def Walker.satellitesPerPlane {I : Type} (w : Walker I) : Nat := ⌈(w.satellites : ℚ) / w.planes⌉.toNat

/-- `get_delta_mean_anomaly_within_planes` (`src/tatc/schemas/satellite.py` L209-L217). -/
noncomputable def Walker.deltaWithin {I : Type} (w : Walker I) : ℝ := 360 / w.satellitesPerPlane

/-- `get_delta_mean_anomaly_between_planes` (`src/tatc/schemas/satellite.py` L219-L227). -/
noncomputable def Walker.deltaBetween {I : Type} (w : Walker I) : ℝ := 360 * w.spacing / w.satellites

/-- `get_delta_raan_between_planes` (`src/tatc/schemas/satellite.py` L229-L239). -/
noncomputable def Walker.deltaRaan {I : Type} (w : Walker I) : ℝ :=
  if w.star then 180 / w.planes else 360 / w.planes

/-- The increments of member `i` (`src/tatc/schemas/satellite.py` L253-L258). -/
noncomputable def Walker.increments {I : Type} (w : Walker I) (i : Nat) : ℝ × ℝ :=
  let s := w.satellitesPerPlane
  (((i % s : Nat) : ℝ) * w.deltaWithin + ((i / s : Nat) : ℝ) * w.deltaBetween,
    ((i / s : Nat) : ℝ) * w.deltaRaan)

/-- `generate_members` (`src/tatc/schemas/satellite.py` L241-L263). -/
noncomputable def Walker.members {I : Type} (sun : Int → ℝ) (w : Walker I) : Except PyErr (List (Satellite I)) :=
  (List.range w.satellites).mapM fun (i : Nat) => do
    let o ← w.orbit.derived sun (w.increments i).1 (w.increments i).2
    return ⟨zeroPad w.name w.satellites (i + 1), o, w.instruments⟩

/-! ## Train -/

/-- `TrainConstellation` (`src/tatc/schemas/satellite.py` L66-L87); the interval in microseconds. -/
structure Train (I : Type) where
  name : List Char
  orbit : Lead
  instruments : I
  satellites : Nat
  interval : Int
  repeatGroundTrack : Bool

/-- `self.interval / timedelta(days=1)` (`src/tatc/schemas/satellite.py` L98, L109). -/
noncomputable def Train.days {I : Type} (t : Train I) : ℝ := (t.interval : ℝ) / 86400000000

/-- `get_delta_mean_anomaly` (`src/tatc/schemas/satellite.py` L89-L98). -/
noncomputable def Train.deltaMeanAnomaly {I : Type} (t : Train I) : Except PyErr ℝ := do
  let mm ← t.orbit.meanMotion
  return -360 * mm * t.days

/-- `get_delta_raan` (`src/tatc/schemas/satellite.py` L100-L110). -/
noncomputable def Train.deltaRaan {I : Type} (t : Train I) : ℝ :=
  if t.repeatGroundTrack then 360 * t.days else 0

/-- `generate_members` (`src/tatc/schemas/satellite.py` L112-L129). -/
noncomputable def Train.members {I : Type} (sun : Int → ℝ) (t : Train I) : Except PyErr (List (Satellite I)) :=
  (List.range t.satellites).mapM fun (i : Nat) => do
    let d ← t.deltaMeanAnomaly
    let o ← t.orbit.derived sun ((i : ℝ) * d) ((i : ℝ) * t.deltaRaan)
    return ⟨zeroPad t.name t.satellites (i + 1), o, t.instruments⟩

end Tatc.Constellation
