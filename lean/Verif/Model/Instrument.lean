import Verif.Model.Real
import Verif.Model.Py
import Verif.Model.Vec
import Verif.Model.Ro
import Mathlib.Analysis.SpecialFunctions.Trigonometric.Arctan

/-!
# Model of instruments: illumination, pixels and projected rays

`src/tatc/schemas/instrument.py` and `src/tatc/utils.py` L358-L620.  Sunlight, the height of the Sun, and the
intersection of a ray with the ellipsoid (or the nearest point of its limb) are parameters.  Arithmetic is over the
reals; `np.tan` of exactly 90 degrees is a large number in the code and is not modelled.
-/

namespace Tatc.Instruments
open Tatc.Num
open scoped Classical

/-! ## Illumination -/

/-- A value for one time, or for each time of an array of times (`src/tatc/schemas/instrument.py` L154, L172). -/
inductive PerTime (α : Type)
  | scalar (a : α)
  | vector (l : List α)
deriving DecidableEq

/-- The values, in order (`src/tatc/schemas/instrument.py` L154). -/
def PerTime.toList {α : Type} : PerTime α → List α
  | .scalar a => [a]
  | .vector l => l

/-- One comparison with a requirement, and `np.logical_and` (`src/tatc/schemas/instrument.py` L155-L158, L159-L171). -/
def applyRequirement (req : Option Bool) (states isValid : List Bool) : List Bool :=
  match req with
  | none => isValid
  | some r => List.zipWith and isValid (states.map (· == r))

/-- `Instrument.is_valid_observation` (`src/tatc/schemas/instrument.py` L139-L174).  `sunlit` is whether the satellite is in
sunlight, `solarAltitude` the altitude of the Sun at a target, both at the times of the orbit track; `subpoint` is the
target when none is given. -/
noncomputable def validObservation {P : Type} (reqSelf reqTarget : Option Bool) (sunlit : PerTime Bool) (subpoint : P)
    (solarAltitude : P → PerTime ℝ) (target : Option P) : Except PyErr (PerTime Bool) :=
  let target := target.getD subpoint
  let isValid := List.replicate sunlit.toList.length true
  let isValid := applyRequirement reqSelf sunlit.toList isValid
  let isValid := applyRequirement reqTarget ((solarAltitude target).toList.map fun a => decide (a > 0)) isValid
  if sunlit.toList.length > 1 then .ok (.vector isValid)
  else match isValid.head? with
    | none => .error .indexError
    | some b => .ok (.scalar b)

/-! ## Pixels -/

/-- A `PointedInstrument` (`src/tatc/schemas/instrument.py` L177-L220). -/
structure Pointed where
  crossFov : ℝ
  alongFov : ℝ
  roll : ℝ
  pitch : ℝ
  rectangular : Bool
  crossPixels : Nat
  alongPixels : Nat
  crossOver : ℝ
  alongOver : ℝ

/-- The constraints on its fields (`src/tatc/schemas/instrument.py` L182-L220). -/
structure Pointed.Valid (p : Pointed) : Prop where
  crossFov : 0 < p.crossFov ∧ p.crossFov ≤ 180
  alongFov : 0 < p.alongFov ∧ p.alongFov ≤ 180
  roll : -180 ≤ p.roll ∧ p.roll ≤ 180
  pitch : -180 ≤ p.pitch ∧ p.pitch ≤ 180
  crossPixels : 1 ≤ p.crossPixels
  alongPixels : 1 ≤ p.alongPixels
  crossOver : 0 ≤ p.crossOver ∧ p.crossOver < 1
  alongOver : 0 ≤ p.alongOver ∧ p.alongOver < 1

/-- `get_cross_track_instantaneous_field_of_view` (`src/tatc/schemas/instrument.py` L222-L233). -/
noncomputable def Pointed.crossIfov (p : Pointed) : ℝ := p.crossFov / p.crossPixels / (1 - p.crossOver)

/-- `get_along_track_instantaneous_field_of_view` (`src/tatc/schemas/instrument.py` L235-L246). -/
noncomputable def Pointed.alongIfov (p : Pointed) : ℝ := p.alongFov / p.alongPixels / (1 - p.alongOver)

/-- `cross_track_offset` (`src/tatc/schemas/instrument.py` L350-L355). -/
noncomputable def Pointed.crossOffset (p : Pointed) (i : Nat) : ℝ :=
  (0.5 + i - p.crossPixels / 2) * (1 - p.crossOver) * p.crossFov / p.crossPixels

/-- `along_track_offset` (`src/tatc/schemas/instrument.py` L356-L361). -/
noncomputable def Pointed.alongOffset (p : Pointed) (j : Nat) : ℝ :=
  (p.alongPixels / 2 - 0.5 - j) * (1 - p.alongOver) * p.alongFov / p.alongPixels

/-- `get_pixel_cone_and_clock_angle` (`src/tatc/schemas/instrument.py` L336-L365). -/
noncomputable def Pointed.coneClock (p : Pointed) (i j : Nat) : ℝ × ℝ :=
  (Real.sqrt (p.crossOffset i ^ 2 + p.alongOffset j ^ 2), arctan2 (p.alongOffset j) (p.crossOffset i))

/-! ## Rays -/

/-- `position` and `velocity` of the satellite in the frame fixed to the earth (`src/tatc/utils.py` L391). -/
structure State where
  position : V3
  velocity : V3

/-- `v` (`src/tatc/utils.py` L393). -/
noncomputable def State.v (s : State) : V3 := Ro.unit s.velocity
/-- `b` (`src/tatc/utils.py` L395). -/
noncomputable def State.b (s : State) : V3 := (Ro.unit s.position).smul (-1)
/-- `n` (`src/tatc/utils.py` L397-L400). -/
noncomputable def State.n (s : State) : V3 := s.v.cross s.b

/-- A ray with components along `v` and `n` in addition to those of pitch and roll (`src/tatc/utils.py` L410-L414,
L460-L463). -/
noncomputable def rayOf (s : State) (roll pitch along cross : ℝ) : V3 :=
  (((s.b.add (s.v.smul (Real.tan (radians pitch)))).add (s.n.smul (Real.tan (radians roll)))).add
    (s.v.smul along)).add (s.n.smul cross)

/-- The components along `v` and `n` of an elliptical ray (`src/tatc/utils.py` L464-L465). -/
noncomputable def ellipse (crossFov alongFov angle : ℝ) : ℝ × ℝ :=
  (Real.sin angle * Real.tan (radians (alongFov / 2)), Real.cos angle * Real.tan (radians (crossFov / 2)))

/-- `theta` (`src/tatc/utils.py` L404, L567). -/
noncomputable def corner (crossFov alongFov : ℝ) : ℝ := Real.arctan (alongFov / crossFov)

/-- The component along `v` of a rectangular ray (`src/tatc/utils.py` L406-L408, L415-L435). -/
noncomputable def rectAlong (crossFov alongFov angle : ℝ) : ℝ :=
  let theta := corner crossFov alongFov
  let tanA := Real.tan (radians (alongFov / 2))
  let tanC := Real.tan (radians (crossFov / 2))
  if theta ≤ angle ∧ angle ≤ Real.pi - theta then tanA
  else if Real.pi + theta ≤ angle ∧ angle ≤ 2 * Real.pi - theta then -tanA
  else if angle < theta then tanC * Real.tan angle
  else if angle < Real.pi then tanC * Real.tan (Real.pi - angle)
  else if angle < Real.pi + theta then -tanC * Real.tan (angle - Real.pi)
  else -tanC * Real.tan (2 * Real.pi - angle)

/-- The component along `n` of a rectangular ray (`src/tatc/utils.py` L406-L408, L437-L457). -/
noncomputable def rectCross (crossFov alongFov angle : ℝ) : ℝ :=
  let theta := corner crossFov alongFov
  let tanA := Real.tan (radians (alongFov / 2))
  let tanC := Real.tan (radians (crossFov / 2))
  if angle ≤ theta ∨ angle ≥ 2 * Real.pi - theta then tanC
  else if Real.pi - theta ≤ angle ∧ angle ≤ Real.pi + theta then -tanC
  else if angle < Real.pi / 2 then tanA * Real.tan (Real.pi / 2 - angle)
  else if angle < Real.pi - theta then -tanA * Real.tan (angle - Real.pi / 2)
  else if angle < 3 * Real.pi / 2 then -tanA * Real.tan (3 * Real.pi / 2 - angle)
  else tanA * Real.tan (angle - 3 * Real.pi / 2)

/-- The ray of `compute_projected_ray_position` (`src/tatc/utils.py` L402-L466). -/
noncomputable def ray (s : State) (crossFov alongFov roll pitch : ℝ) (rectangular : Bool) (angle : ℝ) : V3 :=
  if rectangular then rayOf s roll pitch (rectAlong crossFov alongFov angle) (rectCross crossFov alongFov angle)
  else rayOf s roll pitch (ellipse crossFov alongFov angle).1 (ellipse crossFov alongFov angle).2

/-- The intersection of a ray from a position with the ellipsoid at an elevation, as a geographic position, and the
position on the limb that is used when there is none (`src/tatc/utils.py` L467-L525). -/
structure Globe (Geo : Type) where
  surface : V3 → V3 → ℝ → Option Geo
  limb : State → V3 → ℝ → ℝ → Geo

/-- `compute_projected_ray_position` (`src/tatc/utils.py` L358-L529), at one time. -/
noncomputable def project {Geo : Type} (g : Globe Geo) (s : State) (crossFov alongFov roll pitch : ℝ)
    (rectangular : Bool) (angle elevation : ℝ) : Geo :=
  let r := ray s crossFov alongFov roll pitch rectangular angle
  (g.surface s.position r elevation).getD (g.limb s r angle elevation)

/-- `PointedInstrument.compute_footprint_center` (`src/tatc/schemas/instrument.py` L276-L300), at one time. -/
noncomputable def Pointed.center {Geo : Type} (g : Globe Geo) (p : Pointed) (s : State) (elevation : ℝ) : Geo :=
  project g s 0 0 p.roll p.pitch false 0 elevation

/-- `compute_projected_pixel_position` (`src/tatc/schemas/instrument.py` L302-L334), at one time. -/
noncomputable def Pointed.pixel {Geo : Type} (g : Globe Geo) (p : Pointed) (s : State) (elevation : ℝ) (i j : Nat) :
    Geo :=
  project g s (p.coneClock i j).1 (p.coneClock i j).1 p.roll p.pitch false (p.coneClock i j).2 elevation

/-- The ray of a pixel (`src/tatc/schemas/instrument.py` L321-L334). -/
noncomputable def Pointed.pixelRay (p : Pointed) (s : State) (i j : Nat) : V3 :=
  ray s (p.coneClock i j).1 (p.coneClock i j).1 p.roll p.pitch false (p.coneClock i j).2

/-- `compute_footprint_pixel_array` (`src/tatc/schemas/instrument.py` L382-L391, L406-L413) at one time: the points of
all pixels. -/
noncomputable def Pointed.pixelArray {Geo : Type} (g : Globe Geo) (p : Pointed) (s : State) (elevation : ℝ) : List Geo :=
  (List.range p.crossPixels).flatMap fun i => (List.range p.alongPixels).map fun j => p.pixel g s elevation i j

/-- `compute_footprint_pixel_array` (`src/tatc/schemas/instrument.py` L367-L413): one array of pixels for one time, a list
of them for more.  An array of no times, for which the points have no coordinates, is an error. -/
noncomputable def Pointed.pixelArrays {Geo : Type} (g : Globe Geo) (p : Pointed) (ss : PerTime State) (elevation : ℝ) :
    Except PyErr (PerTime (List Geo)) :=
  if ss.toList.length > 1 then .ok (.vector (ss.toList.map fun s => p.pixelArray g s elevation))
  else match ss.toList.head? with
    | none => .error .valueError
    | some s => .ok (.scalar (p.pixelArray g s elevation))

/-! ## Footprints -/

/-- `np.linspace(a, b, n)` (`src/tatc/utils.py` L581). -/
noncomputable def linspace (a b : ℝ) (n : Nat) : List ℝ :=
  (List.range n).map fun (i : Nat) => a + i * ((b - a) / ((n : ℝ) - 1))

/-- `np.linspace(a, b, n, endpoint=False)` (`src/tatc/utils.py` L570-L577). -/
noncomputable def linspaceOpen (a b : ℝ) (n : Nat) : List ℝ :=
  (List.range n).map fun (i : Nat) => a + i * ((b - a) / n)

/-- `angles` (`src/tatc/utils.py` L566-L581). -/
noncomputable def footprintAngles (crossFov alongFov : ℝ) (rectangular : Bool) (n : Nat) : List ℝ :=
  if rectangular then
    let theta := corner crossFov alongFov
    linspaceOpen (-theta) theta n ++ linspaceOpen theta (Real.pi - theta) n ++
      linspaceOpen (Real.pi - theta) (Real.pi + theta) n ++ linspaceOpen (Real.pi + theta) (2 * Real.pi - theta) n
  else linspace 0 (2 * Real.pi) n

/-- The vertices of the footprint before it is split (`src/tatc/utils.py` L582-L594), at one time. -/
noncomputable def footprintPoints {Geo : Type} (g : Globe Geo) (s : State) (crossFov alongFov roll pitch : ℝ)
    (rectangular : Bool) (n : Nat) (elevation : ℝ) : List Geo :=
  (footprintAngles crossFov alongFov rectangular n).map fun angle =>
    project g s crossFov alongFov roll pitch rectangular angle elevation

/-- The ray of an `Instrument`'s footprint at an angle (`src/tatc/schemas/instrument.py` L85-L111). -/
noncomputable def regardRay (s : State) (fieldOfRegard angle : ℝ) : V3 :=
  ray s fieldOfRegard fieldOfRegard 0 0 false angle

/-- The ray of an `Instrument`'s footprint center (`src/tatc/schemas/instrument.py` L113-L137). -/
noncomputable def centerRay (s : State) : V3 := ray s 0 0 0 0 false 0

end Tatc.Instruments
