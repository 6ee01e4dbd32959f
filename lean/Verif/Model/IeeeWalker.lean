import Verif.Model.Constellation
import Verif.Model.IeeeSso

/-!
# Floating point arithmetic of Walker constellations

`WalkerConstellation.generate_members`, every operation rounded to a double precision number.
-/

namespace Tatc.Ieee
open Tatc.Num Tatc.Orbit Tatc.Constellation

/-- The lead orbit of a constellation (`src/tatc/schemas/satellite.py` L152-L154), circular or sun-synchronous; for the
latter `sun` is the right ascension of the sun at the epoch. -/
inductive DoubleLead
  | circular (o : Circular)
  | sso (altitude trueAnomaly : ℝ) (epoch : Int) (sun : ℝ) (microseconds : Nat) (ascending : Bool)

/-- `self.orbit.get_derived_orbit(...)` (`src/tatc/schemas/satellite.py` L123, L252; `src/tatc/schemas/orbit.py` L764-L788,
L874-L901). -/
noncomputable def DoubleLead.derived (l : DoubleLead) (dM dRaan : ℝ) : Except PyErr Circular :=
  match l with
  | .circular o => Ieee.derived o dM dRaan
  | .sso altitude trueAnomaly epoch sun microseconds ascending =>
    ssoDerived altitude trueAnomaly epoch sun microseconds ascending dM dRaan

/-- The increments of member `i` (`src/tatc/schemas/satellite.py` L200-L239, L253-L258).  The quotient of two integers is
correctly rounded; an integer that multiplies a double precision number is less than `2⁵³`, hence not rounded. -/
noncomputable def walkerIncrements {I : Type} (w : Walker I) (i : Nat) : ℝ × ℝ :=
  let perPlane := (satellitesPerPlane w.satellites w.planes).toNat
  let within := fl (360 / perPlane)
  let between := fl (360 * w.spacing / w.satellites)
  let raan := fl ((if w.star then 180 else 360) / w.planes)
  (fl (fl ((i % perPlane : Nat) * within) + fl ((i / perPlane : Nat) * between)), fl ((i / perPlane : Nat) * raan))

/-- `WalkerConstellation.generate_members` (`src/tatc/schemas/satellite.py` L241-L263); `lead` stands for the orbit of the
constellation. -/
noncomputable def walkerMembers {I : Type} (lead : DoubleLead) (w : Walker I) : Except PyErr (List (Satellite I)) :=
  (List.range w.satellites).mapM fun (i : Nat) => do
    let o ← lead.derived (walkerIncrements w i).1 (walkerIncrements w i).2
    return ⟨zeroPad w.name w.satellites (i + 1), .circular o, w.instruments⟩

end Tatc.Ieee
