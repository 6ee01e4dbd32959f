import Verif.Model.IeeeTrain

/-!
# Floating point arithmetic of derived element sets

`TwoLineElements.get_derived_orbit`, every operation rounded to a double precision number.
-/

namespace Tatc.Ieee
open Tatc.Num Tatc.Orbit Tatc.Constellation

/-- `2 * np.pi` (`src/tatc/schemas/orbit.py` L368, L370). -/
noncomputable def fullTurn : ℝ := 7074237752028440 / 2 ^ 50

/-- `np.mod(a, 2 * np.pi)` of a double precision number (`src/tatc/schemas/orbit.py` L368, L370): the remainder of the division
truncated towards zero, which is exact, and a rounded sum where that is negative. -/
noncomputable def modTurn (a : ℝ) : ℝ :=
  if 0 ≤ a then npMod a fullTurn
  else
    let r := -npMod (-a) fullTurn
    if r = 0 then 0 else fl (r + fullTurn)

/-- `TwoLineElements.get_derived_orbit` (`src/tatc/schemas/orbit.py` L336-L376) on the elements; the export to text is not
modelled here. -/
noncomputable def tleDerived (sets : List TleElements) (dM dRaan : ℝ) : List TleElements :=
  sets.map fun s =>
    { s with
      meanAnomaly := modTurn (fl (s.meanAnomaly + fl (dM * radianFactor)))
      node := modTurn (fl (s.node + fl (dRaan * radianFactor))) }

/-- `WalkerConstellation.generate_members` (`src/tatc/schemas/satellite.py` L241-L263) where the orbit of the constellation is
given by the element sets `lead`. -/
noncomputable def tleWalkerMembers {I : Type} (lead : List TleElements) (w : Walker I) : List (Satellite I) :=
  (List.range w.satellites).map fun (i : Nat) =>
    ⟨zeroPad w.name w.satellites (i + 1), .tle (tleDerived lead (walkerIncrements w i).1 (walkerIncrements w i).2), w.instruments⟩

/-- `TrainConstellation.generate_members` (`src/tatc/schemas/satellite.py` L89-L129) where the orbit of the constellation is given
by the element sets `lead`; the mean motion is that of the first (`src/tatc/schemas/orbit.py` L256-L267). -/
noncomputable def tleTrainMembers {I : Type} (lead : List TleElements) (t : Train I) : Except PyErr (List (Satellite I)) :=
  match lead with
  | [] => .error .indexError
  | first :: _ =>
    let deltaMean := fl (fl (-360 * first.meanMotion) * trainDays t)
    .ok ((List.range t.satellites).map fun (i : Nat) =>
      ⟨zeroPad t.name t.satellites (i + 1), .tle (tleDerived lead (fl (i * deltaMean)) (fl (i * trainDeltaRaan t))), t.instruments⟩)

end Tatc.Ieee
