import Verif.Model.Convert

/-!
# Model of the derivation of element sets, on their text

`TwoLineElements.get_derived_orbit` (`src/tatc/schemas/orbit.py` L336-L376).  `Satrec.twoline2rv`, `sat_epoch_datetime` and
`exporter.export_tle` belong to the sgp4 package and are the parameters `read`, `epoch` and `ex`.
-/

namespace Tatc.Orbit
open Tatc.Num Tatc.Tle

/-- What an element set is read into, and what `Satrec.sgp4init` is given: the elements, the catalog number, the drag term
and the derivatives of the mean motion (in the units of the format; the package converts them when it reads and back when it
prints) (`src/tatc/schemas/orbit.py` L354-L371). -/
structure Record extends Satrec where
  satnum : Nat
  bstar : ℝ
  ndot : ℝ
  nddot : ℝ

/-- The call of `sgp4init` (`src/tatc/schemas/orbit.py` L355-L371): the elements of `lead`, except the catalog number, the
mean anomaly and the node; the epoch is that of `sat_epoch_datetime` (L355), microseconds. -/
noncomputable def derivedRecord (lead : Record) (t : Int) (dM dRaan : ℝ) : Record where
  satnum := 0
  days := ((t - epoch1949 : Int) : ℝ) / 86400000000
  bstar := lead.bstar
  ndot := lead.ndot
  nddot := lead.nddot
  ecco := lead.ecco
  argpo := lead.argpo
  inclo := lead.inclo
  mo := npMod (lead.mo + radians dM) (2 * Real.pi)
  no := lead.no
  nodeo := npMod (lead.nodeo + radians dRaan) (2 * Real.pi)

/-- The loop over the element sets (`src/tatc/schemas/orbit.py` L351-L375): every pair of lines of the copied list is
replaced; a line without partner stays. -/
noncomputable def derivedLines (read : Line → Line → Except PyErr Record) (ex : Record → Line × Line)
    (epoch : Line → Line → Except PyErr Int) (dM dRaan : ℝ) : List Line → Except PyErr (List Line)
  | l1 :: l2 :: rest => do
    let lead ← read l1 l2
    let t ← epoch l1 l2
    let lines := ex (derivedRecord lead t dM dRaan)
    let others ← derivedLines read ex epoch dM dRaan rest
    return replaceNul lines.1 :: lines.2 :: others
  | rest => .ok rest

/-- `TwoLineElements.get_derived_orbit` (`src/tatc/schemas/orbit.py` L336-L376). -/
noncomputable def tleGetDerived (read : Line → Line → Except PyErr Record) (ex : Record → Line × Line)
    (epoch : Line → Line → Except PyErr Int) (tle : List Line) (dM dRaan : ℝ) : Except PyErr (List Line) := do
  let tles ← derivedLines read ex epoch dM dRaan tle
  construct epoch tles

/-- `TwoLineElements.get_tle_count` (`src/tatc/schemas/orbit.py` L50-L57). -/
def getTleCount (tle : List Line) : Nat := tle.length / 2

end Tatc.Orbit
