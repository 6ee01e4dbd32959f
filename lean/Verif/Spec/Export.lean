import Verif.Spec.Tle
import Verif.Model.Convert

/-!
# Contract of the export of an element set, and what an element set says

`exporter.export_tle` of the sgp4 package prints every element with the digits of the format.
-/

namespace Tatc.Spec
open Tatc.Orbit Tatc.Tle Tatc.Num Tatc.Text

/-- Elements that the format can hold: angles in one turn, an eccentricity below one, less than 99
revolutions per day, and an epoch from 1957 to 2056 (the years written with two digits). -/
structure InFormat (s : Satrec) : Prop where
  inclination : 0 ≤ degrees s.inclo ∧ degrees s.inclo < 360
  node : 0 ≤ degrees s.nodeo ∧ degrees s.nodeo < 360
  perigee : 0 ≤ degrees s.argpo ∧ degrees s.argpo < 360
  anomaly : 0 ≤ degrees s.mo ∧ degrees s.mo < 360
  eccentricity : 0 ≤ s.ecco ∧ s.ecco ≤ 1 - 1 / 10 ^ 7
  motion : 0 ≤ s.no * 1440 / (2 * Real.pi) ∧ s.no * 1440 / (2 * Real.pi) ≤ 99
  epoch : 2558 ≤ s.days ∧ s.days ≤ 39080

/-- What is assumed of the sgp4 package: `ex` prints elements, `epoch` reads an epoch (microseconds).

* Elements that fit are printed in the standard layout, each to the nearest digit, in a first line that is
  well formed, except that the classification, `U`, may be left unset (a NUL character); the epoch is read
  back to half of a hundred-millionth of a day.
* A negative mean anomaly is printed with a minus sign in its three columns before the decimal point. -/
structure Exporter (ex : Satrec → Line × Line) (epoch : Line → Line → Except PyErr Int) : Prop where
  fits : ∀ s, InFormat s → ∃ x : Fields, x.InRange ∧ (ex s).2 = x.line2 ∧
    |(x.inclination : ℝ) / 10 ^ 4 - degrees s.inclo| ≤ 1 / 20000 ∧
    |(x.raan : ℝ) / 10 ^ 4 - degrees s.nodeo| ≤ 1 / 20000 ∧
    |(x.eccentricity : ℝ) / 10 ^ 7 - s.ecco| ≤ 1 / 20000000 ∧
    |(x.perigee : ℝ) / 10 ^ 4 - degrees s.argpo| ≤ 1 / 20000 ∧
    |(x.meanAnomaly : ℝ) / 10 ^ 4 - degrees s.mo| ≤ 1 / 20000 ∧
    |(x.meanMotion : ℝ) / 10 ^ 8 - s.no * 1440 / (2 * Real.pi)| ≤ 1 / 200000000 ∧
    ∃ l1 : Line, Line1Syntax l1 ∧ ChecksumRight l1 ∧ col l1 7 = 'U' ∧
    ((ex s).1 = l1 ∨ (ex s).1 = l1.set 7 '\x00') ∧ ∃ t : Int, epoch l1 (ex s).2 = .ok t ∧
      |(t : ℝ) - (epoch1949 + s.days * 86400000000)| ≤ 432
  negative : ∀ s, InFormat { s with mo := 0 } → -99 < degrees s.mo → degrees s.mo < -1 →
    '-' ∈ slice 43 46 (ex s).2

/-- A value is read, to within a tolerance. -/
def ReadsAs (r : Except PyErr ℚ) (v tolerance : ℝ) : Prop := ∃ q, r = .ok q ∧ |(q : ℝ) - v| ≤ tolerance

/-- What the two lines say about an orbit: the accessors of the element set return the orbit's elements,
rounded to the digits of the format, and its epoch (microseconds). -/
structure Describes (epoch : Line → Line → Except PyErr Int) (l1 l2 : Line) (t : Int)
    (inclination raan eccentricity perigee meanAnomaly meanMotion : ℝ) : Prop where
  inclination : ReadsAs (getInclination l2) inclination (1 / 20000)
  raan : ReadsAs (getRaan l2) raan (1 / 20000)
  eccentricity : ReadsAs (getEccentricity l2) eccentricity (1 / 20000000)
  perigee : ReadsAs (getPerigeeArgument l2) perigee (1 / 20000)
  meanAnomaly : ReadsAs (getMeanAnomaly l2) meanAnomaly (1 / 20000)
  meanMotion : ReadsAs (getMeanMotion l2) meanMotion (1 / 200000000)
  epoch : ∃ e, epoch l1 l2 = .ok e ∧ |e - t| ≤ 432

end Tatc.Spec
