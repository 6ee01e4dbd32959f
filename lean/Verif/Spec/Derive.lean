import Verif.Spec.Export
import Verif.Model.Derive

/-!
# Contract of the sgp4 package, and what a derived element set says
-/

namespace Tatc.Spec
open Tatc.Orbit Tatc.Tle Tatc.Num Tatc.Text

/-- The first derivative, second derivative and drag term that are written. -/
def Fields.ndotValue (x : Fields) : ℚ := signed x.ndotNegative (x.ndot / 10 ^ 8)
def Fields.nddotValue (x : Fields) : ℚ := signed x.nddotNegative (x.nddot / 10 ^ 5 * power x.nddotExpNegative x.nddotExp)
def Fields.bstarValue (x : Fields) : ℚ := signed x.bstarNegative (x.bstar / 10 ^ 5 * power x.bstarExpNegative x.bstarExp)

/-- The number of hundred-millionths of a day from the first of January 1970 to the epoch that is written (years from 1957
to 2056, every fourth of which has 366 days; day 1 is the first of January). -/
def Fields.instant (x : Fields) : Int :=
  (365 * ((fullYear x.epochYear : Int) - 1970) + ((fullYear x.epochYear : Int) - 1969) / 4 - 1) * 10 ^ 8 + x.epochDay

/-- Numbers are written with their leading digit first, and zero without sign. -/
structure Fields.Standard (x : Fields) : Prop where
  range : x.InRange
  ndot : x.ndotNegative = true → x.ndot ≠ 0
  nddot : (x.nddot = 0 ∧ x.nddotNegative = false) ∨ 10 ^ 4 ≤ x.nddot
  bstar : (x.bstar = 0 ∧ x.bstarNegative = false) ∨ 10 ^ 4 ≤ x.bstar

/-- What is assumed of the sgp4 package: `read` reads an element set, `ex` prints one, `epoch` reads an epoch; `clock` gives
the microseconds of an epoch in hundred-millionths of a day (864 microseconds).

* An element set in the standard layout is read as it is written.
* Elements that fit the format, with derivatives and drag that can be written, are printed to the nearest digit. -/
structure Sgp4 (read : Line → Line → Except PyErr Record) (ex : Record → Line × Line)
    (epoch : Line → Line → Except PyErr Int) (clock : Int → Int) : Prop where
  clock_near : ∀ k, |clock k - 864 * k| ≤ 1
  epochs : ∀ x : Fields, x.InRange → epoch x.line1 x.line2 = .ok (clock x.instant)
  reads : ∀ x : Fields, x.InRange → ∃ r, read x.line1 x.line2 = .ok r ∧ r.satnum = x.catalog ∧
    r.inclo = radians (x.inclination / 10 ^ 4) ∧ r.nodeo = radians (x.raan / 10 ^ 4) ∧ r.ecco = x.eccentricity / 10 ^ 7 ∧
    r.argpo = radians (x.perigee / 10 ^ 4) ∧ r.mo = radians (x.meanAnomaly / 10 ^ 4) ∧
    r.no = x.meanMotion / 10 ^ 8 * (2 * Real.pi) / 1440 ∧
    r.ndot = x.ndotValue ∧ r.nddot = x.nddotValue ∧ r.bstar = x.bstarValue
  prints : ∀ r : Record, InFormat r.toSatrec → r.satnum < 10 ^ 5 →
    (∃ y : Fields, y.Standard ∧ r.ndot = y.ndotValue ∧ r.nddot = y.nddotValue ∧ r.bstar = y.bstarValue) →
    ∃ x : Fields, x.Standard ∧ (ex r).2 = x.line2 ∧
    |(x.inclination : ℝ) / 10 ^ 4 - degrees r.inclo| ≤ 1 / 20000 ∧
    |(x.raan : ℝ) / 10 ^ 4 - degrees r.nodeo| ≤ 1 / 20000 ∧
    |(x.eccentricity : ℝ) / 10 ^ 7 - r.ecco| ≤ 1 / 20000000 ∧
    |(x.perigee : ℝ) / 10 ^ 4 - degrees r.argpo| ≤ 1 / 20000 ∧
    |(x.meanAnomaly : ℝ) / 10 ^ 4 - degrees r.mo| ≤ 1 / 20000 ∧
    |(x.meanMotion : ℝ) / 10 ^ 8 - r.no * 1440 / (2 * Real.pi)| ≤ 1 / 200000000 ∧
    r.ndot = x.ndotValue ∧ r.nddot = x.nddotValue ∧ r.bstar = x.bstarValue ∧
    ∃ l1 : Line, Line1Syntax l1 ∧ ChecksumRight l1 ∧ col l1 7 = 'U' ∧
    ((ex r).1 = l1 ∨ (ex r).1 = l1.set 7 '\x00') ∧ getCatalogNumber l1 = .ok r.satnum ∧
    slice 33 61 l1 = slice 33 61 x.line1 ∧
    ∃ k : Int, epoch l1 (ex r).2 = .ok (clock k) ∧ |(864 * k : ℝ) - (epoch1949 + r.days * 86400000000)| ≤ 432

/-- An angle that is read is another one turned by `d` degrees, in one turn, to the nearest of four decimals. -/
def TurnedBy (before after : Except PyErr ℚ) (d : ℝ) : Prop :=
  ∃ (v w : ℚ) (n : Int), before = .ok v ∧ after = .ok w ∧ (∃ k : Nat, w = k / 10 ^ 4) ∧
    0 ≤ (v : ℝ) + d - 360 * n ∧ (v : ℝ) + d - 360 * n < 360 ∧ |(w : ℝ) - (v + d - 360 * n)| ≤ 1 / 20000

/-- The element set `d` describes the orbit of `l`, except that the satellite is `dM` degrees ahead and the plane is turned
by `dRaan` degrees. -/
structure Derived (epoch : Line → Line → Except PyErr Int) (dM dRaan : ℝ) (l d : Line × Line) : Prop where
  wellFormed : ElementSet d.1 d.2
  epoch : epoch d.1 d.2 = epoch l.1 l.2
  inclination : getInclination d.2 = getInclination l.2
  eccentricity : getEccentricity d.2 = getEccentricity l.2
  perigee : getPerigeeArgument d.2 = getPerigeeArgument l.2
  meanMotion : getMeanMotion d.2 = getMeanMotion l.2
  ndot : getFirstDerivative d.1 = getFirstDerivative l.1
  nddot : getSecondDerivative d.1 = getSecondDerivative l.1
  bstar : getBStar d.1 = getBStar l.1
  raan : TurnedBy (getRaan l.2) (getRaan d.2) dRaan
  meanAnomaly : TurnedBy (getMeanAnomaly l.2) (getMeanAnomaly d.2) dM

end Tatc.Spec
