import Verif.Model.Text

/-!
# Specification of the element-set format

Columns are counted from 0, as in the source.
-/

namespace Tatc.Spec
open Tatc.Text

/-- The character in a column of a line. -/
def col (s : List Char) (i : Nat) : Char := s.getD i '?'

def BlankOrDigit (c : Char) : Prop := c = ' ' ∨ ('0' ≤ c ∧ c ≤ '9')
def Upper (c : Char) : Prop := 'A' ≤ c ∧ c ≤ 'Z'

/-- Column syntax of line 1. -/
structure Line1Syntax (s : List Char) : Prop where
  length : s.length = 69
  number : col s 0 = '1'
  blanks : ∀ i ∈ [1, 8, 17, 32, 43, 52, 61, 63], col s i = ' '
  catalogFirst : BlankOrDigit (col s 2) ∨ (Upper (col s 2) ∧ col s 2 ≠ 'I' ∧ col s 2 ≠ 'O')
  digits : ∀ i ∈ [3, 4, 5, 6, 9, 10, 11, 12, 13, 18, 19, 20, 21, 22, 24, 25, 26, 27, 28, 29, 30, 31,
    36, 37, 38, 39, 40, 41, 42, 45, 46, 47, 48, 49, 51, 54, 55, 56, 57, 58, 60, 62, 64, 65, 66, 67, 68],
    BlankOrDigit (col s i)
  classification : Upper (col s 7)
  piece : ∀ i ∈ [14, 15, 16], col s i = ' ' ∨ Upper (col s i)
  point : col s 23 = '.'
  signs : ∀ i ∈ [44, 53], col s i = ' ' ∨ col s i = '+' ∨ col s i = '-'
  exponents : ∀ i ∈ [50, 59], col s i = '+' ∨ col s i = '-'
  ndot : ((col s 33 = ' ' ∨ col s 33 = '0' ∨ col s 33 = '+' ∨ col s 33 = '-') ∧ col s 34 = '.' ∧
      BlankOrDigit (col s 35)) ∨
    (col s 33 = ' ' ∧ (col s 34 = ' ' ∨ col s 34 = '+' ∨ col s 34 = '-') ∧ col s 35 = '.')

/-- Column syntax of line 2. -/
structure Line2Syntax (s : List Char) : Prop where
  length : s.length = 69
  number : col s 0 = '2'
  blanks : ∀ i ∈ [1, 7, 16, 25, 33, 42, 51], col s i = ' '
  catalogFirst : BlankOrDigit (col s 2) ∨ (Upper (col s 2) ∧ col s 2 ≠ 'I' ∧ col s 2 ≠ 'O')
  points : ∀ i ∈ [11, 20, 37, 46, 54], col s i = '.'
  digits : ∀ i, 3 ≤ i → i < 69 → i ∉ [7, 16, 25, 33, 42, 51, 11, 20, 37, 46, 54] →
    BlankOrDigit (col s i)

/-- A digit counts its value, a minus sign one, everything else nothing. -/
def checksumWeight (c : Char) : Nat :=
  if '0' ≤ c ∧ c ≤ '9' then c.toNat - '0'.toNat else if c = '-' then 1 else 0

/-- The last column is a digit equal, modulo 10, to the sum over the 68 columns before. -/
def ChecksumRight (s : List Char) : Prop :=
  ('0' ≤ col s 68 ∧ col s 68 ≤ '9') ∧
    (col s 68).toNat - '0'.toNat = (((List.range 68).map fun i => checksumWeight (col s i)).sum) % 10

/-- A pair of lines that form an element set. -/
structure ElementSet (l1 l2 : List Char) : Prop where
  line1 : Line1Syntax l1
  line2 : Line2Syntax l2
  sum1 : ChecksumRight l1
  sum2 : ChecksumRight l2

/-! ## Writing an element set

The standard layout.  Numbers are natural numbers with an implied decimal point. -/

/-- `n` in decimal on `w` columns, filled on the left with `fill`. -/
def field (fill : Char) (w n : Nat) : List Char :=
  List.replicate (w - (dec n).length) fill ++ dec n

/-- The fields of an element set.  `fill` is the character used to fill integers on the left
(blank or zero; both are in use). -/
structure Fields where
  fill : Char
  catalog : Nat
  classification : Char
  launchYear : Nat
  launchNumber : Nat
  /-- one to three letters -/
  piece : List Char
  epochYear : Nat
  /-- day of year times 10^8 -/
  epochDay : Nat
  /-- first derivative of mean motion: sign and value times 10^8 -/
  ndotNegative : Bool
  ndot : Nat
  /-- second derivative: sign, mantissa times 10^5, sign and value of the exponent -/
  nddotNegative : Bool
  nddot : Nat
  nddotExpNegative : Bool
  nddotExp : Nat
  bstarNegative : Bool
  bstar : Nat
  bstarExpNegative : Bool
  bstarExp : Nat
  ephemeris : Nat
  elementSet : Nat
  /-- degrees times 10^4 -/
  inclination : Nat
  raan : Nat
  /-- times 10^7 -/
  eccentricity : Nat
  perigee : Nat
  meanAnomaly : Nat
  /-- revolutions per day times 10^8 -/
  meanMotion : Nat
  revolution : Nat

/-- The ranges of the format. -/
structure Fields.InRange (x : Fields) : Prop where
  fill : x.fill = ' ' ∨ x.fill = '0'
  catalog : x.catalog < 10 ^ 5
  classification : Upper x.classification
  launchYear : x.launchYear < 10 ^ 2
  launchNumber : x.launchNumber < 10 ^ 3
  piece : x.piece.length ≤ 3
  piece_pos : x.piece ≠ []
  letters : ∀ c ∈ x.piece, Upper c
  epochYear : x.epochYear < 10 ^ 2
  epochDay : x.epochDay < 10 ^ 11
  ndot : x.ndot < 10 ^ 8
  nddot : x.nddot < 10 ^ 5
  nddotExp : x.nddotExp < 10
  bstar : x.bstar < 10 ^ 5
  bstarExp : x.bstarExp < 10
  ephemeris : x.ephemeris < 10
  elementSet : x.elementSet < 10 ^ 4
  inclination : x.inclination < 10 ^ 7
  raan : x.raan < 10 ^ 7
  eccentricity : x.eccentricity < 10 ^ 7
  perigee : x.perigee < 10 ^ 7
  meanAnomaly : x.meanAnomaly < 10 ^ 7
  meanMotion : x.meanMotion < 10 ^ 10
  revolution : x.revolution < 10 ^ 5

/-- A number with `w` columns before the point and `p` digits after it. -/
def fixed (fill : Char) (w p n : Nat) : List Char :=
  field fill w (n / 10 ^ p) ++ ['.'] ++ field '0' p (n % 10 ^ p)

/-- The sign column of a mantissa. -/
def signCol (negative : Bool) : Char := if negative then '-' else ' '

/-- The sign column of an exponent. -/
def expSign (negative : Bool) : Char := if negative then '-' else '+'

/-- The number with a sign and a magnitude. -/
def signed (negative : Bool) (v : ℚ) : ℚ := if negative then -v else v

/-- The power of ten of a signed exponent. -/
def power (negative : Bool) (e : Nat) : ℚ := if negative then 1 / 10 ^ e else 10 ^ e

/-- The year written with two digits: 57 to 99 for 1957 to 1999, 00 to 56 for 2000 to 2056. -/
def fullYear (y : Nat) : Nat := if y < 57 then 2000 + y else 1900 + y

/-- The columns of line 1 before the checksum. -/
def Fields.body1 (x : Fields) : List (List Char) :=
  [['1', ' '], field x.fill 5 x.catalog, [x.classification], [' '], field '0' 2 x.launchYear,
    field '0' 3 x.launchNumber, x.piece ++ List.replicate (3 - x.piece.length) ' ', [' '],
    field '0' 2 x.epochYear, fixed x.fill 3 8 x.epochDay, [' '],
    signCol x.ndotNegative :: '.' :: field '0' 8 x.ndot, [' '],
    signCol x.nddotNegative :: field '0' 5 x.nddot, [expSign x.nddotExpNegative, digitChar x.nddotExp], [' '],
    signCol x.bstarNegative :: field '0' 5 x.bstar, [expSign x.bstarExpNegative, digitChar x.bstarExp], [' '],
    [digitChar x.ephemeris], [' '], field x.fill 4 x.elementSet]

/-- The columns of line 2 before the checksum. -/
def Fields.body2 (x : Fields) : List (List Char) :=
  [['2', ' '], field x.fill 5 x.catalog, [' '], fixed x.fill 3 4 x.inclination, [' '],
    fixed x.fill 3 4 x.raan, [' '], field '0' 7 x.eccentricity, [' '], fixed x.fill 3 4 x.perigee, [' '],
    fixed x.fill 3 4 x.meanAnomaly, [' '], fixed x.fill 2 8 x.meanMotion, field x.fill 5 x.revolution]

/-- A line: the columns and the checksum digit. -/
def withChecksum (cols : List (List Char)) : List Char :=
  cols.flatten ++ [digitChar ((cols.flatten.map checksumWeight).sum % 10)]

def Fields.line1 (x : Fields) : List Char := withChecksum x.body1
def Fields.line2 (x : Fields) : List Char := withChecksum x.body2

end Tatc.Spec
