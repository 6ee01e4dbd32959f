import Verif.Model.Text

/-!
# Model of element-set validation and accessors

`src/tatc/utils.py` L1209-L1273 and `src/tatc/schemas/orbit.py` L27-L292.
-/

namespace Tatc.Tle
open Tatc.Text

/-- A line of text. -/
abbrev Line := List Char

/-- The character classes of the two patterns (`src/tatc/utils.py` L1229-L1241). -/
def lit (c : Char) : Char → Bool := fun x => x == c
/-- `[ 0-9]`
(`src/tatc/utils.py` L1229-L1241). -/
def spDigit : Char → Bool := fun c => c == ' ' || isDigit c
/-- `[A-Z]`
(`src/tatc/utils.py` L1229-L1241). -/
def upper : Char → Bool := fun c => decide ('A' ≤ c) && decide (c ≤ 'Z')
/-- `[ A-Z]`
(`src/tatc/utils.py` L1229-L1241). -/
def spUpper : Char → Bool := fun c => c == ' ' || upper c
/-- `[ 0-9A-HJ-NP-Z]`
(`src/tatc/utils.py` L1229-L1241). -/
def catalogFirst : Char → Bool := fun c =>
  c == ' ' || isDigit c || (upper c && c != 'I' && c != 'O')
/-- `[ +-]`
(`src/tatc/utils.py` L1229-L1241). -/
def spSign : Char → Bool := fun c => c == ' ' || c == '+' || c == '-'
/-- `[+-]`
(`src/tatc/utils.py` L1229-L1241). -/
def sign : Char → Bool := fun c => c == '+' || c == '-'
/-- `[ 0+-]`
(`src/tatc/utils.py` L1229-L1241). -/
def spZeroSign : Char → Bool := fun c => c == ' ' || c == '0' || c == '+' || c == '-'

/-- `x{n}`
(`src/tatc/utils.py` L1229-L1241). -/
def rep (n : Nat) (p : Char → Bool) : List (Char → Bool) := List.replicate n p

/-- `re.match` of a sequence of character classes: a prefix of the text matches.
(`src/tatc/utils.py` L1235, L1242). -/
def matchSeq : List (Char → Bool) → Line → Bool
  | [], _ => true
  | _ :: _, [] => false
  | p :: ps, c :: cs => p c && matchSeq ps cs

/-- The part of `line_1_pattern` before the alternative (`src/tatc/utils.py` L1230-L1231). -/
def line1Head : List (Char → Bool) :=
  [lit '1', lit ' ', catalogFirst] ++ rep 4 spDigit ++ [upper, lit ' '] ++ rep 5 spDigit ++
    rep 3 spUpper ++ [lit ' '] ++ rep 5 spDigit ++ [lit '.'] ++ rep 8 spDigit ++ [lit ' ']

/-- First alternative, `[ 0+-][.][ 0-9]{8}` (`src/tatc/utils.py` L1231). -/
def line1AltA : List (Char → Bool) := [spZeroSign, lit '.'] ++ rep 8 spDigit

/-- Second alternative, ` [ +-][.][ 0-9]{7}` (`src/tatc/utils.py` L1231-L1232). -/
def line1AltB : List (Char → Bool) := [lit ' ', spSign, lit '.'] ++ rep 7 spDigit

/-- The part after the alternative (`src/tatc/utils.py` L1232-L1233). -/
def line1Tail : List (Char → Bool) :=
  [lit ' ', spSign] ++ rep 5 spDigit ++ [sign, spDigit, lit ' '] ++
    [spSign] ++ rep 5 spDigit ++ [sign, spDigit, lit ' ', spDigit, lit ' '] ++ rep 4 spDigit ++
    [spDigit]

/-- `re.match(line_1_pattern, s)` (`src/tatc/utils.py` L1229-L1236).  Both alternatives have ten columns, so matching
the whole with either of them is the same as the regular expression. -/
def matchLine1 (s : Line) : Bool :=
  matchSeq (line1Head ++ line1AltA ++ line1Tail) s || matchSeq (line1Head ++ line1AltB ++ line1Tail) s

/-- `line_2_pattern` (`src/tatc/utils.py` L1237-L1241). -/
def line2Pattern : List (Char → Bool) :=
  [lit '2', lit ' ', catalogFirst] ++ rep 4 spDigit ++ [lit ' '] ++ rep 3 spDigit ++ [lit '.'] ++
    rep 4 spDigit ++ [lit ' '] ++ rep 3 spDigit ++ [lit '.'] ++ rep 4 spDigit ++ [lit ' '] ++
    rep 7 spDigit ++ [lit ' '] ++ rep 3 spDigit ++ [lit '.'] ++ rep 4 spDigit ++ [lit ' '] ++
    rep 3 spDigit ++ [lit '.'] ++ rep 4 spDigit ++ [lit ' '] ++ rep 2 spDigit ++ [lit '.'] ++
    rep 13 spDigit ++ [spDigit]

/-- `re.match(line_2_pattern, s)`.
(`src/tatc/utils.py` L1242). -/
def matchLine2 (s : Line) : Bool := matchSeq line2Pattern s

/-- Contribution of one character to the checksum (`src/tatc/utils.py` L1248-L1251). -/
def weight (c : Char) : Nat := if isDigit c then digitVal c else if c = '-' then 1 else 0

/-- `checksum(line)` (`src/tatc/utils.py` L1245-L1252). -/
def checksum (s : Line) : Nat := ((s.take 68).map weight).sum % 10

/-- `int(v[i][68])`: one character, a blank raises.
(`src/tatc/utils.py` L1254, L1256). -/
def lastDigit (s : Line) : Except PyErr Int := pyInt (slice 68 69 s)

/-- The loop body of `is_valid_tle` (`src/tatc/utils.py` L1223-L1257). -/
def checkPair (l1 l2 : Line) : Except PyErr Unit := do
  require (l1.length = 69) .valueError
  require (l2.length = 69) .valueError
  require (matchLine1 l1 = true) .valueError
  require (matchLine2 l2 = true) .valueError
  let d1 ← lastDigit l1
  require (d1 = checksum l1) .valueError
  let d2 ← lastDigit l2
  require (d2 = checksum l2) .valueError

/-- `is_valid_tle` (`src/tatc/utils.py` L1218-L1258). -/
def isValidTle : List Line → Except PyErr Unit
  | [] => .ok ()
  | [l] => if l.length ≠ 69 then .error .valueError else .error .indexError
  | l1 :: l2 :: rest => do
    checkPair l1 l2
    isValidTle rest

/-- The epochs read by `is_chronological_tle` (`src/tatc/utils.py` L1265-L1270); `epoch` stands for
`sat_epoch_datetime(Satrec.twoline2rv(...))` of the sgp4 package. -/
def epochsOf (epoch : Line → Line → Except PyErr Int) : List Line → Except PyErr (List Int)
  | [] => .ok []
  | [_] => .error .indexError
  | l1 :: l2 :: rest => do
    let e ← epoch l1 l2
    let es ← epochsOf epoch rest
    return e :: es

/-- `all(epochs[:-1] <= epochs[1:])` (`src/tatc/utils.py` L1271). -/
def nonDecreasing (es : List Int) : Bool :=
  (List.zipWith (fun a b : Int => decide (a ≤ b)) es.dropLast es.tail).all id

/-- `is_chronological_tle` (`src/tatc/utils.py` L1261-L1273). -/
def isChronological (epoch : Line → Line → Except PyErr Int) (v : List Line) : Except PyErr Unit := do
  let es ← epochsOf epoch v
  require (nonDecreasing es = true) .valueError

/-- `is_even_length_list` (`src/tatc/utils.py` L1209-L1215). -/
def isEvenLength (v : List Line) : Except PyErr Unit :=
  require (v.length % 2 ≠ 1) .valueError

/-- Construction of `TwoLineElements(tle=v)` (`src/tatc/schemas/orbit.py` L33-L48): the validators
in the order of the annotation, and `min_length=2`. -/
def construct (epoch : Line → Line → Except PyErr Int) (v : List Line) : Except PyErr (List Line) := do
  isChronological epoch v
  isValidTle v
  isEvenLength v
  require (2 ≤ v.length) .validationError
  return v

/-! ## Accessors (`src/tatc/schemas/orbit.py` L59-L292) -/

/-- `get_catalog_number` (`src/tatc/schemas/orbit.py` L59-L70). -/
def getCatalogNumber (l1 : Line) : Except PyErr Int := pyInt (slice 2 7 l1)
/-- `get_classification` (`src/tatc/schemas/orbit.py` L72-L83). -/
def getClassification (l1 : Line) : Except PyErr Char :=
  match l1[7]? with
  | some c => .ok c
  | none => .error .indexError
/-- `get_international_designator` (`src/tatc/schemas/orbit.py` L85-L105). -/
def getInternationalDesignator (l1 : Line) : Except PyErr (List Char) :=
  let year := slice 9 11 l1
  let launch := slice 11 14 l1
  let piece := slice 14 17 l1
  if year ≠ [] ∧ year.all isDigit = true then do
    let y ← pyInt year
    return strip ((if y < 57 then ['2', '0'] else ['1', '9']) ++ year ++ ['-'] ++ launch ++ piece)
  else .ok (strip (year ++ ['-'] ++ launch ++ piece))
/-- `get_first_derivative_mean_motion` (`src/tatc/schemas/orbit.py` L122-L133). -/
def getFirstDerivative (l1 : Line) : Except PyErr ℚ := pyFloat (slice 33 43 l1)
/-- `float("0." + s.strip()) * 10 ** int(e)`.
(`src/tatc/schemas/orbit.py` L146-L148, L161-L163). -/
def pseudoFloat (m e : List Char) : Except PyErr ℚ := do
  let x ← pyFloat (['0', '.'] ++ strip m)
  let k ← pyInt e
  return x * (10 : ℚ) ^ k
/-- `get_second_derivative_mean_motion` (`src/tatc/schemas/orbit.py` L135-L148). -/
def getSecondDerivative (l1 : Line) : Except PyErr ℚ := pseudoFloat (slice 44 50 l1) (slice 50 52 l1)
/-- `get_b_star` (`src/tatc/schemas/orbit.py` L150-L163). -/
def getBStar (l1 : Line) : Except PyErr ℚ := pseudoFloat (slice 53 59 l1) (slice 59 61 l1)
/-- `get_ephemeris_type` (`src/tatc/schemas/orbit.py` L165-L176). -/
def getEphemerisType (l1 : Line) : Except PyErr Int := pyInt (slice 62 63 l1)
/-- `get_element_set_number` (`src/tatc/schemas/orbit.py` L178-L189). -/
def getElementSetNumber (l1 : Line) : Except PyErr Int := pyInt (slice 64 68 l1)
/-- `get_inclination` (`src/tatc/schemas/orbit.py` L191-L202). -/
def getInclination (l2 : Line) : Except PyErr ℚ := pyFloat (slice 8 16 l2)
/-- `get_right_ascension_ascending_node` (`src/tatc/schemas/orbit.py` L204-L215). -/
def getRaan (l2 : Line) : Except PyErr ℚ := pyFloat (slice 17 25 l2)
/-- `get_eccentricity` (`src/tatc/schemas/orbit.py` L217-L228). -/
def getEccentricity (l2 : Line) : Except PyErr ℚ := pyFloat (['0', '.'] ++ strip (slice 26 33 l2))
/-- `get_perigee_argument` (`src/tatc/schemas/orbit.py` L230-L241). -/
def getPerigeeArgument (l2 : Line) : Except PyErr ℚ := pyFloat (slice 34 42 l2)
/-- `get_mean_anomaly` (`src/tatc/schemas/orbit.py` L243-L254). -/
def getMeanAnomaly (l2 : Line) : Except PyErr ℚ := pyFloat (slice 43 51 l2)
/-- `get_mean_motion` (`src/tatc/schemas/orbit.py` L256-L267). -/
def getMeanMotion (l2 : Line) : Except PyErr ℚ := pyFloat (slice 52 63 l2)
/-- `get_revolution_number_at_epoch` (`src/tatc/schemas/orbit.py` L281-L292). -/
def getRevolutionNumber (l2 : Line) : Except PyErr Int := pyInt (slice 63 68 l2)

end Tatc.Tle
