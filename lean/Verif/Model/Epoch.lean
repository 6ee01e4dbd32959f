import Verif.Model.Convert
import Verif.Model.Pandas

/-!
# Epochs of element sets

The functions of the sgp4 package that read and print an epoch, in closed form and without rounding of floats.  Times are
microseconds from the first of January 1970.
-/

namespace Tatc.Epoch
open Tatc.Tle Tatc.Text Tatc.Orbit Tatc.Pandas

/-- Microseconds of a day: `timedelta(days=1)` (`src/tatc/schemas/orbit.py` L1005). -/
def day : Int := 86400000000

/-- `datetime(year, 1, 1, tzinfo=timezone.utc)` of Python's calendar, called by `sat_epoch_datetime`
(`src/tatc/schemas/orbit.py` L118-L120): days before the year, less the 719162 before 1970. -/
def newYear (year : Int) : Int :=
  (365 * (year - 1) + (year - 1) / 4 - (year - 1) / 100 + (year - 1) / 400 - 719162) * day

/-- `sat_epoch_datetime(Satrec.twoline2rv(line1, line2))` of the sgp4 package (`src/tatc/schemas/orbit.py` L118-L120,
`src/tatc/utils.py` L1265-L1270): `int(line1[18:20])`, `float(line1[20:32])`, years below 57 are of this century, and
`datetime(year, 1, 1) + timedelta(days=epochdays - 1)`. -/
def readEpoch (l1 : Line) : Except PyErr Int := do
  let y ← pyInt (slice 18 20 l1)
  let d ← pyFloat (slice 20 32 l1)
  return newYear (if y < 57 then 2000 + y else 1900 + y) + roundHalfEven ((d - 1) * day)

/-- `TwoLineElements.get_epoch` (`src/tatc/schemas/orbit.py` L107-L120). -/
def getEpoch (tle : List Line) (i : Nat) : Except PyErr Int :=
  match tle[2 * i]?, tle[2 * i + 1]? with
  | some l1, some _ => readEpoch l1
  | _, _ => .error .indexError

/-- The year that `invjday` of the sgp4 package, called by `sgp4init`, finds for a whole number of days from the end of
1949 (`src/tatc/schemas/orbit.py` L1000-L1005). -/
def yearOf (whole : Int) : Int :=
  let temp := whole + 18262
  let year := 1900 + 4 * temp / 1461
  if temp - ((year - 1900) * 365 + (year - 1901) / 4) < 1 then year - 1 else year

/-- The day of the year: `whole_jd - jday(y, 1, 0, 0, 0, 0.0)` of the sgp4 package
(`src/tatc/schemas/orbit.py` L1000-L1005). -/
def dayOfYear (whole : Int) : Int :=
  whole + 712238 - 367 * yearOf whole + 7 * yearOf whole / 4

/-- A number filled with zeros on the left, as by the formats `02` and `012.8f`
(`src/tatc/schemas/orbit.py` L1016-L1018). -/
def zfill (w n : Nat) : List Char := List.replicate (w - (dec n).length) '0' ++ dec n

/-- The columns 19 to 32 of the first line that `exporter.export_tle` prints for an epoch
(`src/tatc/schemas/orbit.py` L1000-L1018): two digits of the year, and the day of the year with eight decimals. -/
def epochColumns (t : Int) : List Char :=
  let whole := (t - epoch1949) / day
  let fraction : ℚ := ((t - epoch1949) % day : Int) / (day : ℚ)
  let n := (roundHalfEven ((dayOfYear whole + fraction) * 10 ^ 8)).toNat
  zfill 2 (yearOf whole % 100).toNat ++ (zfill 3 (n / 10 ^ 8) ++ ['.'] ++ zfill 8 (n % 10 ^ 8))

end Tatc.Epoch
