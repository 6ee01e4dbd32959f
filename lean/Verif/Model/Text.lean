import Mathlib.Data.Rat.Defs
import Mathlib.Algebra.Order.Ring.Rat
import Mathlib.Data.List.Basic
import Mathlib.Data.List.DropRight
import Verif.Model.Py

/-!
# Python text functions used by the model

A Python `str` is a list of characters.
-/

namespace Tatc.Text

/-- An ASCII decimal digit, `[0-9]`.
(`src/tatc/utils.py` L1230, L1248). -/
def isDigit (c : Char) : Bool := decide ('0' ≤ c) && decide (c ≤ '9')

/-- The value of a digit character.
(`src/tatc/utils.py` L1249). -/
def digitVal (c : Char) : Nat := c.toNat - 48

/-- The character of a digit.
(`src/tatc/utils.py` L1206). -/
def digitChar (d : Nat) : Char := Char.ofNat (48 + d)

/-- `str(n)` for a natural number: decimal without leading zeros.
(`src/tatc/utils.py` L1205-L1206). -/
def dec (n : Nat) : List Char :=
  if n < 10 then [digitChar n] else dec (n / 10) ++ [digitChar (n % 10)]
termination_by n
decreasing_by omega

/-- The number written by a list of digits.
(`src/tatc/schemas/orbit.py` L70). -/
def digitsVal (l : List Char) : Nat := l.foldl (fun a c => a * 10 + digitVal c) 0

/-- `s[a:b]`.
(`src/tatc/schemas/orbit.py` L70). -/
def slice (a b : Nat) (s : List Char) : List Char := (s.drop a).take (b - a)

/-- `s.strip()`.  Simplification: only blanks are removed (accepted lines contain no other white
space).
(`src/tatc/schemas/orbit.py` L105, L146, L161, L228). -/
def strip (s : List Char) : List Char :=
  (s.dropWhile (· = ' ')).rdropWhile (· = ' ')

/-- Sign and rest of a numeral.
(`src/tatc/schemas/orbit.py` L147, L162). -/
def splitSign (s : List Char) : Bool × List Char :=
  match s with
  | '-' :: t => (true, t)
  | '+' :: t => (false, t)
  | t => (false, t)

/-- `int(s)`: blanks around, an optional sign, digits.  Simplification: no underscores, ASCII.
(`src/tatc/schemas/orbit.py` L70, L147, L176, L189, `src/tatc/utils.py` L1254). -/
def pyInt (s : List Char) : Except PyErr Int :=
  let (neg, t) := splitSign (strip s)
  if t ≠ [] ∧ t.all isDigit = true then
    .ok (if neg then -(digitsVal t : Int) else (digitsVal t : Int))
  else .error .valueError

/-- Digits, optionally a point and digits, at least one digit: the value written
(`src/tatc/schemas/orbit.py` L133, L146, L202). -/
def unsigned (t : List Char) : Option ℚ :=
  let ip := t.takeWhile isDigit
  let value (f : List Char) : Option ℚ :=
    if (ip ≠ [] ∨ f ≠ []) ∧ f.all isDigit = true then
      some ((digitsVal ip : ℚ) + (digitsVal f : ℚ) / (10 : ℚ) ^ f.length)
    else none
  match t.dropWhile isDigit with
  | [] => value []
  | c :: f => if c = '.' then value f else none

/-- `float(s)` for numerals without exponent; exact instead of rounded to double.
(`src/tatc/schemas/orbit.py` L133, L146, L202). -/
def pyFloat (s : List Char) : Except PyErr ℚ :=
  let (neg, t) := splitSign (strip s)
  match unsigned t with
  | none => .error .valueError
  | some v => .ok (if neg then -v else v)

/-- `s.zfill(w)` for a numeral without sign.
(`src/tatc/utils.py` L1206). -/
def zfill (w : Nat) (s : List Char) : List Char := List.replicate (w - s.length) '0' ++ s

end Tatc.Text
