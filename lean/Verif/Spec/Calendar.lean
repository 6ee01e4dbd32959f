import Mathlib.Algebra.BigOperators.Group.Finset.Basic
import Mathlib.Data.Int.Notation

/-!
# The calendar
-/

namespace Tatc.Spec

/-- Leap years of the Gregorian calendar. -/
def LeapYear (y : Nat) : Prop := (4 ∣ y ∧ ¬ 100 ∣ y) ∨ 400 ∣ y

instance (y : Nat) : Decidable (LeapYear y) := by unfold LeapYear; infer_instance

/-- The number of days of a year. -/
def daysIn (y : Nat) : Int := if LeapYear y then 366 else 365

/-- The microseconds from the first of January 1970 to that of a year. -/
def firstOf (y : Nat) : Int :=
  ((∑ k ∈ Finset.range y, daysIn k) - ∑ k ∈ Finset.range 1970, daysIn k) * 86400000000

end Tatc.Spec
