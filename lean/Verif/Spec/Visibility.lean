import Mathlib.Data.Rat.Cast.Order
import Mathlib.Algebra.Order.Ring.Rat
import Verif.Model.Coverage

/-!
# Specification: a visibility signal and its crossings

A satellite is visible or not at the start of the window (`initial`), and this changes at
each of the increasing crossing times.
-/

namespace Tatc.Spec
open Tatc.Coverage (EventKind)

/-- Visibility at the instant `t`: the initial state, flipped once per crossing at or before
`t`. -/
def visibleAt (initial : Bool) (crossings : List Int) (t : ℚ) : Bool :=
  initial ^^ decide ((crossings.filter fun c : Int => decide ((c : ℚ) ≤ t)).length % 2 = 1)

/-- The rise and set events of the signal, in time order: a crossing while visible is a set, a
crossing while not visible a rise.  `b` is the state before the first crossing. -/
def alternating : Bool → List Int → List (Int × EventKind)
  | _, [] => []
  | b, c :: t => (c, if b then .set else .rise) :: alternating (!b) t

/-- For a signal that is not visible before its first crossing: every complete pass
(a rise followed by a set) is shorter than `2 * M`. -/
def PassesShort (M : Int) : List Int → Prop
  | [] => True
  | [_] => True
  | r :: s :: t => s - r < 2 * M ∧ PassesShort M t

/-- `events` is the event list of the visibility signal `(initial, crossings)` over the window
`(start, end_)`:
* crossings are strictly increasing and inside the window,
* apart from culminations the events are the rises and sets of the signal,
* without any crossing there is a culmination exactly when the satellite is visible,
* complete passes are shorter than twice `M`. -/
structure SignalEvents (start end_ M : Int) (initial : Bool) (crossings : List Int)
    (events : List (Int × EventKind)) : Prop where
  increasing : crossings.Pairwise (· < ·)
  inside : ∀ c ∈ crossings, start < c ∧ c < end_
  events_eq : events.filter (fun e => decide (e.2 ≠ .culminate)) = alternating initial crossings
  culminates : crossings = [] → (events ≠ [] ↔ initial = true)
  short : PassesShort M (if initial then crossings.tail else crossings)

end Tatc.Spec
