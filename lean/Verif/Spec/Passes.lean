import Verif.Spec.Visibility
import Verif.Spec.Regard

/-!
# A satellite that passes over a place, and what is reported of its rises and sets
-/

namespace Tatc.Spec
open Tatc.Coverage (EventKind)

/-- Rises and sets. -/
def isCrossing (e : Int × EventKind) : Bool := decide (e.2 ≠ .culminate)

/-- The rises, culminations and sets reported between `start` and `end_` of a satellite that is high enough at the times
at which `above` holds: rises and sets alternate, in order; the satellite is high enough after a rise and is not after a
set, except within `tolerance` of one of them; and without rises and sets there is a culmination exactly when it is high
enough throughout. -/
structure Reported (start end_ tolerance : Int) (above : ℚ → Prop) (events : List (Int × EventKind)) : Prop where
  signal : ∃ (initial : Bool) (crossings : List Int), crossings.Pairwise (· < ·) ∧ (∀ c ∈ crossings, start < c ∧ c < end_) ∧
    events.filter isCrossing = alternating initial crossings ∧ (crossings = [] → (events ≠ [] ↔ initial = true)) ∧
    ∀ t : ℚ, start < t → t < end_ → (∀ c ∈ crossings, t ≠ c ∧ (tolerance : ℚ) ≤ |t - c|) →
      (visibleAt initial crossings t = true ↔ above t)

/-- A satellite on a circular orbit: its height and period, and two directions of its plane at right angles. -/
structure Flight where
  radius : ℝ
  period : ℝ
  u : V3
  v : V3

/-- At the time `t` (nanoseconds) the satellite is above the horizon of a place on an Earth of the given radius and day, and
sees it at most `angle` degrees from the direction to the centre of the Earth. -/
def Flight.Sees (s : Flight) (angle radius day lat lon : ℝ) (t : ℚ) : Prop :=
  ElevationAtLeast 0 (circularPosition s.radius s.period s.u s.v ((t : ℝ) / 10 ^ 9)) (turningAt radius lat lon day ((t : ℝ) / 10 ^ 9)) ∧
  OffNadirAtMost angle (circularPosition s.radius s.period s.u s.v ((t : ℝ) / 10 ^ 9)) (turningAt radius lat lon day ((t : ℝ) / 10 ^ 9))

end Tatc.Spec
