import Mathlib.Data.Real.Basic
import Mathlib.Algebra.Group.Even
import Mathlib.Data.List.Basic

/-!
# The points that a polygon covers

A polygon is given by rings of points in the plane of longitudes and latitudes.  A point is inside of a ring when the ray
straight up from it crosses the ring an odd number of times.
-/

namespace Tatc.Spec
open scoped Classical

/-- The sides of a ring: consecutive points. -/
def sides (r : List (ℝ × ℝ)) : List ((ℝ × ℝ) × (ℝ × ℝ)) := r.zip r.tail

/-- The side reaches over the abscissa of the point. -/
def Spans (P : ℝ × ℝ) (e : (ℝ × ℝ) × (ℝ × ℝ)) : Prop :=
  (e.1.1 ≤ P.1 ∧ P.1 < e.2.1) ∨ (e.2.1 ≤ P.1 ∧ P.1 < e.1.1)

/-- The ordinate of the line through a side at an abscissa. -/
noncomputable def heightAt (e : (ℝ × ℝ) × (ℝ × ℝ)) (x : ℝ) : ℝ :=
  e.1.2 + (e.2.2 - e.1.2) * ((x - e.1.1) / (e.2.1 - e.1.1))

/-- The side passes above the point. -/
def PassesOver (P : ℝ × ℝ) (e : (ℝ × ℝ) × (ℝ × ℝ)) : Prop := Spans P e ∧ P.2 < heightAt e P.1

/-- How many sides of the ring pass above the point. -/
noncomputable def sidesOver (r : List (ℝ × ℝ)) (P : ℝ × ℝ) : ℕ := (sides r).countP fun e => decide (PassesOver P e)

/-- The point is inside of the ring. -/
def InsideRing (r : List (ℝ × ℝ)) (P : ℝ × ℝ) : Prop := Odd (sidesOver r P)

/-- The point is on a side of the ring. -/
def OnRing (r : List (ℝ × ℝ)) (P : ℝ × ℝ) : Prop :=
  ∃ e ∈ sides r, ∃ t : ℝ, 0 ≤ t ∧ t ≤ 1 ∧ P = (e.1.1 + t * (e.2.1 - e.1.1), e.1.2 + t * (e.2.2 - e.1.2))

end Tatc.Spec
