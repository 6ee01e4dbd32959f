import Mathlib.Data.Rat.Cast.Order

/-!
# Specification: connected components of labelled time intervals

Independent of the model: intervals are plain triples `(point, start, end)`.
-/

namespace Tatc.Spec

/-- A time interval of a point: `(point_id, start, end)`. -/
structure PInterval where
  point : Int
  start : Int
  stop : Int
deriving DecidableEq, Repr

/-- The instant `t` (not necessarily a tick) lies in the closed interval. -/
def PInterval.Contains (i : PInterval) (t : ℚ) : Prop := (i.start : ℚ) ≤ t ∧ t ≤ (i.stop : ℚ)

/-- `rows` are the connected components of the union of the intervals `obs`, point by
point, in order:
* no row is empty,
* every instant of a row is covered by an observation of the same point,
* every observation lies within a row of the same point,
* rows are ordered by point, and within a point each ends strictly before the next
  starts. -/
structure IsComponents (obs rows : List PInterval) : Prop where
  nonempty : ∀ r ∈ rows, r.start ≤ r.stop
  covered : ∀ r ∈ rows, ∀ t : ℚ, r.Contains t → ∃ o ∈ obs, o.point = r.point ∧ o.Contains t
  covers : ∀ o ∈ obs, ∃ r ∈ rows, r.point = o.point ∧ r.start ≤ o.start ∧ o.stop ≤ r.stop
  separated : rows.Pairwise fun r r' =>
    r.point < r'.point ∨ (r.point = r'.point ∧ r.stop < r'.start)

end Tatc.Spec
