import Mathlib.Data.List.Sort
import Mathlib.Data.Rat.Floor
import Mathlib.Algebra.BigOperators.Group.List.Basic

/-!
# Library contracts used by the model

The parts of pandas / numpy / datetime that the modelled functions call, as total
Lean functions.  A column is a list, a row label is its position unless said
otherwise, NaN/NaT is `none`.  Time stamps and durations are integers (ticks).
-/

namespace Tatc.Pandas

/-- `DataFrame.sort_values(col)`.  pandas' default algorithm is not stable, so the
model takes *any* function that returns a permutation of the rows ordered by the
column; theorems quantify over all of them.
Used at `src/tatc/analysis/coverage.py` L294, L334, `src/tatc/analysis/latency.py`
L89, L139-L157 and `src/tatc/analysis/ro_coverage.py` L296. -/
structure SortValues {α κ : Type} [LE κ] (key : α → κ) where
  run : List α → List α
  perm : ∀ l, (run l).Perm l
  sorted : ∀ l, (run l).Pairwise (fun a b => key a ≤ key b)

/-- Insertion sort, one instance of the contract (it is stable).
(`src/tatc/analysis/coverage.py` L294, L334). -/
def SortValues.insertion {α κ : Type} [LinearOrder κ] (key : α → κ) : SortValues key where
  run l := l.insertionSort (fun a b => key a ≤ key b)
  perm l := List.perm_insertionSort _ l
  sorted l := by
    have : Std.Total (fun a b : α => key a ≤ key b) := ⟨fun a b => le_total _ _⟩
    have : IsTrans α (fun a b : α => key a ≤ key b) := ⟨fun a b c h h' => le_trans h h'⟩
    exact List.pairwise_insertionSort _ l

/-- The distinct values of a key column in increasing order: the iteration order of
`DataFrame.groupby(key)` (default `sort=True`).
(`src/tatc/analysis/coverage.py` L332). -/
def groupKeys {α κ : Type} [LinearOrder κ] (key : α → κ) (l : List α) : List κ :=
  (l.map key).dedup.insertionSort (· ≤ ·)

/-- `DataFrame.groupby(key)`: for each distinct key in increasing order, the rows with
that key in their original order.  `dissolve(by=key)` groups the same way.
(`src/tatc/analysis/coverage.py` L332, L338, L396, L438). -/
def groupBy {α κ : Type} [LinearOrder κ] (key : α → κ) (l : List α) : List (κ × List α) :=
  (groupKeys key l).map fun k => (k, l.filter fun a => key a = k)

/-- `Series.shift()`: move every value down one row; the first becomes NaT.
(`src/tatc/analysis/coverage.py` L336, L351). -/
def shift {α : Type} (l : List α) : List (Option α) :=
  match l with
  | [] => []
  | a :: t => none :: ((a :: t).dropLast.map some)

/-- `Series.cummax()` with `skipna=True`: NaT stays NaT and does not affect the running
maximum `acc` of the values seen so far.
(`src/tatc/analysis/coverage.py` L336). -/
def cummaxFrom {κ : Type} [LinearOrder κ] : Option κ → List (Option κ) → List (Option κ)
  | _, [] => []
  | acc, none :: t => none :: cummaxFrom acc t
  | acc, some x :: t =>
    let m := match acc with
      | none => x
      | some a => max a x
    some m :: cummaxFrom (some m) t

/-- `Series.cummax()`.
(`src/tatc/analysis/coverage.py` L336). -/
def cummax {κ : Type} [LinearOrder κ] (l : List (Option κ)) : List (Option κ) :=
  cummaxFrom none l

/-- Elementwise `a > b` where a comparison with NaT is `False`.
(`src/tatc/analysis/coverage.py` L336). -/
def gtNaT {κ : Type} [LinearOrder κ] (a : κ) (b : Option κ) : Bool :=
  match b with
  | none => false
  | some b => decide (b < a)

/-- `Series.cumsum()` of a boolean series, starting from `acc`.
(`src/tatc/analysis/coverage.py` L336). -/
def cumsumFrom : Nat → List Bool → List Nat
  | _, [] => []
  | acc, b :: t =>
    let n := if b then acc + 1 else acc
    n :: cumsumFrom n t

/-- `Series.cumsum()` of a boolean series.
(`src/tatc/analysis/coverage.py` L336). -/
def cumsum (l : List Bool) : List Nat := cumsumFrom 0 l

/-- Minimum of a column (`"min"` aggregation); groups are never empty, the value on
the empty list is not used.
(`src/tatc/analysis/coverage.py` L344). -/
def colMin (l : List Int) : Int :=
  match l with
  | [] => 0
  | a :: t => t.foldl min a

/-- Maximum of a column (`"max"` aggregation).
(`src/tatc/analysis/coverage.py` L346). -/
def colMax (l : List Int) : Int :=
  match l with
  | [] => 0
  | a :: t => t.foldl max a

/-- Mean of a column (`"mean"` aggregation), exact.  Simplification: the float64
rounding inside pandas is not modelled.
(`src/tatc/analysis/coverage.py` L345, L399). -/
def mean (l : List ℚ) : ℚ := l.sum / l.length

/-- Mean of a column skipping NaN; NaN when nothing is left (`Series.mean`).
(`src/tatc/analysis/coverage.py` L399-L400, `src/tatc/analysis/latency.py` L243). -/
def nanmean (l : List (Option ℚ)) : Option ℚ :=
  let v := l.filterMap id
  if v.isEmpty then none else some (mean v)

/-- Round half to even, as `round()` / `numpy.round` / `timedelta` do.
(`src/tatc/analysis/coverage.py` L405, L407). -/
def roundHalfEven (x : ℚ) : Int :=
  let f := ⌊x⌋
  let d := x - f
  if d < 1 / 2 then f
  else if 1 / 2 < d then f + 1
  else if f % 2 = 0 then f else f + 1

end Tatc.Pandas
