import Verif.Model.IeeeGrid

/-!
# Floating point arithmetic of the equally spaced cells

`generate_equally_spaced_cells` without a mask, every operation rounded to a double precision number.
-/

namespace Tatc.Ieee
open Tatc.Num Tatc.Generation

/-- `_generate_equally_spaced_indices` without a mask, with the `strips` option (`src/tatc/generation/points.py` L248-L278). -/
noncomputable def stripIndices (theta : ℝ) : Option Strips → List (Int × Int)
  | some .lat => (pyRange 0 (roundHalfEven (fl (180 / theta)))).map fun j => (0, j)
  | some .lon => (pyRange 0 (roundHalfEven (turn theta))).map fun i => (i, 0)
  | none => gridIndices theta

/-- A side of a cell, `-180 + i * theta` or `-90 + j * theta` (`src/tatc/generation/cells.py` L107, L112, L120, L125, L133,
L138, L146, L151, L159, L164); an index is an integer and converts to a double precision number exactly. -/
noncomputable def side (theta origin : ℝ) (i : Int) : ℝ := fl (origin + fl (i * theta))

/-- `generate_equally_spaced_cells` without a mask (`src/tatc/generation/cells.py` L23-L53, L85-L176, L182-L183). The
positions of a cell are those between the numbers the code computes for its sides. -/
noncomputable def gridCells (distance elevation : ℝ) (strips : Option Strips) : List CellRow :=
  let theta := gridStep distance
  (stripIndices theta strips).map fun (i, j) =>
    ⟨pointId i j theta,
      rectangle (if strips = some .lat then -180 else side theta (-180) i)
        (if strips = some .lat then 180 else side theta (-180) (i + 1))
        (if strips = some .lon then -90 else side theta (-90) j)
        (if strips = some .lon then 90 else side theta (-90) (j + 1)), elevation⟩

end Tatc.Ieee
