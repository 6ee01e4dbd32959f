import Verif.Model.Ieee
import Verif.Model.Generation

/-!
# Floating point arithmetic of the equally spaced points

`generate_equally_spaced_points` without a mask, every operation rounded to a double precision number.
-/

namespace Tatc.Ieee
open Tatc.Num Tatc.Generation

/-- `EARTH_MEAN_RADIUS`, the double precision number (`src/tatc/constants.py` L43). -/
noncomputable def earthMeanRadius : ℝ := 6840818578939205 / 2 ^ 30

/-- The angular step for a distance, `np.degrees(distance / EARTH_MEAN_RADIUS)` (`src/tatc/generation/points.py` L171-L172). -/
noncomputable def gridStep (distance : ℝ) : ℝ := fl (fl (distance / earthMeanRadius) * degreeFactor)

/-- `360 / theta` (`src/tatc/generation/points.py` L197, L275). -/
noncomputable def turn (theta : ℝ) : ℝ := fl (360 / theta)

/-- `_compute_equally_spaced_point_id` with equal steps (`src/tatc/generation/points.py` L179-L197). -/
noncomputable def pointId (i j : Int) (theta : ℝ) : Int := j * pyInt (turn theta) + i % pyInt (turn theta)

/-- `_generate_equally_spaced_indices` without a mask (`src/tatc/generation/points.py` L268-L278): the bounds are those of the
globe, so that the first indices are 0. -/
noncomputable def gridIndices (theta : ℝ) : List (Int × Int) :=
  (pyRange 0 (roundHalfEven (fl (180 / theta)))).flatMap fun j =>
    (pyRange 0 (roundHalfEven (turn theta))).map fun i => (i, j)

/-- `generate_equally_spaced_points` without a mask (`src/tatc/generation/points.py` L148-L176, L306-L336). -/
noncomputable def gridPoints (distance elevation : ℝ) : List PointRow :=
  let theta := gridStep distance
  (gridIndices theta).map fun (i, j) =>
    ⟨pointId i j theta, fl (-180 + fl (fl (i + 0.5) * theta)), fl (-90 + fl (fl (j + 0.5) * theta)), elevation⟩

end Tatc.Ieee
