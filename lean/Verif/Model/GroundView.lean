import Verif.Model.Buffer

/-!
# Model of buffered footprints

`buffer_footprint` (`src/tatc/utils.py` L676-L707) as a set of places (longitude and latitude in degrees), in the
projection EPSG:4087 that `collect_ground_track` uses by default (`src/tatc/analysis/track.py` L300, L424-L437).
-/

namespace Tatc.Track
open Tatc.Num Tatc.Geometry

/-- A place is drawn at a point of the plane of longitudes and latitudes: after whole turns, or beyond a pole and on the
opposite meridian.  `split_polygon` brings these points back (`src/tatc/utils.py` L698-L704). -/
def DrawnAt (q p : ℝ × ℝ) : Prop :=
  ∃ turns : ℤ, p = (q.1 + 360 * turns, q.2) ∨ p = (q.1 + 180 + 360 * turns, 180 - q.2) ∨
    p = (q.1 + 180 + 360 * turns, -180 - q.2)

/-- `buffer_footprint` of a sub-satellite point contains a place (`src/tatc/utils.py` L698-L706): the point is projected,
buffered by half the swath width, and projected back.  Simplification: shapely replaces the circle by an inscribed
polygon. -/
def bufferFootprint (meridian : ℝ → ℝ) (subpoint : ℝ × ℝ) (swathWidth : ℝ) (q : ℝ × ℝ) : Prop :=
  ∃ p, DrawnAt q p ∧ planar (project meridian subpoint) (project meridian p) ≤ swathWidth / 2

/-- The footprint of a row of `collect_ground_track` with its default projection contains a place: the swath width is that
of the field of regard from the height of the satellite (`src/tatc/analysis/track.py` L166-L170, L395-L397, L432-L437). -/
noncomputable def groundFootprint (meridian : ℝ → ℝ) (subpoint : ℝ × ℝ) (height fieldOfRegard elevation : ℝ)
    (q : ℝ × ℝ) : Prop :=
  bufferFootprint meridian subpoint (forToSwath height fieldOfRegard elevation) q

end Tatc.Track
