import Verif.Model.Geometry

/-!
# Model of the buffered target of culled ground tracks

`buffer_target` (`src/tatc/utils.py` L710-L747) as a set of points (longitude and latitude in degrees), and the test of
sub-satellite points against it (`src/tatc/analysis/track.py` L336-L363, L657-L684).
-/

namespace Tatc.Track
open Tatc.Num Tatc.Geometry

/-- The projection EPSG:4087 (world equidistant cylindrical): the longitude on the equator of the ellipsoid, and the
length of the meridian, which is the parameter `meridian` (`src/tatc/utils.py` L716, L738-L739). -/
noncomputable def project (meridian : ℝ → ℝ) (p : ℝ × ℝ) : ℝ × ℝ :=
  (equatorialRadius * radians p.1, meridian p.2)

/-- The distance of the plane (`src/tatc/utils.py` L745). -/
noncomputable def planar (p q : ℝ × ℝ) : ℝ := Real.sqrt ((p.1 - q.1) ^ 2 + (p.2 - q.2) ^ 2)

/-- `distance` (`src/tatc/utils.py` L740-L742). -/
noncomputable def bufferDistance (altitude inclination fieldOfRegard timeStep scaling : ℝ) : ℝ :=
  let swathWidth := forToSwath altitude fieldOfRegard 0
  let groundDistance := groundVelocity altitude inclination * timeStep
  (groundDistance + swathWidth / 2) * scaling

/-- The points of `geometry.buffer(distance)` in the plane of the projection: within the distance of a point of the
geometry, or, for a negative distance, not within that distance of a point outside (`src/tatc/utils.py` L745).
Simplification: shapely replaces the rounded corners by inscribed polygons. -/
def inBuffer (target : Set (ℝ × ℝ)) (distance : ℝ) (q : ℝ × ℝ) : Prop :=
  if 0 ≤ distance then ∃ p ∈ target, planar p q ≤ distance
  else ∀ p, planar p q ≤ -distance → p ∈ target

/-- `buffer_target` contains a point (`src/tatc/utils.py` L738-L747, `src/tatc/analysis/track.py` L354-L363):
`split_polygon` moves the parts beyond the antimeridian by whole turns. -/
noncomputable def bufferTarget (meridian : ℝ → ℝ) (target : Set (ℝ × ℝ))
    (altitude inclination fieldOfRegard timeStep : ℝ) (q : ℝ × ℝ) : Prop :=
  ∃ turns : ℤ, inBuffer (project meridian '' target)
    (bufferDistance altitude inclination fieldOfRegard timeStep 1) (project meridian (q.1 + 360 * turns, q.2))

/-- `np.diff(times).mean() / timedelta(seconds=1)`; times are microseconds
(`src/tatc/analysis/track.py` L349, L670). -/
noncomputable def timeStep (times : List Int) : ℝ :=
  (((List.zipWith (fun a b => b - a) times times.tail).sum : ℤ) : ℝ) / (times.length - 1 : ℝ) / 1000000

end Tatc.Track
