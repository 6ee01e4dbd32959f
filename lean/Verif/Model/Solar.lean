import Verif.Model.Real
import Verif.Model.Vec

/-!
# Columns on the Sun

Model of the optional columns of `collect_orbit_track` (`src/tatc/analysis/track.py` L211-L233) and `collect_observations`
(`src/tatc/analysis/coverage.py` L247-L259).  The position of the Sun comes from the ephemeris and is a parameter; the
operations of `skyfield` on it are modelled by their closed forms, over real numbers.
-/

namespace Tatc.Solar
open Tatc.Num
open scoped Classical

/-- `length_of(a)` (`src/tatc/analysis/track.py` L232, in `angle_between`). -/
noncomputable def lengthOf (a : V3) : ℝ := Real.sqrt (a.dot a)

/-- `angle_between(u, v)` of `skyfield.functions` (`src/tatc/analysis/track.py` L17, L232): each vector is multiplied by the
length of the other one, and the angle is twice that between the sum and the difference. -/
noncomputable def angleBetween (u v : V3) : ℝ :=
  let a := u.smul (lengthOf v)
  let b := v.smul (lengthOf u)
  2 * arctan2 (lengthOf (a.add (b.smul (-1)))) (lengthOf (a.add b))

/-- The column `solar_beta` (`src/tatc/analysis/track.py` L225-L233) from the position and velocity of the satellite and the
position of the Sun, relative to the Earth, in inertial axes. -/
noncomputable def solarBeta (position velocity sun : V3) : ℝ :=
  degrees (Real.pi / 2 - angleBetween (position.cross velocity) sun)

/-- The radius of the Earth that `is_sunlit` uses, in metres (`src/tatc/schemas/instrument.py` L157;
`src/tatc/analysis/track.py` L213: `ERAD` of `skyfield`). -/
noncomputable def erad : ℝ := 6378136.6

/-- The distances at which the line from the origin through `endpoint` enters and leaves a sphere; none (`nan`) if it misses
it (`src/tatc/schemas/instrument.py` L157; `src/tatc/analysis/track.py` L213: `intersect_line_and_sphere` of `skyfield`). -/
noncomputable def lineAndSphere (endpoint center : V3) (radius : ℝ) : Option (ℝ × ℝ) :=
  let minusB := 2 * (endpoint.smul (1 / lengthOf endpoint)).dot center
  let c := center.dot center - radius * radius
  let discriminant := minusB * minusB - 4 * c
  if discriminant < 0 then none
  else some ((minusB - Real.sqrt discriminant) / 2, (minusB + Real.sqrt discriminant) / 2)

/-- `orbit_track.is_sunlit(de421)` (`src/tatc/schemas/instrument.py` L157; `src/tatc/analysis/track.py` L213;
`src/tatc/analysis/coverage.py` L249) of a satellite and the Sun, both relative to the Earth: seen from the satellite, the
line to the Sun does not leave the Earth ahead.  `nan` counts as zero. -/
noncomputable def isSunlit (satellite sun : V3) : Bool :=
  let earth := satellite.smul (-1)
  match lineAndSphere (sun.add earth) earth erad with
  | none => true
  | some (_, far) => decide (far ≤ 0)

/-- `hadec()[0].hours` (`src/tatc/analysis/coverage.py` L257-L259): the hour angle of the Sun, from -12 to 12 hours, where
`meridian` is the right ascension of the meridian of the point and `sun` that of the Sun, in degrees. -/
noncomputable def hourAngle (meridian sun : ℝ) : ℝ := (npMod (meridian - sun + 180) 360 - 180) / 15

/-- The column `solar_time` (`src/tatc/analysis/coverage.py` L256-L259), in hours. -/
noncomputable def solarTime (meridian sun : ℝ) : ℝ := hourAngle meridian sun + 12

end Tatc.Solar
