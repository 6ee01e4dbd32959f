import Verif.Model.TleTime
import Verif.Model.Vec
import Mathlib.Analysis.SpecialFunctions.Trigonometric.Basic

/-!
# Model of `get_orbit_track`

`src/tatc/schemas/orbit.py` L554-L616.  The propagator (skyfield and sgp4) is a parameter: `sgp4 i t` is the position and
velocity of element set `i` at time `t`, in inertial axes.
-/

namespace Tatc.TleTime

/-- A skyfield `Geocentric`: position and velocity in inertial axes, and the time
(`src/tatc/schemas/orbit.py` L582-L586, L612-L614). -/
structure Geocentric where
  position : V3
  velocity : V3
  time : Int

/-- `get_orbit_track` of one time.  `default` is `config.rc.repeat_cycle_for_orbit_track`, `cycle` the result of
`get_repeat_cycle` (`src/tatc/schemas/orbit.py` L568-L576, L588-L589, L592-L603, L611-L616). -/
def orbitTrackAt (default : Bool) (tryRepeat : Option Bool) (epochs : List Int) (cycle : Option Int)
    (sgp4 : Nat → Int → V3 × V3) (t : Int) : Geocentric :=
  let tryRepeat := tryRepeat.getD default
  if 1 < epochs.length then
    let s := sgp4 (closestIndex epochs t) t
    ⟨s.1, s.2, t⟩
  else
    let s := sgp4 0 (propagatedTime tryRepeat (epochs.getD 0 0) cycle t)
    ⟨s.1, s.2, t⟩

/-- `Geocentric` of arrays: one column of positions and velocities for each time
(`src/tatc/schemas/orbit.py` L582-L586, L612-L614). -/
def geocentrics (states : List (V3 × V3)) (times : List Int) : List Geocentric :=
  List.zipWith (fun s t => ⟨s.1, s.2, t⟩) states times

/-- `get_orbit_track` of a list of times (`src/tatc/schemas/orbit.py` L568-L571, L577-L586, L590-L596, L604-L616). -/
def orbitTrackList (default : Bool) (tryRepeat : Option Bool) (epochs : List Int) (cycle : Option Int)
    (sgp4 : Nat → Int → V3 × V3) (ts : List Int) : List Geocentric :=
  let tryRepeat := tryRepeat.getD default
  if 1 < epochs.length then
    geocentrics (List.zipWith sgp4 (closestIndices epochs ts) ts) ts
  else
    let propagated :=
      if tryRepeat then
        match cycle with
        | some c => ts.map fun t => epochs.getD 0 0 + (t - epochs.getD 0 0).sign * (|t - epochs.getD 0 0| % c)
        | none => ts
      else ts
    geocentrics (propagated.map (sgp4 0)) ts

/-- Rotation of the axes by an angle about the axis of the Earth: what `frame_xyz(itrs)` and
`wgs84.geographic_position_of` do with the position, using the time of the `Geocentric`.  Simplification: the axis is
fixed (no precession, nutation and polar motion) (`src/tatc/analysis/track.py` L120, L148-L152). -/
noncomputable def turnAxes (angle : ℝ) (p : V3) : V3 :=
  ⟨Real.cos angle * p.x + Real.sin angle * p.y, -Real.sin angle * p.x + Real.cos angle * p.y, p.z⟩

/-- The Earth-fixed position of a `Geocentric`; `rotation t` is the angle by which the Earth has turned at `t`
(`src/tatc/analysis/track.py` L120, L148-L152). -/
noncomputable def earthFixed (rotation : Int → ℝ) (g : Geocentric) : V3 := turnAxes (rotation g.time) g.position

end Tatc.TleTime
