import Verif.Model.Instrument

/-!
# The Earth of the projected rays

`compute_projected_ray_position` and `compute_limb` call SPICE on the ellipsoid of WGS 84.  Its functions are written here
in closed form; positions are kept as vectors (`recgeo`, which turns them into longitude, latitude and height, is left
out).
-/

namespace Tatc.Instruments
open Tatc Tatc.Num

/-- The radii of an ellipsoid of revolution (`src/tatc/utils.py` L475-L477). -/
structure Axes where
  /-- at the equator (`src/tatc/utils.py` L475-L476) -/
  a : ℝ
  /-- at the poles (`src/tatc/utils.py` L477) -/
  c : ℝ

/-- The radii at an elevation (`src/tatc/utils.py` L475-L477, L493-L495, L640-L642). -/
noncomputable def earthAxes (elevation : ℝ) : Axes := ⟨equatorialRadius + elevation, polarRadius + elevation⟩

/-- The bilinear form of the ellipsoid (`src/tatc/utils.py` L472-L478: the equation that `surfpt` solves). -/
noncomputable def Axes.form (e : Axes) (x y : V3) : ℝ := (x.x * y.x + x.y * y.y) / e.a ^ 2 + x.z * y.z / e.c ^ 2

/-- `surfpt(position, ray, a, b, c)` (`src/tatc/utils.py` L472-L478): the intersection of the ray with the ellipsoid
that is nearest to the position; none is `NotFoundError`. -/
noncomputable def surfpt (e : Axes) (p r : V3) : Option V3 :=
  let A := e.form r r
  let B := e.form p r
  let C := e.form p p - 1
  let D := B ^ 2 - A * C
  if D < 0 then none
  else
    let t1 := (-B - Real.sqrt D) / A
    let t2 := (-B + Real.sqrt D) / A
    if 0 ≤ t1 then some (p.add (r.smul t1))
    else if 0 ≤ t2 then some (p.add (r.smul t2))
    else none

/-- The normal of the polar plane of a position, in which its limb lies (`src/tatc/utils.py` L492-L497: `edlimb`). -/
noncomputable def Axes.polar (e : Axes) (p : V3) : V3 := ⟨p.x / e.a ^ 2, p.y / e.a ^ 2, p.z / e.c ^ 2⟩

/-- `inelpl(edlimb(a, b, c, position), nvp2pl(normal, position))` (`src/tatc/utils.py` L492-L507): the two points in which
the plane through the position with that normal cuts the limb.  When it does not, SPICE leaves the points undefined;
here they are some point. -/
noncomputable def limbCut (e : Axes) (p normal : V3) : V3 × V3 :=
  let d := (e.polar p).cross normal
  let w := normal.cross d
  let s := (1 - (e.polar p).dot p) / (e.polar p).dot w
  let x := p.add (w.smul s)
  let A := e.form d d
  let B := e.form x d
  let D := B ^ 2 - A * (e.form x x - 1)
  (x.add (d.smul ((-B + Real.sqrt D) / A)), x.add (d.smul ((-B - Real.sqrt D) / A)))

/-- The angle between two vectors (`src/tatc/utils.py` L509-L514). -/
noncomputable def arcAngle (r x : V3) : ℝ :=
  Real.arccos (r.dot x / Real.sqrt (r.dot r) / Real.sqrt (x.dot x))

/-- The normal of the plane of a ray angle (`src/tatc/utils.py` L504). -/
noncomputable def limbNormal (s : State) (angle : ℝ) : V3 :=
  (s.v.smul (Real.sin (Real.pi / 2 + angle))).add (s.n.smul (Real.cos (Real.pi / 2 + angle)))

/-- The point of the limb that is used for a ray that misses the Earth (`src/tatc/utils.py` L489-L516). -/
noncomputable def limbPoint (s : State) (r : V3) (angle elevation : ℝ) : V3 :=
  let cut := limbCut (earthAxes elevation) s.position (limbNormal s angle)
  if arcAngle r cut.1 ≤ arcAngle r cut.2 then cut.1 else cut.2

/-- The Earth of `compute_projected_ray_position` (`src/tatc/utils.py` L467-L525). -/
noncomputable def earth : Globe V3 where
  surface := fun p r elevation => surfpt (earthAxes elevation) p r
  limb := limbPoint

/-- `PointedInstrument.compute_footprint` (`src/tatc/schemas/instrument.py` L248-L274; `src/tatc/utils.py` L532-L594), at one
time, for a given number of points: the vertices, before the polygon is split. -/
noncomputable def Pointed.footprint (p : Pointed) (s : State) (n : Nat) (elevation : ℝ) : List V3 :=
  footprintPoints earth s p.crossFov p.alongFov p.roll p.pitch p.rectangular n elevation

/-! ## The limb -/

/-- What `edlimb` returns (`src/tatc/utils.py` L639-L644): the centre of an ellipse and its two semi-axes. -/
structure Ellipse where
  center : V3
  semiMajor : V3
  semiMinor : V3

/-- What SPICE says of `edlimb` (`src/tatc/utils.py` L639-L644): the ellipse is the set of all points in which lines
through the position touch the ellipsoid. -/
structure EdLimb (e : Axes) (p : V3) (l : Ellipse) : Prop where
  touch : ∀ x, (e.form x x = 1 ∧ e.form x p = 1) ↔
    ∃ t, x = (l.center.add (l.semiMajor.smul (Real.cos t))).add (l.semiMinor.smul (Real.sin t))

/-- The vertices of `compute_limb` (`src/tatc/utils.py` L645-L664), at one time, before the polygon is split. -/
noncomputable def limbVertices (l : Ellipse) (n : Nat) : List V3 :=
  (linspace 0 (Real.pi * 2) n).map fun t =>
    (l.center.add (l.semiMajor.smul (Real.cos t))).add (l.semiMinor.smul (Real.sin t))

end Tatc.Instruments
