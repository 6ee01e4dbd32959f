import Verif.Model.Repair
import Verif.Props.Times
import Verif.Props.Settled

/-! C167: what splitting returns is valid, and C80 with the repair of an invalid result. -/

namespace Tatc.Props
open Tatc Tatc.Pandas Tatc.Polygons

/-- The polygons of a geometry, those of a collection included. -/
def areas : Geom → List Polygon
  | .polygon p => [p]
  | .multi ps => ps
  | .collection gs => gs.flatMap Geom.polygons ++ gs.flatMap Geom.multis
  | .other => []

/-- A `Polygon` or a `MultiPolygon`. -/
def IsPolygonal (g : Geom) : Prop := (∃ p, g = .polygon p) ∨ ∃ ps, g = .multi ps

/-- What is used of `make_valid`: its result is valid, so are the polygons of a collection that it gives, taken together,
and no vertex is beyond the extreme coordinates of the geometry that was repaired. -/
structure Repairer (v : Repair) : Prop where
  valid : ∀ g, v.isValid (v.makeValid g) = true
  parts : ∀ g gs, v.makeValid g = .collection gs → v.isValid (ofList (areas (.collection gs))).geom = true
  coords : ∀ shape : Shape, ∀ p ∈ areas (v.makeValid shape.geom), ∀ c ∈ allCoords p,
    (∃ q ∈ shape.parts, ∃ a ∈ allCoords q, a.x ≤ c.x) ∧ (∃ q ∈ shape.parts, ∃ a ∈ allCoords q, c.x ≤ a.x) ∧
    (∃ q ∈ shape.parts, ∃ a ∈ allCoords q, a.y ≤ c.y) ∧ ∃ q ∈ shape.parts, ∃ a ∈ allCoords q, c.y ≤ a.y

theorem areas_geom (shape : Shape) : areas shape.geom = shape.parts := by cases shape <;> rfl

theorem areas_ofList (l : List Polygon) : areas (ofList l).geom = l := by
  rcases l with _ | ⟨p, _ | ⟨q, t⟩⟩ <;> rfl

theorem polygonal_geom (shape : Shape) : IsPolygonal shape.geom := by
  cases shape with
  | polygon p => exact .inl ⟨p, rfl⟩
  | multi ps => exact .inr ⟨ps, rfl⟩

/-- The polygons after the repair are those of the valid geometry, or of the geometry made valid. -/
theorem repair_areas (v : Repair) (shape : Shape) :
    areas (repair v shape) = if v.isValid shape.geom then shape.parts else areas (v.makeValid shape.geom) := by
  unfold repair
  split
  · exact areas_geom shape
  · cases hm : v.makeValid shape.geom with
    | collection gs => exact areas_ofList _
    | polygon p => rfl
    | multi ps => rfl
    | other => rfl

theorem splitRepaired_ok {s : Shapely} {v : Repair} {sort : SortValues Coord.x}
    {sort' : SortValues (α := ℝ × ℝ) Prod.fst} {shape : Shape} {g : Geom} :
    splitRepaired s v sort sort' shape = .ok g ↔ ∃ out, splitPolygon s sort sort' shape = .ok out ∧ repair v out = g := by
  unfold splitRepaired
  rw [ok_bind_eq]
  constructor
  · rintro ⟨out, h, h'⟩
    exact ⟨out, h, Except.ok.inj h'⟩
  · rintro ⟨out, h, rfl⟩
    exact ⟨out, h, rfl⟩

/-- **C167**: what splitting returns is valid. -/
theorem C167_valid {s : Shapely} {v : Repair} (hv : Repairer v) (sort : SortValues Coord.x)
    (sort' : SortValues (α := ℝ × ℝ) Prod.fst) (shape : Shape) (g : Geom)
    (h : splitRepaired s v sort sort' shape = .ok g) : v.isValid g = true := by
  obtain ⟨out, -, rfl⟩ := splitRepaired_ok.mp h
  unfold repair
  split
  · assumption
  · have hm := hv.valid out.geom
    have hp := hv.parts out.geom
    cases hg : v.makeValid out.geom with
    | collection gs => exact hp gs hg
    | polygon p => rw [hg] at hm; exact hm
    | multi ps => rw [hg] at hm; exact hm
    | other => rw [hg] at hm; exact hm

/-- **C167**: a valid result of splitting is returned as it is, part by part. -/
theorem C167_unchanged {s : Shapely} {v : Repair} (sort : SortValues Coord.x)
    (sort' : SortValues (α := ℝ × ℝ) Prod.fst) (shape out : Shape) (h : splitPolygon s sort sort' shape = .ok out)
    (hok : v.isValid out.geom = true) : splitRepaired s v sort sort' shape = .ok out.geom := by
  rw [splitRepaired_ok]
  exact ⟨out, h, if_pos hok⟩

/-- **C167**, where it holds: the result is a polygon or a multipolygon with exactly the polygons that `make_valid` gives, in
order, unless it gives a mere line or point, and then it has the requested elevation at every vertex. -/
theorem C167_polygonal_partial {s : Shapely} {v : Repair} (sort : SortValues Coord.x)
    (sort' : SortValues (α := ℝ × ℝ) Prod.fst) (shape out : Shape) (elevation : ℝ)
    (h : splitPolygon s sort sort' shape = .ok out)
    (ho : v.isValid out.geom = true ∨ v.makeValid out.geom ≠ .other) :
    (∃ g, splitRepaired s v sort sort' shape = .ok g ∧ IsPolygonal g ∧
      areas g = if v.isValid out.geom then out.parts else areas (v.makeValid out.geom)) ∧
    ∃ out', splitProjected s v sort sort' elevation shape = .ok out' ∧
      ∀ p ∈ out'.parts, ∀ c ∈ allCoords p, c.z = some elevation := by
  have hpoly : IsPolygonal (repair v out) := by
    unfold repair
    split
    · exact polygonal_geom out
    · rename_i hv
      cases hg : v.makeValid out.geom with
      | collection gs => exact polygonal_geom _
      | polygon p => exact .inl ⟨p, rfl⟩
      | multi ps => exact .inr ⟨ps, rfl⟩
      | other =>
        rcases ho with ho | ho
        · exact absurd ho hv
        · exact absurd hg ho
  have hsplit : splitRepaired s v sort sort' shape = .ok (repair v out) := splitRepaired_ok.mpr ⟨out, h, rfl⟩
  refine ⟨⟨_, hsplit, hpoly, repair_areas v out⟩, ?_⟩
  have hproj : ∀ p : Polygon, ∀ c ∈ allCoords (projectPolygon elevation p), c.z = some elevation := by
    intro p c hc
    have hring : ∀ l : List Coord, ∀ c ∈ ring (l.map fun c => (⟨c.x, c.y, some elevation⟩ : Coord)),
        c.z = some elevation := by
      intro l c hc
      unfold ring at hc
      split at hc
      · cases hc
      · rename_i a ha
        have hmem : ∀ c ∈ l.map fun c => (⟨c.x, c.y, some elevation⟩ : Coord), c.z = some elevation := by
          intro c hc
          obtain ⟨_, _, rfl⟩ := List.mem_map.mp hc
          rfl
        split at hc
        · exact hmem c hc
        · rcases List.mem_append.mp hc with hc | hc
          · exact hmem c hc
          · rw [List.mem_singleton.mp hc]
            exact hmem a (List.mem_of_mem_head? (by rw [ha]; rfl))
    rcases List.mem_append.mp hc with hc | hc
    · exact hring _ c hc
    · obtain ⟨i, hi, hci⟩ := List.mem_flatten.mp hc
      simp only [projectPolygon, mkPolygon, List.map_map, List.mem_map, Function.comp_apply] at hi
      obtain ⟨j, -, rfl⟩ := hi
      exact hring _ c hci
  unfold splitProjected
  rw [hsplit]
  rcases hpoly with ⟨p, hp⟩ | ⟨ps, hp⟩
  · refine ⟨_, by rw [hp]; rfl, fun q hq c hc => ?_⟩
    rw [List.mem_singleton.mp hq] at hc
    exact hproj p c hc
  · refine ⟨_, by rw [hp]; rfl, fun q hq c hc => ?_⟩
    obtain ⟨p, -, rfl⟩ := List.mem_map.mp hq
    exact hproj p c hc

/-- **C167** fails for what encloses no area: shapely makes a line of it, and this is returned instead of a polygon; giving it
an elevation is an error. -/
theorem C167_line_false {s : Shapely} {v : Repair} (sort : SortValues Coord.x)
    (sort' : SortValues (α := ℝ × ℝ) Prod.fst) (shape out : Shape) (elevation : ℝ)
    (h : splitPolygon s sort sort' shape = .ok out) (hv : v.isValid out.geom = false)
    (ho : v.makeValid out.geom = .other) :
    splitRepaired s v sort sort' shape = .ok .other ∧ ¬ IsPolygonal .other ∧
      splitProjected s v sort sort' elevation shape = .error .attributeError := by
  have hr : repair v out = .other := by
    unfold repair
    rw [hv, ho]; rfl
  have hsplit : splitRepaired s v sort sort' shape = .ok .other := splitRepaired_ok.mpr ⟨out, h, hr⟩
  refine ⟨hsplit, ?_, ?_⟩
  · rintro (⟨p, hp⟩ | ⟨ps, hp⟩)
    · cases hp
    · cases hp
  · unfold splitProjected
    rw [hsplit]; rfl

/-- A polygon on the globe without steps of half a turn is not cut. -/
theorem splitPolygon_small {s : Shapely} (sort : SortValues Coord.x) (sort' : SortValues (α := ℝ × ℝ) Prod.fst) {p : Polygon}
    (hx : smallSteps (p.exterior.map (·.x))) (hy : ∀ c ∈ p.exterior, -90 ≤ c.y ∧ c.y ≤ 90) :
    splitPolygon s sort sort' (.polygon p) = .ok (.polygon p) := by
  have e1 : forParts (splitAntimeridian s sort sort') (.polygon p) = .ok (.polygon p) := by
    show splitAntimeridian s sort sort' _ = _
    unfold splitAntimeridian; simp only [if_pos hx]
  have e2 : forParts (splitSouth s) (.polygon p) = .ok (.polygon p) := by
    show splitSouth s _ = _
    unfold splitSouth; rw [if_pos fun c hc => (hy c hc).1]
  have e3 : forParts (splitNorth s) (.polygon p) = .ok (.polygon p) := by
    show splitNorth s _ = _
    unfold splitNorth; rw [if_pos fun c hc => (hy c hc).2]
  unfold splitPolygon
  rw [e1]
  show (forParts (splitSouth s) (.polygon p) >>= fun b => forParts (splitNorth s) b) = _
  rw [e2]
  exact e3

/-- **C167** for masks: an invalid polygon is refused, and only that is. -/
theorem C167_normalize {s : Shapely} {v : Repair} (hv : Repairer v) (sort : SortValues Coord.x)
    (sort' : SortValues (α := ℝ × ℝ) Prod.fst) (shape : Shape) :
    (v.isValid shape.geom = false → normalizeShape s v sort sort' shape = .error .valueError) ∧
    ∀ g, normalizeShape s v sort sort' shape = .ok g ↔
      v.isValid shape.geom = true ∧ splitRepaired s v sort sort' shape = .ok g ∧ v.isValid g = true := by
  refine ⟨fun h => ?_, fun g => ?_⟩
  · unfold normalizeShape; rw [h]; rfl
  · unfold normalizeShape
    cases h : v.isValid shape.geom with
    | false => simp
    | true =>
      simp only [Bool.not_true, Bool.false_eq_true, if_false, true_and]
      exact ⟨fun hg => ⟨hg, C167_valid hv sort sort' shape g hg⟩, fun hg => hg.1⟩

/-- **C80** with the repair of an invalid result, where it holds: every coordinate of what `split_polygon` returns is on the
globe.  Missing, as in `C80_split_polygon_partial`: holes at the south pole and heights, where it fails. -/
theorem C80_repaired_partial {s : Shapely} (hs : Splitter s) {v : Repair} (hv : Repairer v) (sort : SortValues Coord.x)
    (sort' : SortValues (α := ℝ × ℝ) Prod.fst) (shape : Shape)
    (h : ∀ p ∈ shape.parts, ClosedPolygon p ∧ p.interiors = [] ∧ NarrowRing (p.exterior.map (·.x)) ∧
      ∀ v ∈ p.exterior, v.z = none ∧ (-180 ≤ v.x ∧ v.x ≤ 180) ∧ -180 < v.y ∧ v.y < 180) :
    ∃ g, splitRepaired s v sort sort' shape = .ok g ∧ ∀ r ∈ areas g, ∀ c ∈ allCoords r, OnGlobe c := by
  obtain ⟨out, hout, hglobe⟩ := C80_split_polygon_partial hs sort sort' shape h
  refine ⟨_, splitRepaired_ok.mpr ⟨out, hout, rfl⟩, fun r hr c hc => ?_⟩
  rw [repair_areas] at hr
  split at hr
  · exact hglobe r hr c hc
  · obtain ⟨⟨q1, h1, a1, k1, e1⟩, ⟨q2, h2, a2, k2, e2⟩, ⟨q3, h3, a3, k3, e3⟩, q4, h4, a4, k4, e4⟩ := hv.coords out r hr c hc
    exact ⟨⟨(hglobe q1 h1 a1 k1).1.1.trans e1, e2.trans (hglobe q2 h2 a2 k2).1.2⟩,
      (hglobe q3 h3 a3 k3).2.1.trans e3, e4.trans (hglobe q4 h4 a4 k4).2.2⟩

/-! ## A repair that meets this -/

open scoped Classical in
/-- Polygons with all vertices on one meridian are not valid, and are dropped. -/
noncomputable def upright (p : Polygon) : Bool := decide (∃ x, ∀ c ∈ p.exterior, c.x = x)

/-- Drops the polygons that are on one meridian, and leaves their lines. -/
noncomputable def dropLines : Repair where
  isValid g := (areas g).all fun p => !upright p
  makeValid
    | .polygon p => if upright p then .other else .polygon p
    | .multi ps => .collection ((ps.filter fun p => !upright p).map .polygon ++ [.other])
    | _ => .other

theorem areas_lines (ps : List Polygon) : areas (.collection (ps.map .polygon ++ [.other])) = ps := by
  have h : ∀ l : List Polygon, (l.map Geom.polygon).flatMap Geom.polygons = l := by
    intro l
    induction l with
    | nil => rfl
    | cons a t ih => simp [Geom.polygons, ih]
  have h' : ∀ l : List Polygon, (l.map Geom.polygon).flatMap Geom.multis = [] := by
    intro l
    induction l with
    | nil => rfl
    | cons a t ih => simp [Geom.multis]
  simp only [areas, List.flatMap_append, h, h']
  simp [Geom.polygons, Geom.multis]

theorem dropLines_repairer : Repairer dropLines where
  valid g := by
    cases g with
    | polygon p =>
      by_cases h : upright p = true
      · simp [dropLines, h, areas]
      · simp [dropLines, h, areas]
    | multi ps => simp [dropLines, areas_lines]
    | collection gs => rfl
    | other => rfl
  parts g gs h := by
    cases g with
    | polygon p =>
      simp only [dropLines] at h
      split at h <;> cases h
    | multi ps =>
      simp only [dropLines, Geom.collection.injEq] at h
      rw [← h, areas_lines]
      simp [dropLines, areas_ofList]
    | collection gs => cases h
    | other => cases h
  coords shape p hp c hc := by
    have hmem : p ∈ shape.parts := by
      cases shape with
      | polygon q =>
        simp only [Shape.geom, dropLines] at hp
        split at hp
        · cases hp
        · exact hp
      | multi qs =>
        simp only [Shape.geom, dropLines, areas_lines] at hp
        exact (List.mem_filter.mp hp).1
    exact ⟨⟨p, hmem, c, hc, le_refl _⟩, ⟨p, hmem, c, hc, le_refl _⟩, ⟨p, hmem, c, hc, le_refl _⟩, ⟨p, hmem, c, hc, le_refl _⟩⟩

open scoped Classical in
/-- A rectangle is returned, and of a rectangle and a line the rectangle. -/
example : repair dropLines (.polygon (box 0 10 20 30)) = .polygon (box 0 10 20 30) ∧
    repair dropLines (.multi [box 0 10 20 30, box 5 5 20 30]) = .polygon (box 0 10 20 30) := by
  have h1 : upright (box 0 10 20 30) = false := by
    refine decide_eq_false ?_
    rintro ⟨x, hx⟩
    have a := hx ⟨0, 20, none⟩ (by simp [box])
    have b := hx ⟨10, 20, none⟩ (by simp [box])
    simp only at a b
    rw [← a] at b
    norm_num at b
  have h2 : upright (box 5 5 20 30) = true := by
    refine decide_eq_true ⟨5, fun c hc => ?_⟩
    simp only [box, List.mem_cons, List.not_mem_nil, or_false] at hc
    rcases hc with rfl | rfl | rfl | rfl | rfl <;> rfl
  constructor
  · simp [repair, dropLines, Shape.geom, areas, h1]
  · simp [repair, dropLines, Shape.geom, areas, h1, h2, convertCollection, Geom.polygons, Geom.multis, ofList]

open scoped Classical in
/-- A rectangle without width is a case of `C167_line_false`. -/
example (s : Shapely) (sort : SortValues Coord.x) (sort' : SortValues (α := ℝ × ℝ) Prod.fst) :
    splitProjected s dropLines sort sort' 100 (.polygon (box 5 5 20 30)) = .error .attributeError := by
  have h2 : upright (box 5 5 20 30) = true := by
    refine decide_eq_true ⟨5, fun c hc => ?_⟩
    simp only [box, List.mem_cons, List.not_mem_nil, or_false] at hc
    rcases hc with rfl | rfl | rfl | rfl | rfl <;> rfl
  refine (C167_line_false sort sort' _ _ 100 (splitPolygon_small sort sort' ?_ ?_) ?_ ?_).2.2
  · show |(5 : ℝ) - 5| < 180 ∧ |(5 : ℝ) - 5| < 180 ∧ |(5 : ℝ) - 5| < 180 ∧ |(5 : ℝ) - 5| < 180 ∧ True
    norm_num
  · intro c hc
    simp only [box, List.mem_cons, List.not_mem_nil, or_false] at hc
    rcases hc with rfl | rfl | rfl | rfl | rfl <;> norm_num
  · simp [dropLines, Shape.geom, areas, h2]
  · simp [dropLines, Shape.geom, h2]

end Tatc.Props
