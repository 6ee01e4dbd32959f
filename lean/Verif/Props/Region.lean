import Verif.Props.Cutter
import Mathlib.Analysis.SpecialFunctions.Trigonometric.Angle
import Mathlib.Analysis.SpecialFunctions.Complex.Arg

/-!
# C113: splitting a polygon keeps the places it covers
-/

namespace Tatc.Props
open Tatc.Polygons Tatc.Spec Tatc.Lemmas
open Tatc.Pandas (SortValues)
open scoped Classical

/-! ## Polygons across the antimeridian -/

/-- The polygon `L` is `p` drawn in one plane: its exterior follows the longitudes of `p` without jumps, its latitudes are
those of `p`, and the vertices of its holes are those of `p` up to whole turns, between the longitudes of the exterior. -/
structure LiftOf (p L : Polygon) : Prop where
  closed : ClosedPolygon L
  longitudes : Unwraps (p.exterior.map (·.x)) (L.exterior.map (·.x))
  latitudes : L.exterior.map (·.y) = p.exterior.map (·.y)
  holes : List.Forall₂ (List.Forall₂ fun c d : Coord => (∃ k : Int, d.x = c.x - 360 * k) ∧ d.y = c.y) p.interiors L.interiors
  inside : ∀ j ∈ L.interiors, ∀ d ∈ j, (∃ m ∈ L.exterior, m.x ≤ d.x) ∧ ∃ M ∈ L.exterior, d.x ≤ M.x

/-- However its exterior is drawn in one plane, the polygon spans less than 360 degrees, and its holes can be drawn between
the longitudes of the exterior. -/
structure Narrow (p : Polygon) : Prop where
  span : ∀ u, Unwraps (p.exterior.map (·.x)) u → ∀ a ∈ u, ∀ b ∈ u, a - b < 360
  holes : ∀ u, Unwraps (p.exterior.map (·.x)) u → ∀ i ∈ p.interiors, ∀ c ∈ i, (-180 ≤ c.x ∧ c.x ≤ 180) ∧
    ∃ j : Int, ∃ m ∈ u, ∃ M ∈ u, m < c.x - 360 * j ∧ c.x - 360 * j < M

theorem Narrow.ring {p : Polygon} (h : Narrow p) : NarrowRing (p.exterior.map (·.x)) :=
  h.span _ (unwrapped_unwraps _)

/-- A ring of less than 360 degrees comes back to where it started. -/
theorem unwraps_closed {lon u : List ℝ} (h : Unwraps lon u) (hc : lon.head? = lon.getLast?)
    (hn : ∀ a ∈ u, ∀ b ∈ u, a - b < 360) : u.head? = u.getLast? := by
  rcases hl : lon.length with _ | n
  · have : u = [] := List.length_eq_zero_iff.mp (by rw [h.length, hl])
    rw [this]; rfl
  · have hul : u.length = n + 1 := by rw [h.length, hl]
    have h0 := h.start
    rw [List.head?_eq_getElem?, List.head?_eq_getElem?, List.getElem?_eq_getElem (by omega),
      List.getElem?_eq_getElem (by omega)] at h0
    have h0' : u[0] = lon[0] := Option.some.inj h0
    rw [List.head?_eq_getElem?, List.getLast?_eq_getElem?, List.getElem?_eq_getElem (by omega),
      List.getElem?_eq_getElem (by omega)] at hc
    have hc' : lon[0] = lon[lon.length - 1] := Option.some.inj hc
    rw [List.head?_eq_getElem?, List.getLast?_eq_getElem?, List.getElem?_eq_getElem (by omega),
      List.getElem?_eq_getElem (by omega)]
    congr 1
    obtain ⟨k, hk⟩ := h.turns (u.length - 1) (by omega) (by omega)
    have e : lon[u.length - 1]'(by omega) = lon[lon.length - 1] := by congr 1; omega
    rw [e, ← hc', ← h0'] at hk
    have b1 := hn u[0] (List.getElem_mem _) u[u.length - 1] (List.getElem_mem _)
    have b2 := hn u[u.length - 1] (List.getElem_mem _) u[0] (List.getElem_mem _)
    rw [hk] at b1 b2
    have k1 : (k : ℝ) < 1 := by linarith
    have k2 : (-1 : ℝ) < k := by linarith
    have k1' : k < 1 := by exact_mod_cast k1
    have k2' : -1 < k := by exact_mod_cast k2
    obtain rfl : k = 0 := by omega
    rw [hk]; simp

theorem lons_closed {l : List Coord} (h : ClosedRing l) : (l.map (·.x)).head? = (l.map (·.x)).getLast? := by
  unfold ClosedRing at h; rw [List.head?_map, List.getLast?_map, h]

theorem unwrapExterior_z {coords : List Coord} {v : Coord} (h : v ∈ unwrapExterior coords) : v.z = none := by
  unfold unwrapExterior at h
  obtain ⟨i, hi, rfl⟩ := List.mem_iff_getElem.mp h
  simp

theorem unwrapExterior_closed {p : Polygon} (hc : ClosedPolygon p) (hn : Narrow p) : ClosedRing (unwrapExterior p.exterior) := by
  obtain ⟨hx, hy⟩ := C53_exterior p.exterior
  have h1 := unwraps_closed hx (lons_closed hc.1) (hn.span _ hx)
  have h2 : ((unwrapExterior p.exterior).map (·.y)).head? = ((unwrapExterior p.exterior).map (·.y)).getLast? := by
    rw [hy]
    have := hc.1
    unfold ClosedRing at this
    rw [List.head?_map, List.getLast?_map, this]
  rw [List.head?_map, List.getLast?_map] at h1 h2
  unfold ClosedRing
  rcases ha : (unwrapExterior p.exterior).head? with _ | a <;> rcases hb : (unwrapExterior p.exterior).getLast? with _ | b
  · rfl
  · rw [ha, hb] at h1; simp at h1
  · rw [ha, hb] at h1; simp at h1
  · rw [ha, hb] at h1 h2
    simp only [Option.map_some, Option.some.injEq] at h1 h2
    congr 1
    exact Coord.ext h1 h2 (by
      rw [unwrapExterior_z (List.mem_of_head? ha), unwrapExterior_z (List.mem_of_getLast? hb)])

theorem mkPolygon_closed (e : List Coord) (i : List (List Coord)) : ClosedPolygon (mkPolygon e i) := by
  have h : ∀ l : List Coord, ClosedRing (ring l) := fun l => (mkPolygon_plain l).1.1
  refine ⟨h e, fun j hj => ?_⟩
  obtain ⟨l, -, rfl⟩ := List.mem_map.mp (show j ∈ i.map ring from hj)
  exact h l

/-- The polygon as it is shifted before it is split is one drawing of it in a plane. -/
theorem unwrap_lift (sort' : SortValues (α := ℝ × ℝ) Prod.fst) {p : Polygon} (hc : ClosedPolygon p) (hn : Narrow p)
    (hx : ∀ v ∈ p.exterior, -180 ≤ v.x ∧ v.x ≤ 180) : LiftOf p (unwrap sort' p) := by
  have he : (unwrap sort' p).exterior = unwrapExterior p.exterior := ring_closed (unwrapExterior_closed hc hn)
  obtain ⟨h1, h2⟩ := C53_exterior p.exterior
  have hr : ∀ x ∈ p.exterior.map (·.x), -180 ≤ x ∧ x ≤ 180 := by
    intro x hx'
    obtain ⟨v, hv, rfl⟩ := List.mem_map.mp hx'
    exact hx v hv
  have hi : (unwrap sort' p).interiors =
      p.interiors.map fun i => i.map fun c => ⟨unwrapInterior sort' (p.exterior.map (·.x)) c.x, c.y, none⟩ := by
    show List.map Polygons.ring _ = _
    rw [List.map_map]
    exact List.map_congr_left fun i hi => ring_closed (closed_map (hc.2 i hi) _)
  have key : ∀ i ∈ p.interiors, ∀ c ∈ i, ∃ j : Int, unwrapInterior sort' (p.exterior.map (·.x)) c.x = c.x - 360 * j ∧
      ∃ m ∈ unwrapped (p.exterior.map (·.x)), ∃ M ∈ unwrapped (p.exterior.map (·.x)),
        m < c.x - 360 * j ∧ c.x - 360 * j < M := by
    intro i hi c hc'
    obtain ⟨hcx, j, hj⟩ := hn.holes _ (unwrapped_unwraps _) i hi c hc'
    exact ⟨j, C53_interior sort' _ hr hn.ring c.x _ j hcx rfl hj, hj⟩
  refine ⟨mkPolygon_closed _ _, by rw [he]; exact h1, by rw [he]; exact h2, ?_, ?_⟩
  · rw [hi, List.forall₂_map_right_iff]
    refine List.forall₂_same.mpr fun i hi => ?_
    rw [List.forall₂_map_right_iff]
    refine List.forall₂_same.mpr fun c hc' => ?_
    obtain ⟨j, hj, -⟩ := key i hi c hc'
    exact ⟨⟨j, hj⟩, rfl⟩
  · intro j hj d hd
    rw [hi] at hj
    obtain ⟨i, hi', rfl⟩ := List.mem_map.mp hj
    obtain ⟨c, hc', rfl⟩ := List.mem_map.mp hd
    obtain ⟨k, hk, m, hm, M, hM, h3, h4⟩ := key i hi' c hc'
    rw [← unwrapExterior_x] at hm hM
    obtain ⟨a, ha, rfl⟩ := List.mem_map.mp hm
    obtain ⟨b, hb, rfl⟩ := List.mem_map.mp hM
    rw [he]
    simp only [hk]
    exact ⟨⟨a, ha, h3.le⟩, b, hb, h4.le⟩

theorem smallSteps_unwraps : ∀ {lon : List ℝ}, smallSteps lon → Unwraps lon lon
  | lon, h => by
    refine ⟨rfl, rfl, fun i _ _ => ⟨0, by simp⟩, ?_⟩
    have : ∀ (lon : List ℝ), smallSteps lon → ∀ i (h : i + 1 < lon.length), |lon[i + 1] - lon[i]| ≤ 180 := by
      intro lon
      induction lon with
      | nil => intro _ i h; simp at h
      | cons a t ih =>
        intro hs i h
        rcases t with _ | ⟨b, t⟩
        · simp at h
        · rcases i with _ | i
          · exact hs.1.le
          · exact ih hs.2 i (by simpa using h)
    exact this lon h

/-- A polygon without jumps is its own drawing. -/
theorem self_lift {p : Polygon} (hc : ClosedPolygon p) (hn : Narrow p) (hx : ∀ v ∈ p.exterior, -180 ≤ v.x ∧ v.x ≤ 180)
    (hsm : smallSteps (p.exterior.map (·.x))) : LiftOf p p := by
  refine ⟨hc, smallSteps_unwraps hsm, rfl, ?_, ?_⟩
  · exact List.forall₂_same.mpr fun i _ => List.forall₂_same.mpr fun c _ => ⟨⟨0, by simp⟩, rfl⟩
  · intro i hi c hc
    obtain ⟨hcx, j, m, hm, M, hM, h1, h2⟩ := hn.holes _ (smallSteps_unwraps hsm) i hi c hc
    obtain ⟨a, ha, rfl⟩ := List.mem_map.mp hm
    obtain ⟨b, hb, rfl⟩ := List.mem_map.mp hM
    have r1 := hx a ha; have r2 := hx b hb
    have j1 : (j : ℝ) < 1 := by linarith [hcx.2]
    have j2 : (-1 : ℝ) < j := by linarith [hcx.1]
    have j1' : j < 1 := by exact_mod_cast j1
    have j2' : -1 < j := by exact_mod_cast j2
    obtain rfl : j = 0 := by omega
    simp only [Int.cast_zero, mul_zero, sub_zero] at h1 h2
    exact ⟨⟨a, ha, h1.le⟩, b, hb, h2.le⟩

/-! ## Moved polygons -/

/-- The rings of `r` are those of `q` with every point moved. -/
def MovedBy (F : ℝ × ℝ → ℝ × ℝ) (q r : Polygon) : Prop :=
  outline r.exterior = (outline q.exterior).map F ∧ r.interiors.map outline = q.interiors.map fun i => (outline i).map F

theorem covers_iff (p : Polygon) (P : ℝ × ℝ) : Covers p P ↔
    InsideRing (outline p.exterior) P ∧ ∀ o ∈ p.interiors.map outline, ¬ InsideRing o P := by
  unfold Covers; simp

theorem onBoundary_iff (p : Polygon) (P : ℝ × ℝ) : OnBoundary p P ↔
    OnRing (outline p.exterior) P ∨ ∃ o ∈ p.interiors.map outline, OnRing o P := by
  unfold OnBoundary; simp

theorem covers_shift {q r : Polygon} {d : ℝ} (h : MovedBy (fun v => (v.1 + d, v.2)) q r) (P : ℝ × ℝ) :
    Covers r (P.1 + d, P.2) ↔ Covers q P := by
  rw [covers_iff, h.1, h.2, insideRing_shift]
  unfold Covers
  simp only [List.mem_map, forall_exists_index, and_imp, forall_apply_eq_imp_iff₂, insideRing_shift]

theorem boundary_shift {q r : Polygon} {d : ℝ} (h : MovedBy (fun v => (v.1 + d, v.2)) q r) {P : ℝ × ℝ}
    (hb : OnBoundary r (P.1 + d, P.2)) : OnBoundary q P := by
  rw [onBoundary_iff, h.1, h.2] at hb
  rcases hb with hb | ⟨o, ho, hb⟩
  · exact Or.inl (onRing_shift hb)
  · obtain ⟨i, hi, rfl⟩ := List.mem_map.mp ho
    exact Or.inr ⟨i, hi, onRing_shift hb⟩

theorem covers_flip {q r : Polygon} (hc : ClosedPolygon q) {d c : ℝ} (h : MovedBy (fun v => (v.1 + d, c - v.2)) q r)
    {P : ℝ × ℝ} (hP : ¬ OnBoundary q P) : Covers r (P.1 + d, c - P.2) ↔ Covers q P := by
  rw [covers_iff, h.1, h.2, insideRing_flip (outline_closed hc.1) d c fun hb => hP (Or.inl hb)]
  unfold Covers
  simp only [List.mem_map, forall_exists_index, and_imp, forall_apply_eq_imp_iff₂]
  have : ∀ i ∈ q.interiors, (¬ InsideRing ((outline i).map fun v => (v.1 + d, c - v.2)) (P.1 + d, c - P.2) ↔
      ¬ InsideRing (outline i) P) := fun i hi => by
    rw [insideRing_flip (outline_closed (hc.2 i hi)) d c fun hb => hP (Or.inr ⟨i, hi, hb⟩)]
  exact and_congr_right fun _ => forall₂_congr this

theorem boundary_flip {q r : Polygon} {d c : ℝ} (h : MovedBy (fun v => (v.1 + d, c - v.2)) q r) {P : ℝ × ℝ}
    (hb : OnBoundary r (P.1 + d, c - P.2)) : OnBoundary q P := by
  rw [onBoundary_iff, h.1, h.2] at hb
  rcases hb with hb | ⟨o, ho, hb⟩
  · exact Or.inl (onRing_flip hb)
  · obtain ⟨i, hi, rfl⟩ := List.mem_map.mp ho
    exact Or.inr ⟨i, hi, onRing_flip hb⟩

theorem movedBy_mk {q : Polygon} (hc : ClosedPolygon q) (f : Coord → Coord) (F : ℝ × ℝ → ℝ × ℝ)
    (hf : ∀ c ∈ allCoords q, ((f c).x, (f c).y) = F (c.x, c.y)) :
    MovedBy F q (mkPolygon (q.exterior.map f) (q.interiors.map fun i => i.map f)) := by
  rw [mkPolygon_map hc f]
  constructor
  · simp only [outline, List.map_map]
    exact List.map_congr_left fun c hc => hf c (List.mem_append_left _ hc)
  · simp only [outline, List.map_map]
    refine List.map_congr_left fun i hi => ?_
    simp only [Function.comp]
    show (i.map f).map _ = _
    rw [List.map_map]
    exact List.map_congr_left fun c hc => hf c (List.mem_append_right _ (List.mem_flatten.mpr ⟨i, hi, hc⟩))

theorem turned_moved {k : Int} {q r : Polygon} (h : Turned k q r) : MovedBy (fun v => (v.1 + 360 * (k : ℝ), v.2)) q r := by
  constructor
  · have := h.1
    simp only [outline, List.map_map]
    exact this
  · have := h.2
    simp only [outline, List.map_map]
    exact this

theorem movedBy_closed {F : ℝ × ℝ → ℝ × ℝ} {q r : Polygon} (h : MovedBy F q r) (hc : ClosedPolygon q) :
    (outline r.exterior).head? = (outline r.exterior).getLast? := by
  rw [h.1, List.head?_map, List.getLast?_map, outline_closed hc.1]

/-- What makes a part fit for the next step. -/
structure Part (s : Shapely) (lo hi : ℝ) (r : Polygon) : Prop where
  closed : ClosedPolygon r
  valid : s.isValid r = true
  lon : ∀ v ∈ r.exterior, -180 ≤ v.x ∧ v.x ≤ 180
  lat : ∀ v ∈ r.exterior, lo ≤ v.y ∧ v.y ≤ hi

theorem wrapAntimeridian_result {s : Shapely} {q r : Polygon} (h : wrapAntimeridian s q = .ok r) :
    r = q ∨ (ClosedPolygon r ∧ s.isValid r = true) := by
  unfold wrapAntimeridian at h
  split_ifs at h <;> try simp only at h
  all_goals try split_ifs at h
  all_goals first
    | (obtain rfl := Except.ok.inj h
       first
         | exact Or.inl rfl
         | exact Or.inr ⟨mkPolygon_closed _ _, by assumption⟩)

theorem forall₂_mem_left {α β : Type} {R : α → β → Prop} {l : List α} {m : List β} (h : List.Forall₂ R l m) {a : α}
    (ha : a ∈ l) : ∃ b ∈ m, R a b := by
  obtain ⟨b, hb, hab⟩ := forall₂_mem_right (R := fun b a => R a b) h.flip ha
  exact ⟨b, hb, hab⟩

/-- C113 at the antimeridian: a place off the antimeridian and off the outline of the polygon is covered by the parts
exactly when the polygon drawn in one plane covers it, in one of its places there. -/
theorem antimeridian_covers {s : Shapely} (hs : Cutter s) (sort : SortValues Coord.x)
    (sort' : SortValues (α := ℝ × ℝ) Prod.fst) {p : Polygon} (hc : ClosedPolygon p) (hn : Narrow p)
    (hx : ∀ v ∈ p.exterior, -180 ≤ v.x ∧ v.x ≤ 180) {lo hi : ℝ} (hlo : -180 ≤ lo) (hhi : hi ≤ 180)
    (hy : ∀ v ∈ p.exterior, lo ≤ v.y ∧ v.y ≤ hi) (hv : ∀ L, LiftOf p L → s.isValid L = true) :
    ∃ L shape, LiftOf p L ∧ ClosedPolygon L ∧ splitAntimeridian s sort sort' p = .ok shape ∧
      (∀ r ∈ shape.parts, Part s lo hi r ∧ (p.interiors = [] → r.interiors = [])) ∧
      ∀ P : ℝ × ℝ, -180 < P.1 → P.1 < 180 → (∀ k : Int, ¬ OnBoundary L (P.1 + 360 * k, P.2)) →
        ((∃ r ∈ shape.parts, Covers r P) ↔ ∃ k : Int, Covers L (P.1 + 360 * k, P.2)) ∧
          ∀ r ∈ shape.parts, ¬ OnBoundary r P := by
  -- a covered point of a polygon within the globe's longitudes
  have zero : ∀ (x : ℝ) (k : Int), -180 < x → x < 180 → -180 ≤ x + 360 * (k : ℝ) → x + 360 * (k : ℝ) ≤ 180 → k = 0 := by
    intro x k h1 h2 h3 h4
    have k1 : (k : ℝ) < 1 := by linarith
    have k2 : (-1 : ℝ) < k := by linarith
    have k1' : k < 1 := by exact_mod_cast k1
    have k2' : -1 < k := by exact_mod_cast k2
    omega
  by_cases hsm : smallSteps (p.exterior.map (·.x))
  · refine ⟨p, .polygon p, self_lift hc hn hx hsm, hc, by unfold splitAntimeridian; simp only [if_pos hsm], ?_, ?_⟩
    · intro r hr
      obtain rfl : r = p := by simpa [Shape.parts] using hr
      exact ⟨⟨hc, hv _ (self_lift hc hn hx hsm), hx, hy⟩, id⟩
    · intro P h1 h2 hb
      have h0 := hb 0
      simp only [Int.cast_zero, mul_zero, add_zero] at h0
      simp only [Shape.parts, List.mem_singleton, exists_eq_left, forall_eq]
      refine ⟨⟨fun h => ⟨0, by simpa using h⟩, ?_⟩, h0⟩
      rintro ⟨k, hk⟩
      obtain ⟨h3, h4⟩ := covers_x hk hx
      obtain rfl := zero P.1 k h1 h2 h3 h4
      simpa using hk
  · have hp : s.containsPole (p.exterior.map (·.x)) = false := by
      by_contra h
      obtain ⟨u, hu, hne⟩ := hs.pole _ (by simpa using h)
      exact hne (unwraps_closed hu (lons_closed hc.1) (hn.span u hu))
    have hy' : ∀ v ∈ p.exterior, -180 ≤ v.y ∧ v.y ≤ 180 := fun v hv =>
      ⟨hlo.trans (hy v hv).1, (hy v hv).2.trans hhi⟩
    obtain ⟨shape, c, hok, hcc, hparts, hlon⟩ := crossing_parts hs.toSplitter sort sort' p hx hy' hn.ring hp hsm
    have hL := unwrap_lift sort' hc hn hx
    set L := unwrap sort' p with hLdef
    have hLc : ClosedPolygon L := mkPolygon_closed _ _
    have hLv := hv L hL
    have hLy : ∀ v ∈ L.exterior, lo ≤ v.y ∧ v.y ≤ hi := fun v hv =>
      (unwrap_exterior sort' p hv).2.elim fun w hw => hw.2 ▸ hy w hw.1
    have hLs : Spanned (.meridian c) L := fun v hv => ⟨hlo.trans (hLy v hv).1, (hLy v hv).2.trans hhi⟩
    have offLine : ∀ (x : ℝ) (k : Int), -180 < x → x < 180 → x + 360 * (k : ℝ) ≠ c := by
      intro x k h1 h2 he
      rcases hcc with rfl | rfl
      · have k1 : (k : ℝ) < 1 := by linarith
        have k2 : (0 : ℝ) < k := by linarith
        have k1' : k < 1 := by exact_mod_cast k1
        have k2' : 0 < k := by exact_mod_cast k2
        omega
      · have k1 : (k : ℝ) < 0 := by linarith
        have k2 : (-1 : ℝ) < k := by linarith
        have k1' : k < 0 := by exact_mod_cast k1
        have k2' : -1 < k := by exact_mod_cast k2
        omega
    have rex : ∀ r ∈ shape.parts, ∀ v ∈ r.exterior, -180 ≤ v.x ∧ v.x ≤ 180 := fun r hr v hv =>
      hlon r hr v (List.mem_append_left _ hv)
    refine ⟨L, shape, hL, hLc, hok, ?_, ?_⟩
    · intro r hr
      obtain ⟨q, hq, hw, k, hk⟩ := forall₂_mem_right hparts hr
      have hres : ClosedPolygon r ∧ s.isValid r = true := by
        rcases wrapAntimeridian_result hw with rfl | h
        · exact ⟨hs.closed _ _ _ hq, hs.valid _ _ _ hq⟩
        · exact h
      refine ⟨⟨hres.1, hres.2, rex r hr, fun v hv => ?_⟩, fun hi' => ?_⟩
      · obtain ⟨w, hw, -, he, -⟩ := turned_coords hk (List.mem_append_left _ hv)
        rw [he]
        exact inBox_y (hs.toSplitter.coords hq hw) hLy
      · have hqi : q.interiors = [] := hs.simple _ _ q (by rw [hLdef]; unfold unwrap mkPolygon; simp [hi']) hq
        have := hk.2
        rw [hqi] at this
        simpa using this
    · intro P h1 h2 hb
      refine ⟨⟨?_, ?_⟩, ?_⟩
      · rintro ⟨r, hr, h⟩
        obtain ⟨q, hq, hw, k, hk⟩ := forall₂_mem_right hparts hr
        refine ⟨-k, ?_⟩
        refine (hs.covers L (.meridian c) (P.1 + 360 * ((-k : Int) : ℝ), P.2) hLv hLs (offLine P.1 (-k) h1 h2) (hb (-k))).mp ⟨q, hq, ?_⟩
        have := covers_shift (turned_moved hk) (P.1 + 360 * ((-k : Int) : ℝ), P.2)
        refine this.mp ?_
        have e : P.1 + 360 * ((-k : Int) : ℝ) + 360 * (k : ℝ) = P.1 := by push_cast; ring
        simp only [e]
        exact h
      · rintro ⟨k, hk⟩
        obtain ⟨q, hq, hqc⟩ := (hs.covers L (.meridian c) (P.1 + 360 * ((k : Int) : ℝ), P.2) hLv hLs (offLine P.1 k h1 h2) (hb k)).mpr hk
        obtain ⟨r, hr, hw, j, hj⟩ := forall₂_mem_left hparts hq
        have := (covers_shift (turned_moved hj) (P.1 + 360 * (k : ℝ), P.2)).mpr hqc
        simp only at this
        have e : P.1 + 360 * (k : ℝ) + 360 * (j : ℝ) = P.1 + 360 * ((k + j : Int) : ℝ) := by push_cast; ring
        rw [e] at this
        obtain ⟨h3, h4⟩ := covers_x this (rex r hr)
        have := zero P.1 (k + j) h1 h2 h3 h4
        rename_i hcov
        rw [this] at hcov
        exact ⟨r, hr, by simpa using hcov⟩
      · intro r hr hbr
        obtain ⟨q, hq, hw, k, hk⟩ := forall₂_mem_right hparts hr
        have e : P.1 + 360 * ((-k : Int) : ℝ) + 360 * (k : ℝ) = P.1 := by push_cast; ring
        have hqb : OnBoundary q (P.1 + 360 * ((-k : Int) : ℝ), P.2) := by
          refine boundary_shift (turned_moved hk) ?_
          simp only [e]
          exact hbr
        exact hb (-k) (hs.boundary L (.meridian c) q (P.1 + 360 * ((-k : Int) : ℝ), P.2) hLv hLs hq (offLine P.1 (-k) h1 h2) hqb)

/-! ## Polygons over a pole -/

/-- The longitude on the other side of the globe. -/
noncomputable def opposite (x : ℝ) : ℝ := if 0 < x then x - 180 else x + 180

/-- The place as it is reached over the north pole (`σ = 1`) or the south pole (`σ = -1`). -/
noncomputable def over (σ : ℝ) (P : ℝ × ℝ) : ℝ × ℝ := (opposite P.1, σ * 180 - P.2)

theorem opposite_range {x : ℝ} (h1 : -180 < x) (h2 : x < 180) (h0 : x ≠ 0) :
    -180 < opposite x ∧ opposite x < 180 ∧ opposite x ≠ 0 := by
  unfold opposite
  split_ifs with h
  · exact ⟨by linarith, by linarith, by intro h; linarith⟩
  · have : x < 0 := lt_of_le_of_ne (not_lt.mp h) h0
    exact ⟨by linarith, by linarith, by intro h; linarith⟩

/-- The pieces of a polygon cut at a pole and at the prime meridian beyond it cover what the polygon covers. -/
theorem pieces_cover {s : Shapely} (hs : Cutter s) {p : Polygon} {half : Line} {c : ℝ} (hv : s.isValid p = true)
    (hsp : Spanned (.parallel c) p)
    (hspan : ∀ part ∈ s.split p (.parallel c), s.crosses part half = true → Spanned half part)
    (hpieces : ∀ part g, Spanned half part → g ∈ s.split part half → s.crosses g half = false)
    {P : ℝ × ℝ} (hline : ¬ OnLine half P) (hc : P.2 ≠ c) (hb : ¬ OnBoundary p P) :
    ((∃ g ∈ splitParts s half (s.split p (.parallel c)), Covers g P) ↔ Covers p P) ∧
      ∀ g ∈ splitParts s half (s.split p (.parallel c)), ¬ OnBoundary g P := by
  have hcov := hs.covers p (.parallel c) P hv hsp hc hb
  have hbp : ∀ part ∈ s.split p (.parallel c), ¬ OnBoundary part P := fun part hp h =>
    hb (hs.boundary p (.parallel c) part P hv hsp hp hc h)
  have hsub : ∀ part ∈ s.split p (.parallel c), s.crosses part half = true →
      ((∃ g ∈ s.split part half, Covers g P) ↔ Covers part P) := fun part hp hcr =>
    hs.covers part half P (hs.valid _ _ part hp) (hspan part hp hcr) hline (hbp part hp)
  refine ⟨⟨?_, fun h => ?_⟩, fun g hg h => ?_⟩
  · rintro ⟨g, hg, h⟩
    rcases mem_splitParts s _ _ hg with ⟨hm, -⟩ | ⟨part, hm, hcr, hgs⟩
    · exact hcov.mp ⟨g, hm, h⟩
    · exact hcov.mp ⟨part, hm, (hsub part hm hcr).mp ⟨g, hgs, h⟩⟩
  · obtain ⟨part, hm, hp⟩ := hcov.mpr h
    rcases hcr : s.crosses part half with _ | _
    · exact ⟨part, splitParts_keeps s _ _ hcr (Or.inl hm), hp⟩
    · obtain ⟨g, hg, hgc⟩ := (hsub part hm hcr).mpr hp
      exact ⟨g, splitParts_keeps s _ _ (hpieces part g (hspan part hm hcr) hg) (Or.inr ⟨part, hm, hcr, hg⟩), hgc⟩
  · rcases mem_splitParts s _ _ hg with ⟨hm, -⟩ | ⟨part, hm, hcr, hgs⟩
    · exact hbp g hm h
    · exact hbp part hm (hs.boundary part half g P (hs.valid _ _ part hm) (hspan part hm hcr) hgs hline h)

/-- What wrapping a piece over a pole does: pieces before the pole stay, pieces beyond it are turned over. -/
def Flipped (σ : ℝ) (g r : Polygon) : Prop :=
  (r = g ∧ ∀ v ∈ g.exterior, σ * v.y ≤ 90) ∨
    ∃ d : ℝ, MovedBy (fun v => (v.1 + d, σ * 180 - v.2)) g r ∧ (∀ v ∈ g.exterior, 90 ≤ σ * v.y) ∧
      ((d = 180 ∧ ∀ v ∈ g.exterior, v.x ≤ 0) ∨ (d = -180 ∧ ∀ v ∈ g.exterior, 0 ≤ v.x))

theorem onRing_x {r : List (ℝ × ℝ)} {P : ℝ × ℝ} (h : OnRing r P) {lo hi : ℝ} (hr : ∀ v ∈ r, lo ≤ v.1 ∧ v.1 ≤ hi) :
    lo ≤ P.1 ∧ P.1 ≤ hi := by
  obtain ⟨e, he, t, h0, h1, rfl⟩ := h
  obtain ⟨m1, m2⟩ := mem_sides he
  have a := hr _ m1; have b := hr _ m2
  simp only
  constructor <;> nlinarith

theorem boundary_x {lo hi : ℝ} {g : Polygon} (h : Overhang lo hi g) {P : ℝ × ℝ} (hb : OnBoundary g P) :
    -180 ≤ P.1 ∧ P.1 ≤ 180 := by
  rcases hb with hb | ⟨i, hi', hb⟩
  · refine onRing_x hb fun v hv => ?_
    obtain ⟨w, hw, rfl⟩ := List.mem_map.mp hv
    exact h.lon w hw
  · refine onRing_x hb fun v hv => ?_
    obtain ⟨w, hw, rfl⟩ := List.mem_map.mp hv
    exact (h.coords (List.mem_append_right _ (List.mem_flatten.mpr ⟨i, hi', hw⟩))).1

/-- The wrapped pieces cover a place before the pole exactly when the pieces cover it there or beyond the pole. -/
theorem flipped_cover {σ lo hi : ℝ} (hσ : σ = 1 ∨ σ = -1) {G : List Polygon} (W : Polygon → Polygon)
    (hG : ∀ g ∈ G, Overhang lo hi g) (hW : ∀ g ∈ G, Flipped σ g (W g)) {P : ℝ × ℝ}
    (h1 : -180 < P.1) (h2 : P.1 < 180) (h0 : P.1 ≠ 0) (hP : σ * P.2 < 90)
    (hb : ∀ g ∈ G, ¬ OnBoundary g P) (hb' : ∀ g ∈ G, ¬ OnBoundary g (over σ P)) :
    ((∃ r ∈ G.map W, Covers r P) ↔ ∃ g ∈ G, Covers g P ∨ Covers g (over σ P)) ∧ ∀ r ∈ G.map W, ¬ OnBoundary r P := by
  have hσ2 : σ * σ = 1 := by rcases hσ with rfl | rfl <;> norm_num
  have hfar : ∀ d : ℝ, 90 < σ * (σ * 180 - P.2) := fun _ => by
    have : σ * (σ * 180 - P.2) = 180 * (σ * σ) - σ * P.2 := by ring
    rw [this, hσ2]; linarith
  -- latitudes of covered points
  have near : ∀ g ∈ G, ∀ X : ℝ × ℝ, Covers g X → (∀ v ∈ g.exterior, σ * v.y ≤ 90) → σ * X.2 ≤ 90 := by
    intro g hg X hX hv
    rcases hσ with rfl | rfl
    · have := covers_south (hG g hg).closed hX (c := 90) fun v hv' => by have := hv v hv'; linarith
      linarith
    · have := covers_north (hG g hg).closed hX (c := -90) fun v hv' => by have := hv v hv'; linarith
      linarith
  have far : ∀ g ∈ G, ∀ X : ℝ × ℝ, Covers g X → (∀ v ∈ g.exterior, 90 ≤ σ * v.y) → 90 ≤ σ * X.2 := by
    intro g hg X hX hv
    rcases hσ with rfl | rfl
    · have := covers_north (hG g hg).closed hX (c := 90) fun v hv' => by have := hv v hv'; linarith
      linarith
    · have := covers_south (hG g hg).closed hX (c := -90) fun v hv' => by have := hv v hv'; linarith
      linarith
  -- the place before it was turned over
  have back : ∀ g ∈ G, ∀ d : ℝ, d = 180 ∨ d = -180 → -180 ≤ P.1 - d → P.1 - d ≤ 180 →
      (P.1 - d, σ * 180 - P.2) = over σ P := by
    intro g _ d hd h3 h4
    unfold over opposite
    rcases hd with rfl | rfl
    · have : 0 < P.1 := lt_of_le_of_ne (by linarith) (Ne.symm h0)
      rw [if_pos this]
    · have : P.1 < 0 := lt_of_le_of_ne (by linarith) h0
      rw [if_neg (by linarith)]
      simp only [sub_neg_eq_add]
  have moved : ∀ d : ℝ, ((P.1 - d) + d, σ * 180 - (σ * 180 - P.2)) = P := fun d => Prod.ext (by simp) (by simp)
  have dcase : ∀ {g : Polygon} {d : ℝ}, ((d = 180 ∧ ∀ v ∈ g.exterior, v.x ≤ 0) ∨ (d = -180 ∧ ∀ v ∈ g.exterior, 0 ≤ v.x)) →
      d = 180 ∨ d = -180 := fun h => h.imp And.left And.left
  have bnd : ∀ g ∈ G, ∀ d : ℝ, d = 180 ∨ d = -180 → ¬ OnBoundary g (P.1 - d, σ * 180 - P.2) := by
    intro g hg d hd h
    have hr := boundary_x (hG g hg) h
    exact hb' g hg (back g hg d hd hr.1 hr.2 ▸ h)
  refine ⟨⟨?_, ?_⟩, ?_⟩
  · rintro ⟨r, hr, h⟩
    obtain ⟨g, hg, rfl⟩ := List.mem_map.mp hr
    refine ⟨g, hg, ?_⟩
    rcases hW g hg with ⟨he, -⟩ | ⟨d, hm, -, hd⟩
    · exact Or.inl (he ▸ h)
    · right
      have := covers_flip (hG g hg).closed hm (P := (P.1 - d, σ * 180 - P.2)) (bnd g hg d (dcase hd))
      simp only [moved] at this
      have hc := this.mp h
      have hr := covers_x hc (hG g hg).lon
      exact back g hg d (dcase hd) hr.1 hr.2 ▸ hc
  · rintro ⟨g, hg, h⟩
    refine ⟨W g, List.mem_map.mpr ⟨g, hg, rfl⟩, ?_⟩
    rcases hW g hg with ⟨he, hv⟩ | ⟨d, hm, hv, hd⟩
    · rcases h with h | h
      · rw [he]; exact h
      · have := near g hg _ h hv
        have h3 := hfar 0
        unfold over at this
        simp only at this
        linarith
    · rcases h with h | h
      · have := far g hg _ h hv; linarith
      · have := covers_flip (hG g hg).closed hm (P := (P.1 - d, σ * 180 - P.2)) (bnd g hg d (dcase hd))
        simp only [moved] at this
        rw [this]
        have hov : over σ P = (P.1 - d, σ * 180 - P.2) := by
          unfold over opposite at h ⊢
          rcases hd with ⟨rfl, hx⟩ | ⟨rfl, hx⟩
          · have hw := covers_west h hx
            by_cases hp : 0 < P.1
            · rw [if_pos hp]
            · simp only [if_neg hp] at hw
              linarith
          · have hw := covers_east h hx
            by_cases hp : 0 < P.1
            · simp only [if_pos hp] at hw
              linarith
            · rw [if_neg hp]; simp only [sub_neg_eq_add]
        rw [← hov]; exact h
  · intro r hr hbr
    obtain ⟨g, hg, rfl⟩ := List.mem_map.mp hr
    rcases hW g hg with ⟨he, -⟩ | ⟨d, hm, -, hd⟩
    · rw [he] at hbr; exact hb g hg hbr
    · refine bnd g hg d (dcase hd) (boundary_flip hm ?_)
      simp only [moved]
      exact hbr

/-- Wrapping a piece over the north pole turns it over. -/
theorem wrapNorth_flipped {s : Shapely} (hs : Splitter s) {lo hi : ℝ} {g : Polygon} (h : Overhang lo hi g)
    (hv : s.isValid g = true)
    (hside : (∀ v ∈ g.exterior, v.y ≤ 90) ∨ ((∀ v ∈ g.exterior, 90 ≤ v.y) ∧ OneSide 0 g.exterior)) :
    ∃ q, wrapNorth s g = .ok q ∧ Flipped 1 g q := by
  by_cases h90 : ∀ c ∈ g.exterior, c.y ≤ 90
  · exact ⟨g, by unfold wrapNorth; rw [if_pos h90], Or.inl ⟨rfl, fun v hv => by rw [one_mul]; exact h90 v hv⟩⟩
  rcases hside with h' | ⟨hbey, hone⟩
  · exact absurd h' h90
  have hin : ∀ v ∈ allCoords g, 90 ≤ v.y := by
    intro v hv'
    rcases List.mem_append.mp hv' with hv' | hv'
    · exact hbey v hv'
    · obtain ⟨i, hi', hvi⟩ := List.mem_flatten.mp hv'
      exact (inBox_y (h.holes i hi' v hvi) (fun w hw => ⟨hbey w hw, (h.lat w hw).2⟩)).1
  obtain ⟨d, hd, hside⟩ : ∃ d : ℝ, (if ∀ c ∈ g.exterior, c.x ≤ 0 then (180 : ℝ) else -180) = d ∧
      ((d = 180 ∧ ∀ v ∈ g.exterior, v.x ≤ 0) ∨ (d = -180 ∧ ∀ v ∈ g.exterior, 0 ≤ v.x)) := by
    by_cases h0 : ∀ c ∈ g.exterior, c.x ≤ 0
    · exact ⟨180, if_pos h0, Or.inl ⟨rfl, h0⟩⟩
    · exact ⟨-180, if_neg h0, Or.inr ⟨rfl, hone.resolve_left h0⟩⟩
  have e1 : g.exterior.map (wrapNorthCoord d) = g.exterior.map fun c => ⟨c.x + d, 180 - c.y, none⟩ :=
    List.map_congr_left fun c hc => by unfold wrapNorthCoord; rw [if_pos (hbey c hc)]
  have e2 : (g.interiors.map fun i => i.map (wrapNorthCoord d)) =
      g.interiors.map fun i => i.map fun c => ⟨c.x + d, 180 - c.y, none⟩ :=
    List.map_congr_left fun i hi => List.map_congr_left fun c hc => by
      unfold wrapNorthCoord
      rw [if_pos (hin c (List.mem_append_right _ (List.mem_flatten.mpr ⟨i, hi, hc⟩)))]
  have hval := hs.moved g (fun c => ⟨c.x + d, 180 - c.y, none⟩) (fun a b => by simp only; ring) hv
  refine ⟨mkPolygon (g.exterior.map fun c => ⟨c.x + d, 180 - c.y, none⟩)
    (g.interiors.map fun i => i.map fun c => ⟨c.x + d, 180 - c.y, none⟩), ?_, Or.inr ⟨d, ?_, ?_, hside⟩⟩
  · unfold wrapNorth
    rw [if_neg h90]
    simp only [hd, e1, e2, hval, if_true]
  · exact movedBy_mk h.closed _ _ fun c _ => by simp
  · intro v hv'; rw [one_mul]; exact hbey v hv'

/-- Wrapping a piece without holes over the south pole turns it over. -/
theorem wrapSouth_flipped {s : Shapely} (hs : Splitter s) {lo hi : ℝ} {g : Polygon} (h : Overhang lo hi g)
    (hv : s.isValid g = true) (hi' : g.interiors = [])
    (hside : (∀ v ∈ g.exterior, -90 ≤ v.y) ∨ ((∀ v ∈ g.exterior, v.y ≤ -90) ∧ OneSide 0 g.exterior)) :
    ∃ q, wrapSouth s g = .ok q ∧ Flipped (-1) g q := by
  by_cases h90 : ∀ c ∈ g.exterior, c.y ≥ -90
  · exact ⟨g, by unfold wrapSouth; rw [if_pos h90],
      Or.inl ⟨rfl, fun v hv => by have := h90 v hv; linarith⟩⟩
  rcases hside with h' | ⟨hbey, hone⟩
  · exact absurd h' h90
  obtain ⟨d, hd, hside⟩ : ∃ d : ℝ, (if ∀ c ∈ g.exterior, c.x ≤ 0 then (180 : ℝ) else -180) = d ∧
      ((d = 180 ∧ ∀ v ∈ g.exterior, v.x ≤ 0) ∨ (d = -180 ∧ ∀ v ∈ g.exterior, 0 ≤ v.x)) := by
    by_cases h0 : ∀ c ∈ g.exterior, c.x ≤ 0
    · exact ⟨180, if_pos h0, Or.inl ⟨rfl, h0⟩⟩
    · exact ⟨-180, if_neg h0, Or.inr ⟨rfl, hone.resolve_left h0⟩⟩
  have e1 : g.exterior.map (wrapSouthCoord d) = g.exterior.map fun c => ⟨c.x + d, -180 - c.y, none⟩ :=
    List.map_congr_left fun c hc => by unfold wrapSouthCoord; rw [if_pos (hbey c hc)]
  have hval := hs.moved g (fun c => ⟨c.x + d, -180 - c.y, none⟩) (fun a b => by simp only; ring) hv
  rw [hi', List.map_nil] at hval
  refine ⟨mkPolygon (g.exterior.map fun c => ⟨c.x + d, -180 - c.y, none⟩) [], ?_, Or.inr ⟨d, ?_, ?_, hside⟩⟩
  · unfold wrapSouth
    rw [if_neg h90]
    simp only [hd, e1, hi', List.flatten_nil, ne_eq, not_true_eq_false, if_false]
    rw [if_pos hval]
  · have := movedBy_mk h.closed (fun c => (⟨c.x + d, -180 - c.y, none⟩ : Coord)) (fun v => (v.1 + d, -1 * 180 - v.2))
      fun c _ => by simp
    rw [hi'] at this
    exact this
  · intro v hv'; have := hbey v hv'; linarith

theorem not_ge_parallel {p : Polygon} {s : Shapely} (hs : Splitter s) {c : ℝ} {part : Polygon}
    (hp : part ∈ s.split p (.parallel c)) {lo hi : ℝ} (h : ∀ v ∈ p.exterior, lo ≤ v.y ∧ v.y ≤ hi) :
    ∀ v ∈ part.exterior, lo ≤ v.y ∧ v.y ≤ hi := fun v hv => inBox_y (hs.inside _ _ part hp v hv) h

/-- C113 at the north pole: a place before the pole, off the prime meridian and the antimeridian and off the outline of the
polygon, is covered by the parts exactly when the polygon covers it there or beyond the pole. -/
theorem north_covers {s : Shapely} (hs : Cutter s) {hi : ℝ} (hhi : hi < 180) {p : Polygon} (h : Part s (-90) hi p) :
    ∃ shape, splitNorth s p = .ok shape ∧ ∀ P : ℝ × ℝ, -180 < P.1 → P.1 < 180 → P.1 ≠ 0 → P.2 < 90 →
      ¬ OnBoundary p P → ¬ OnBoundary p (over 1 P) →
        ((∃ r ∈ shape.parts, Covers r P) ↔ Covers p P ∨ Covers p (over 1 P)) := by
  by_cases h90 : ∀ c ∈ p.exterior, c.y ≤ 90
  · refine ⟨.polygon p, by unfold splitNorth; rw [if_pos h90], fun P h1 h2 h0 hP _ _ => ?_⟩
    simp only [Shape.parts, List.mem_singleton, exists_eq_left]
    refine ⟨Or.inl, fun hc => hc.resolve_right fun hc => ?_⟩
    have := covers_south h.closed hc h90
    unfold over at this
    simp only at this
    linarith
  · have hx' : ∀ v ∈ p.exterior, -360 ≤ v.x ∧ v.x ≤ 360 := fun v hv => by
      have := h.lon v hv; constructor <;> linarith
    set G := splitParts s .northHalf (s.split p (.parallel 90)) with hGdef
    have hG : ∀ g ∈ G, _ := fun g hg => north_pieces hs.toSplitter h.lon hhi h.lat hg
    have key : ∀ g : Polygon, ∃ q : Polygon, g ∈ G → wrapNorth s g = .ok q ∧ Flipped 1 g q := by
      intro g
      by_cases hg : g ∈ G
      · obtain ⟨h1, h2, h3⟩ := hG g hg
        obtain ⟨q, hq⟩ := wrapNorth_flipped hs.toSplitter h1 h2 h3
        exact ⟨q, fun _ => hq⟩
      · exact ⟨g, fun h => absurd h hg⟩
    choose w hw using key
    obtain ⟨shape, hok, hparts⟩ := eachPart_ok (wrapNorth s) w (ofList G)
      (by rw [ofList_parts]; exact fun q hq => (hw q hq).1)
    rw [ofList_parts] at hparts
    refine ⟨shape, ?_, fun P h1 h2 h0 hP hb hb' => ?_⟩
    · unfold splitNorth
      rw [if_neg h90]
      simp only [← hGdef]
      rw [← hok]
      cases ofList G <;> rfl
    · have hspan : ∀ part ∈ s.split p (.parallel 90), s.crosses part .northHalf = true → Spanned .northHalf part := by
        intro part hp hcr v hv
        have hpy := not_ge_parallel hs.toSplitter hp h.lat
        refine ⟨?_, (hpy v hv).2.trans_lt hhi⟩
        rcases hs.parallel p 90 part hx' hp with h' | h'
        · by_contra hlt
          push Not at hlt
          rw [hs.belowNorth part h' ⟨v, hv, hlt⟩] at hcr
          simp at hcr
        · exact h' v hv
      have hov : (over 1 P).2 ≠ 90 := by unfold over; simp only; intro h; linarith
      have hor := opposite_range h1 h2 h0
      have c1 := pieces_cover hs h.valid (half := .northHalf) (c := 90) hx' hspan hs.piecesNorth (P := P) h0 hP.ne hb
      have c2 := pieces_cover hs h.valid (half := .northHalf) (c := 90) hx' hspan hs.piecesNorth (P := over 1 P) hor.2.2 hov hb'
      have hf := flipped_cover (Or.inl rfl) w (fun g hg => (hG g hg).1) (fun g hg => (hw g hg).2) h1 h2 h0
        (by rw [one_mul]; exact hP) c1.2 c2.2
      rw [hparts, hf.1, ← c1.1, ← c2.1]
      constructor
      · rintro ⟨g, hg, h | h⟩
        · exact Or.inl ⟨g, hg, h⟩
        · exact Or.inr ⟨g, hg, h⟩
      · rintro (⟨g, hg, h⟩ | ⟨g, hg, h⟩)
        · exact ⟨g, hg, Or.inl h⟩
        · exact ⟨g, hg, Or.inr h⟩

theorem wrapSouth_result {s : Shapely} {q r : Polygon} (h : wrapSouth s q = .ok r) :
    r = q ∨ (ClosedPolygon r ∧ s.isValid r = true) := by
  unfold wrapSouth at h
  simp only at h
  split_ifs at h
  all_goals first
    | (obtain rfl := Except.ok.inj h
       first
         | exact Or.inl rfl
         | exact Or.inr ⟨mkPolygon_closed _ _, by assumption⟩)

/-- C113 at the south pole, for polygons that do not reach beyond it or have no holes. -/
theorem south_covers {s : Shapely} (hs : Cutter s) {lo hi : ℝ} (hlo : -180 < lo) (hhi : 90 ≤ hi) {p : Polygon}
    (h : Part s lo hi p) (hh : p.interiors = [] ∨ ∀ v ∈ p.exterior, -90 ≤ v.y) :
    ∃ shape, splitSouth s p = .ok shape ∧ (∀ r ∈ shape.parts, Part s (-90) hi r) ∧
      ∀ P : ℝ × ℝ, -180 < P.1 → P.1 < 180 → P.1 ≠ 0 → -90 < P.2 →
      ¬ OnBoundary p P → ¬ OnBoundary p (over (-1) P) →
        ((∃ r ∈ shape.parts, Covers r P) ↔ Covers p P ∨ Covers p (over (-1) P)) ∧ ∀ r ∈ shape.parts, ¬ OnBoundary r P := by
  by_cases h90 : ∀ c ∈ p.exterior, c.y ≥ -90
  · refine ⟨.polygon p, by unfold splitSouth; rw [if_pos h90], ?_, fun P h1 h2 h0 hP hb _ => ?_⟩
    · intro r hr
      obtain rfl : r = p := by simpa [Shape.parts] using hr
      exact ⟨h.closed, h.valid, h.lon, fun v hv => ⟨h90 v hv, (h.lat v hv).2⟩⟩
    simp only [Shape.parts, List.mem_singleton, exists_eq_left, forall_eq]
    refine ⟨⟨Or.inl, fun hc => hc.resolve_right fun hc => ?_⟩, hb⟩
    have := covers_north h.closed hc h90
    unfold over at this
    simp only at this
    linarith
  · have hi0 : p.interiors = [] := hh.resolve_right h90
    have hx' : ∀ v ∈ p.exterior, -360 ≤ v.x ∧ v.x ≤ 360 := fun v hv => by
      have := h.lon v hv; constructor <;> linarith
    set G := splitParts s .southHalf (s.split p (.parallel (-90))) with hGdef
    have hG : ∀ g ∈ G, _ := fun g hg => south_pieces hs.toSplitter h.lon hlo h.lat hg
    have key : ∀ g : Polygon, ∃ q : Polygon, g ∈ G → wrapSouth s g = .ok q ∧ Flipped (-1) g q ∧ Part s (-90) hi q := by
      intro g
      by_cases hg : g ∈ G
      · obtain ⟨h1, h2, h3, h4⟩ := hG g hg
        obtain ⟨q, hq, hf⟩ := wrapSouth_flipped hs.toSplitter h1 h2 (h4 hi0) h3
        refine ⟨q, fun _ => ⟨hq, hf, ?_⟩⟩
        obtain ⟨q', hq', -, -, ho⟩ := wrapSouth_piece hs.toSplitter
          ⟨h1.closed, h1.holes, h1.lon, fun v hv => ⟨le_trans (by linarith) (h1.lat v hv).1, (h1.lat v hv).2⟩⟩ hhi h2 (h4 hi0) h3
        rw [hq] at hq'
        obtain rfl := Except.ok.inj hq'
        have hr : ClosedPolygon q ∧ s.isValid q = true := by
          rcases wrapSouth_result hq with rfl | h
          · exact ⟨h1.closed, h2⟩
          · exact h
        exact ⟨hr.1, hr.2, fun v hv => (ho v (List.mem_append_left _ hv)).1,
          fun v hv => (ho v (List.mem_append_left _ hv)).2⟩
      · exact ⟨g, fun h => absurd h hg⟩
    choose w hw using key
    obtain ⟨shape, hok, hparts⟩ := eachPart_ok (wrapSouth s) w (ofList G)
      (by rw [ofList_parts]; exact fun q hq => (hw q hq).1)
    rw [ofList_parts] at hparts
    refine ⟨shape, ?_, ?_, fun P h1 h2 h0 hP hb hb' => ?_⟩
    · unfold splitSouth
      rw [if_neg h90]
      simp only [← hGdef]
      rw [← hok]
      cases ofList G <;> rfl
    · intro r hr
      rw [hparts] at hr
      obtain ⟨g, hg, rfl⟩ := List.mem_map.mp hr
      exact (hw g hg).2.2
    · have hspan : ∀ part ∈ s.split p (.parallel (-90)), s.crosses part .southHalf = true → Spanned .southHalf part := by
        intro part hp hcr v hv
        have hpy := not_ge_parallel hs.toSplitter hp h.lat
        refine ⟨hlo.trans_le (hpy v hv).1, ?_⟩
        rcases hs.parallel p (-90) part hx' hp with h' | h'
        · exact h' v hv
        · by_contra hlt
          push Not at hlt
          rw [hs.aboveSouth part h' ⟨v, hv, hlt⟩] at hcr
          simp at hcr
      have hov : (over (-1) P).2 ≠ -90 := by unfold over; simp only; intro h; linarith
      have hor := opposite_range h1 h2 h0
      have c1 := pieces_cover hs h.valid (half := .southHalf) (c := -90) hx' hspan hs.piecesSouth (P := P) h0 hP.ne' hb
      have c2 := pieces_cover hs h.valid (half := .southHalf) (c := -90) hx' hspan hs.piecesSouth (P := over (-1) P)
        hor.2.2 hov hb'
      have hf := flipped_cover (Or.inr rfl) w (fun g hg => (hG g hg).1) (fun g hg => (hw g hg).2.1) h1 h2 h0
        (by linarith) c1.2 c2.2
      rw [hparts]
      refine ⟨?_, hf.2⟩
      rw [hf.1, ← c1.1, ← c2.1]
      constructor
      · rintro ⟨g, hg, h | h⟩
        · exact Or.inl ⟨g, hg, h⟩
        · exact Or.inr ⟨g, hg, h⟩
      · rintro (⟨g, hg, h⟩ | ⟨g, hg, h⟩)
        · exact ⟨g, hg, Or.inl h⟩
        · exact ⟨g, hg, Or.inr h⟩

/-! ## All together -/

/-- The recursive call collects the parts of each part. -/
theorem forParts_exact (f : Polygon → Except PyErr Shape) (t : Polygon → Shape) (sh : Shape)
    (h : ∀ p ∈ sh.parts, f p = .ok (t p)) :
    ∃ out, forParts f sh = .ok out ∧ ∀ r, r ∈ out.parts ↔ ∃ p ∈ sh.parts, r ∈ (t p).parts := by
  rcases sh with p | ps
  · exact ⟨t p, h p (by simp [Shape.parts]), fun r => by simp [Shape.parts]⟩
  · refine ⟨.multi ((ps.map t).flatMap Shape.parts), ?_, fun r => ?_⟩
    · show (do return Shape.multi ((← ps.mapM f).flatMap Shape.parts) : Except PyErr Shape) = _
      rw [mapM_ok f t ps h]; rfl
    · simp [Shape.parts]

/-- The places of the plane that are one place of the globe, for a place that is not a pole. -/
theorem samePlace_cases {Q P : ℝ × ℝ} (h1 : -90 < P.2) (h2 : P.2 < 90) (h : SamePlace Q P) :
    ∃ k j : Int, Q = (P.1 + 360 * k, P.2 + 360 * j) ∨ Q = (P.1 + 180 + 360 * k, 180 - P.2 + 360 * j) := by
  obtain ⟨hc, hs, hz⟩ := h
  have hpi := Real.pi_pos
  have hcos : 0 < Real.cos (P.2 * (Real.pi / 180)) := by
    apply Real.cos_pos_of_mem_Ioo
    constructor <;> nlinarith
  have turn : ∀ a b : ℝ, Real.cos (a * (Real.pi / 180)) = Real.cos (b * (Real.pi / 180)) →
      Real.sin (a * (Real.pi / 180)) = Real.sin (b * (Real.pi / 180)) → ∃ k : Int, a = b + 360 * k := by
    intro a b h1 h2
    have := Real.Angle.cos_sin_inj h1 h2
    obtain ⟨k, hk⟩ := Real.Angle.angle_eq_iff_two_pi_dvd_sub.mp this
    refine ⟨k, ?_⟩
    have e : (a - b) * (Real.pi / 180) = 2 * Real.pi * k := by rw [← hk]; ring
    field_simp at e
    linarith
  rcases Real.sin_eq_sin_iff.mp hz with ⟨j, hj | hj⟩
  · have hq : Q.2 = P.2 - 360 * j := by
      have e : P.2 * (Real.pi / 180) = 2 * j * Real.pi + Q.2 * (Real.pi / 180) := hj
      field_simp at e
      linarith
    have hcq : Real.cos (Q.2 * (Real.pi / 180)) = Real.cos (P.2 * (Real.pi / 180)) := by
      rw [hj]
      have : 2 * (j : ℝ) * Real.pi + Q.2 * (Real.pi / 180) = Q.2 * (Real.pi / 180) + j * (2 * Real.pi) := by ring
      rw [this, Real.cos_add_int_mul_two_pi]
    rw [hcq] at hc hs
    obtain ⟨k, hk⟩ := turn Q.1 P.1 (mul_left_cancel₀ hcos.ne' hc) (mul_left_cancel₀ hcos.ne' hs)
    exact ⟨k, -j, Or.inl (Prod.ext hk (by push_cast; linarith))⟩
  · have hq : Q.2 = 180 - P.2 + 360 * j := by
      have e : P.2 * (Real.pi / 180) = (2 * j + 1) * Real.pi - Q.2 * (Real.pi / 180) := hj
      field_simp at e
      linarith
    have hcq : Real.cos (Q.2 * (Real.pi / 180)) = -Real.cos (P.2 * (Real.pi / 180)) := by
      have : Q.2 * (Real.pi / 180) = (Real.pi - P.2 * (Real.pi / 180)) + j * (2 * Real.pi) := by rw [hq]; ring
      rw [this, Real.cos_add_int_mul_two_pi, Real.cos_pi_sub]
    rw [hcq] at hc hs
    have e : (P.1 + 180) * (Real.pi / 180) = P.1 * (Real.pi / 180) + Real.pi := by ring
    obtain ⟨k, hk⟩ := turn Q.1 (P.1 + 180)
      (by rw [e, Real.cos_add_pi]; apply mul_left_cancel₀ hcos.ne'; linarith)
      (by rw [e, Real.sin_add_pi]; apply mul_left_cancel₀ hcos.ne'; linarith)
    exact ⟨k, j, Or.inr (Prod.ext hk hq)⟩

theorem samePlace_turns (x y : ℝ) (k : Int) {P : ℝ × ℝ} (h : SamePlace (x, y) P) : SamePlace (x + 360 * k, y) P := by
  have e : (x + 360 * k) * (Real.pi / 180) = x * (Real.pi / 180) + k * (2 * Real.pi) := by ring
  unfold SamePlace at h ⊢
  simp only [e, Real.cos_add_int_mul_two_pi, Real.sin_add_int_mul_two_pi]
  exact h

theorem samePlace_symm {a b : ℝ × ℝ} (h : SamePlace a b) : SamePlace b a := ⟨h.1.symm, h.2.1.symm, h.2.2.symm⟩

theorem samePlace_over' {σ : ℝ} (hσ : σ = 1 ∨ σ = -1) (P : ℝ × ℝ) : SamePlace (over σ P) P := by
  apply samePlace_symm
  unfold over opposite
  have he : σ * 180 = 180 ∨ σ * 180 = -180 := by rcases hσ with rfl | rfl <;> norm_num
  split_ifs
  · exact samePlace_over P.1 P.2 (-180) (σ * 180) (Or.inr rfl) he
  · exact samePlace_over P.1 P.2 180 (σ * 180) (Or.inl rfl) he

/-- The polygons of C113: closed rings, longitudes in [-180, 180], latitudes less than 90 degrees beyond the poles, less than
360 degrees wide, no hole if it reaches beyond the south pole, and valid when drawn in one plane. -/
structure Drawable (s : Shapely) (p : Polygon) : Prop where
  closed : ClosedPolygon p
  narrow : Narrow p
  lon : ∀ v ∈ p.exterior, -180 ≤ v.x ∧ v.x ≤ 180
  lat : ∀ v ∈ p.exterior, -180 < v.y ∧ v.y < 180
  south : p.interiors = [] ∨ ∀ v ∈ p.exterior, -90 ≤ v.y
  valid : ∀ L, LiftOf p L → s.isValid L = true

/-- C113, where it holds: for every polygon or multipolygon of less than 360 degrees, across the antimeridian and over the
poles, splitting succeeds, and every place of the globe off the outlines (and off the poles, the prime meridian and the
antimeridian) is covered by the parts of the result exactly when one of the given polygons, drawn in one plane, covers it in
one of its places there.  Missing: polygons with holes beyond the south pole, where it fails (`C55_south_false`), and
polygons around a pole (C114). -/
theorem C113_same_places_partial {s : Shapely} (hs : Cutter s) (sort : SortValues Coord.x)
    (sort' : SortValues (α := ℝ × ℝ) Prod.fst) (shape : Shape) (h : ∀ p ∈ shape.parts, Drawable s p) :
    ∃ (out : Shape) (drawn : Polygon → Polygon), splitPolygon s sort sort' shape = .ok out ∧
      (∀ p ∈ shape.parts, LiftOf p (drawn p)) ∧
      ∀ P : ℝ × ℝ, -180 < P.1 → P.1 < 180 → P.1 ≠ 0 → -90 < P.2 → P.2 < 90 →
        (∀ p ∈ shape.parts, ∀ Q, SamePlace Q P → ¬ OnBoundary (drawn p) Q) →
        ((∃ r ∈ out.parts, Covers r P) ↔ ∃ p ∈ shape.parts, ∃ Q, SamePlace Q P ∧ Covers (drawn p) Q) := by
  obtain ⟨hi, hhi, hhi', hhy⟩ := exists_below (b := 90) (c := 180) (by norm_num)
    (shape.parts.flatMap fun p => p.exterior.map (·.y)) (by
      intro y hy
      obtain ⟨p, hp, hy⟩ := List.mem_flatMap.mp hy
      obtain ⟨v, hv, rfl⟩ := List.mem_map.mp hy
      exact ((h p hp).lat v hv).2)
  obtain ⟨lo', hlo, hlo', hly⟩ := exists_below (b := 90) (c := 180) (by norm_num)
    (shape.parts.flatMap fun p => p.exterior.map (-·.y)) (by
      intro y hy
      obtain ⟨p, hp, hy⟩ := List.mem_flatMap.mp hy
      obtain ⟨v, hv, rfl⟩ := List.mem_map.mp hy
      have := ((h p hp).lat v hv).1
      linarith)
  have hyb : ∀ p ∈ shape.parts, ∀ v ∈ p.exterior, -lo' ≤ v.y ∧ v.y ≤ hi := fun p hp v hv =>
    ⟨by have := hly _ (List.mem_flatMap.mpr ⟨p, hp, List.mem_map.mpr ⟨v, hv, rfl⟩⟩); linarith,
      hhy _ (List.mem_flatMap.mpr ⟨p, hp, List.mem_map.mpr ⟨v, hv, rfl⟩⟩)⟩
  -- antimeridian
  have keyA : ∀ p : Polygon, ∃ (L : Polygon) (t : Shape), p ∈ shape.parts → LiftOf p L ∧ ClosedPolygon L ∧
      splitAntimeridian s sort sort' p = .ok t ∧
      (∀ r ∈ t.parts, Part s (-lo') hi r ∧ (r.interiors = [] ∨ ∀ v ∈ r.exterior, -90 ≤ v.y)) ∧
      ∀ P : ℝ × ℝ, -180 < P.1 → P.1 < 180 → (∀ k : Int, ¬ OnBoundary L (P.1 + 360 * k, P.2)) →
        ((∃ r ∈ t.parts, Covers r P) ↔ ∃ k : Int, Covers L (P.1 + 360 * k, P.2)) ∧ ∀ r ∈ t.parts, ¬ OnBoundary r P := by
    intro p
    by_cases hp : p ∈ shape.parts
    · have hd := h p hp
      rcases hd.south with h0 | h90
      · obtain ⟨L, t, h1, h2, h3, h4, h5⟩ := antimeridian_covers hs sort sort' hd.closed hd.narrow hd.lon (lo := -lo')
          (hi := hi) (by linarith) hhi'.le (hyb p hp) hd.valid
        exact ⟨L, t, fun _ => ⟨h1, h2, h3, fun r hr => ⟨(h4 r hr).1, Or.inl ((h4 r hr).2 h0)⟩, h5⟩⟩
      · obtain ⟨L, t, h1, h2, h3, h4, h5⟩ := antimeridian_covers hs sort sort' hd.closed hd.narrow hd.lon (lo := -90)
          (hi := hi) (by norm_num) hhi'.le (fun v hv => ⟨h90 v hv, (hyb p hp v hv).2⟩) hd.valid
        refine ⟨L, t, fun _ => ⟨h1, h2, h3, fun r hr => ⟨?_, Or.inr fun v hv => ((h4 r hr).1.lat v hv).1⟩, h5⟩⟩
        have := (h4 r hr).1
        exact ⟨this.closed, this.valid, this.lon, fun v hv => ⟨by linarith [(this.lat v hv).1], (this.lat v hv).2⟩⟩
    · exact ⟨p, .polygon p, fun h => absurd h hp⟩
  choose drawn tA hA using keyA
  obtain ⟨a, ha, ha'⟩ := forParts_exact (splitAntimeridian s sort sort') tA shape fun p hp => (hA p hp).2.2.1
  -- south
  have keyB : ∀ q : Polygon, ∃ t : Shape, q ∈ a.parts → splitSouth s q = .ok t ∧ (∀ r ∈ t.parts, Part s (-90) hi r) ∧
      ∀ P : ℝ × ℝ, -180 < P.1 → P.1 < 180 → P.1 ≠ 0 → -90 < P.2 → ¬ OnBoundary q P → ¬ OnBoundary q (over (-1) P) →
        ((∃ r ∈ t.parts, Covers r P) ↔ Covers q P ∨ Covers q (over (-1) P)) ∧ ∀ r ∈ t.parts, ¬ OnBoundary r P := by
    intro q
    by_cases hq : q ∈ a.parts
    · obtain ⟨p, hp, hr⟩ := (ha' q).mp hq
      obtain ⟨h1, h2⟩ := (hA p hp).2.2.2.1 q hr
      obtain ⟨t, ht⟩ := south_covers hs (by linarith) hhi h1 h2
      exact ⟨t, fun _ => ht⟩
    · exact ⟨.polygon q, fun h => absurd h hq⟩
  choose tB hB using keyB
  obtain ⟨b, hb, hb'⟩ := forParts_exact (splitSouth s) tB a fun q hq => (hB q hq).1
  -- north
  have keyC : ∀ q : Polygon, ∃ t : Shape, q ∈ b.parts → splitNorth s q = .ok t ∧
      ∀ P : ℝ × ℝ, -180 < P.1 → P.1 < 180 → P.1 ≠ 0 → P.2 < 90 → ¬ OnBoundary q P → ¬ OnBoundary q (over 1 P) →
        ((∃ r ∈ t.parts, Covers r P) ↔ Covers q P ∨ Covers q (over 1 P)) := by
    intro q
    by_cases hq : q ∈ b.parts
    · obtain ⟨p, hp, hr⟩ := (hb' q).mp hq
      obtain ⟨t, ht⟩ := north_covers hs hhi' ((hB p hp).2.1 q hr)
      exact ⟨t, fun _ => ht⟩
    · exact ⟨.polygon q, fun h => absurd h hq⟩
  choose tC hC using keyC
  obtain ⟨c, hc, hc'⟩ := forParts_exact (splitNorth s) tC b fun q hq => (hC q hq).1
  refine ⟨c, drawn, ?_, fun p hp => (hA p hp).1, ?_⟩
  · unfold splitPolygon
    rw [ha]
    show (do let b ← forParts (splitSouth s) a; forParts (splitNorth s) b) = _
    rw [hb]
    exact hc
  intro P h1 h2 h0 h3 h4 hoff
  -- what the parts cover after the first step
  have stepA : ∀ X : ℝ × ℝ, -180 < X.1 → X.1 < 180 → SamePlace X P →
      ((∃ q ∈ a.parts, Covers q X) ↔ ∃ p ∈ shape.parts, ∃ k : Int, Covers (drawn p) (X.1 + 360 * k, X.2)) ∧
        ∀ q ∈ a.parts, ¬ OnBoundary q X := by
    intro X x1 x2 hX
    have each := fun p hp => (hA p hp).2.2.2.2 X x1 x2 fun k => hoff p hp _ (samePlace_turns X.1 X.2 k hX)
    refine ⟨⟨?_, ?_⟩, ?_⟩
    · rintro ⟨q, hq, hcov⟩
      obtain ⟨p, hp, hr⟩ := (ha' q).mp hq
      exact ⟨p, hp, (each p hp).1.mp ⟨q, hr, hcov⟩⟩
    · rintro ⟨p, hp, hk⟩
      obtain ⟨q, hq, hcov⟩ := (each p hp).1.mpr hk
      exact ⟨q, (ha' q).mpr ⟨p, hp, hq⟩, hcov⟩
    · intro q hq
      obtain ⟨p, hp, hr⟩ := (ha' q).mp hq
      exact (each p hp).2 q hr
  have trans : ∀ {X Y : ℝ × ℝ}, SamePlace X Y → SamePlace Y P → SamePlace X P := fun hx hy =>
    ⟨hx.1.trans hy.1, hx.2.1.trans hy.2.1, hx.2.2.trans hy.2.2⟩
  have stepB : ∀ X : ℝ × ℝ, -180 < X.1 → X.1 < 180 → X.1 ≠ 0 → -90 < X.2 → SamePlace X P →
      ((∃ q ∈ b.parts, Covers q X) ↔ (∃ q ∈ a.parts, Covers q X) ∨ ∃ q ∈ a.parts, Covers q (over (-1) X)) ∧
        ∀ q ∈ b.parts, ¬ OnBoundary q X := by
    intro X x1 x2 x0 x3 hX
    have hor := opposite_range x1 x2 x0
    have s1 := stepA X x1 x2 hX
    have s2 := stepA (over (-1) X) hor.1 hor.2.1 (trans (samePlace_over' (Or.inr rfl) X) hX)
    have each := fun q hq => (hB q hq).2.2 X x1 x2 x0 x3 (s1.2 q hq) (s2.2 q hq)
    refine ⟨⟨?_, ?_⟩, ?_⟩
    · rintro ⟨r, hr, hcov⟩
      obtain ⟨q, hq, hr'⟩ := (hb' r).mp hr
      rcases (each q hq).1.mp ⟨r, hr', hcov⟩ with h | h
      · exact Or.inl ⟨q, hq, h⟩
      · exact Or.inr ⟨q, hq, h⟩
    · rintro (⟨q, hq, hcov⟩ | ⟨q, hq, hcov⟩)
      · obtain ⟨r, hr, h⟩ := (each q hq).1.mpr (Or.inl hcov)
        exact ⟨r, (hb' r).mpr ⟨q, hq, hr⟩, h⟩
      · obtain ⟨r, hr, h⟩ := (each q hq).1.mpr (Or.inr hcov)
        exact ⟨r, (hb' r).mpr ⟨q, hq, hr⟩, h⟩
    · intro r hr
      obtain ⟨q, hq, hr'⟩ := (hb' r).mp hr
      exact (each q hq).2 r hr'
  have hPP : SamePlace P P := samePlace_refl P
  have hN : SamePlace (over 1 P) P := samePlace_over' (Or.inl rfl) P
  have hS : SamePlace (over (-1) P) P := samePlace_over' (Or.inr rfl) P
  have hor := opposite_range h1 h2 h0
  have hN2 : (over 1 P).2 = 180 - P.2 := by unfold over; ring
  have hS2 : (over (-1) P).2 = -180 - P.2 := by unfold over; ring
  have b1 := stepB P h1 h2 h0 h3 hPP
  have b2 := stepB (over 1 P) hor.1 hor.2.1 hor.2.2 (by rw [hN2]; linarith) hN
  have stepC : (∃ r ∈ c.parts, Covers r P) ↔ (∃ q ∈ b.parts, Covers q P) ∨ ∃ q ∈ b.parts, Covers q (over 1 P) := by
    have each := fun q hq => (hC q hq).2 P h1 h2 h0 h4 (b1.2 q hq) (b2.2 q hq)
    constructor
    · rintro ⟨r, hr, hcov⟩
      obtain ⟨q, hq, hr'⟩ := (hc' r).mp hr
      rcases (each q hq).mp ⟨r, hr', hcov⟩ with h | h
      · exact Or.inl ⟨q, hq, h⟩
      · exact Or.inr ⟨q, hq, h⟩
    · rintro (⟨q, hq, hcov⟩ | ⟨q, hq, hcov⟩)
      · obtain ⟨r, hr, h⟩ := (each q hq).mpr (Or.inl hcov)
        exact ⟨r, (hc' r).mpr ⟨q, hq, hr⟩, h⟩
      · obtain ⟨r, hr, h⟩ := (each q hq).mpr (Or.inr hcov)
        exact ⟨r, (hc' r).mpr ⟨q, hq, hr⟩, h⟩
  -- latitudes of the polygon drawn
  have drawnLat : ∀ p ∈ shape.parts, ∀ X : ℝ × ℝ, Covers (drawn p) X → -180 ≤ X.2 ∧ X.2 ≤ 180 := by
    intro p hp X hX
    refine covers_y (hA p hp).2.1 hX fun v hv => ?_
    have hm : v.y ∈ p.exterior.map (·.y) := by
      rw [← (hA p hp).1.latitudes]; exact List.mem_map.mpr ⟨v, hv, rfl⟩
    obtain ⟨w, hw, he⟩ := List.mem_map.mp hm
    rw [← he]
    exact ⟨((h p hp).lat w hw).1.le, ((h p hp).lat w hw).2.le⟩
  rw [stepC, b1.1, b2.1, (stepA P h1 h2 hPP).1, (stepA (over (-1) P) hor.1 hor.2.1 hS).1,
    (stepA (over 1 P) hor.1 hor.2.1 hN).1]
  constructor
  · rintro ((⟨p, hp, k, hk⟩ | ⟨p, hp, k, hk⟩) | ⟨p, hp, k, hk⟩ | ⟨q, hq, hk⟩)
    · exact ⟨p, hp, _, samePlace_turns _ _ k hPP, hk⟩
    · exact ⟨p, hp, _, samePlace_turns _ _ k hS, hk⟩
    · exact ⟨p, hp, _, samePlace_turns _ _ k hN, hk⟩
    · have hor' := opposite_range hor.1 hor.2.1 hor.2.2
      have hSN := trans (samePlace_over' (Or.inr rfl) (over 1 P)) hN
      obtain ⟨p, hp, k, hk⟩ := (stepA (over (-1) (over 1 P)) hor'.1 hor'.2.1 hSN).1.mp ⟨q, hq, hk⟩
      exact ⟨p, hp, _, samePlace_turns _ _ k hSN, hk⟩
  · rintro ⟨p, hp, Q, hQ, hcov⟩
    have hl := drawnLat p hp Q hcov
    obtain ⟨k, j, hQ' | hQ'⟩ := samePlace_cases h3 h4 hQ
    · have hj : j = 0 := by
        rw [hQ'] at hl
        simp only at hl
        have j1 : (j : ℝ) < 1 := by linarith
        have j2 : (-1 : ℝ) < j := by linarith
        have j1' : j < 1 := by exact_mod_cast j1
        have j2' : -1 < j := by exact_mod_cast j2
        omega
      rw [hj] at hQ'
      refine Or.inl (Or.inl ⟨p, hp, k, ?_⟩)
      rw [hQ'] at hcov
      simpa using hcov
    · have hj : j = 0 ∨ j = -1 := by
        rw [hQ'] at hl
        simp only at hl
        have j1 : (j : ℝ) < 1 := by linarith
        have j2 : (-2 : ℝ) < j := by linarith
        have j1' : j < 1 := by exact_mod_cast j1
        have j2' : -2 < j := by exact_mod_cast j2
        omega
      have hlon : ∃ k' : Int, P.1 + 180 + 360 * (k : ℝ) = opposite P.1 + 360 * (k' : ℝ) := by
        unfold opposite
        split_ifs
        · exact ⟨k + 1, by push_cast; ring⟩
        · exact ⟨k, rfl⟩
      obtain ⟨k', hk'⟩ := hlon
      rw [hQ', hk'] at hcov
      rcases hj with rfl | rfl
      · refine Or.inr (Or.inl ⟨p, hp, k', ?_⟩)
        rw [hN2]
        show Covers (drawn p) (opposite P.1 + 360 * (k' : ℝ), 180 - P.2)
        simpa using hcov
      · refine Or.inl (Or.inr ⟨p, hp, k', ?_⟩)
        rw [hS2]
        have e : (180 - P.2 + 360 * ((-1 : Int) : ℝ)) = -180 - P.2 := by push_cast; ring
        rw [e] at hcov
        exact hcov

/-- The rectangle between 170 and −170 degrees that reaches over the north pole meets the hypotheses, with the splitting by
clipping. -/
theorem box_drawable : Drawable clipping (box 170 (-170) 80 100) := by
  have hu : ∀ u, Unwraps ((box 170 (-170) 80 100).exterior.map (·.x)) u → ∀ a ∈ u, a = 170 ∨ a = 190 := by
    intro u hu
    have hl : u.length = 5 := hu.length
    obtain ⟨u0, u1, u2, u3, u4, rfl⟩ : ∃ a b c d e, u = [a, b, c, d, e] := by
      rcases u with _ | ⟨a, _ | ⟨b, _ | ⟨c, _ | ⟨d, _ | ⟨e, _ | ⟨f, t⟩⟩⟩⟩⟩⟩ <;> simp at hl
      exact ⟨a, b, c, d, e, rfl⟩
    have h0 : u0 = 170 := by simpa [box] using hu.start
    have t := hu.turns
    have st := hu.steps
    obtain ⟨k1, e1⟩ := t 1 (by simp) (by simp [box]); obtain ⟨k2, e2⟩ := t 2 (by simp) (by simp [box])
    obtain ⟨k3, e3⟩ := t 3 (by simp) (by simp [box]); obtain ⟨k4, e4⟩ := t 4 (by simp) (by simp [box])
    have s1 := st 0 (by simp); have s2 := st 1 (by simp)
    have s3 := st 2 (by simp); have s4 := st 3 (by simp)
    simp [box] at e1 e2 e3 e4 s1 s2 s3 s4
    rw [abs_le] at s1 s2 s3 s4
    have int : ∀ k m : Int, (k : ℝ) < m + 1 → (m : ℝ) - 1 < k → k = m := by
      intro k m h1 h2
      have h1' : k < m + 1 := by exact_mod_cast h1
      have h2' : m - 1 < k := by exact_mod_cast h2
      omega
    have a1 : k1 = -1 := int k1 (-1) (by push_cast; linarith) (by push_cast; linarith)
    have b1 : u1 = 190 := by rw [e1, a1]; norm_num
    have a2 : k2 = -1 := int k2 (-1) (by push_cast; linarith) (by push_cast; linarith)
    have b2 : u2 = 190 := by rw [e2, a2]; norm_num
    have a3 : k3 = 0 := int k3 0 (by push_cast; linarith) (by push_cast; linarith)
    have b3 : u3 = 170 := by rw [e3, a3]; norm_num
    have a4 : k4 = 0 := int k4 0 (by push_cast; linarith) (by push_cast; linarith)
    have b4 : u4 = 170 := by rw [e4, a4]; norm_num
    intro a ha
    simp only [List.mem_cons, List.not_mem_nil, or_false] at ha
    rcases ha with rfl | rfl | rfl | rfl | rfl
    · exact Or.inl h0
    · exact Or.inr b1
    · exact Or.inr b2
    · exact Or.inl b3
    · exact Or.inl b4
  refine ⟨box_closed _ _ _ _, ⟨?_, ?_⟩, ?_, ?_, Or.inl rfl, fun L hL => ?_⟩
  · intro u h a ha b hb
    rcases hu u h a ha with rfl | rfl <;> rcases hu u h b hb with rfl | rfl <;> norm_num
  · intro u _ i hi; simp [box] at hi
  · intro v hv
    simp only [box, List.mem_cons, List.not_mem_nil, or_false] at hv
    rcases hv with rfl | rfl | rfl | rfl | rfl <;> norm_num
  · intro v hv
    simp only [box, List.mem_cons, List.not_mem_nil, or_false] at hv
    rcases hv with rfl | rfl | rfl | rfl | rfl <;> norm_num
  · have hi : L.interiors = [] := by
      have := hL.holes
      cases hL' : L.interiors with
      | nil => rfl
      | cons a t => rw [hL'] at this; simp [box] at this
    show decide (Plain L) = true
    simp only [decide_eq_true_eq]
    exact ⟨hL.closed, hi⟩

/-- The drawing in one plane is determined when no two neighbouring vertices are half a turn apart. -/
theorem unwraps_unique {lon u v : List ℝ} (hu : Unwraps lon u) (hv : Unwraps lon v)
    (h : ∀ i (h : i + 1 < lon.length) (k : Int), lon[i + 1] - lon[i] ≠ 180 + 360 * k) : u = v := by
  refine List.ext_getElem (by rw [hu.length, hv.length]) fun i hi hi' => ?_
  induction i with
  | zero =>
    have := hu.start.trans hv.start.symm
    rw [List.head?_eq_getElem?, List.head?_eq_getElem?, List.getElem?_eq_getElem hi, List.getElem?_eq_getElem hi'] at this
    exact Option.some.inj this
  | succ i ih =>
    have hl : i + 1 < lon.length := by rw [← hu.length]; exact hi
    have ih := ih (by omega) (by omega)
    obtain ⟨k, hk⟩ := hu.turns (i + 1) hi hl
    obtain ⟨m, hm⟩ := hv.turns (i + 1) hi' hl
    obtain ⟨n, hn⟩ := hu.turns i (by omega) (by omega)
    have s1 := hu.steps i hi; have s2 := hv.steps i hi'
    rw [← ih] at s2
    have hne : u[i + 1] - u[i] ≠ 180 := fun he =>
      h i hl (k - n) (by rw [hk, hn] at he; push_cast; linarith)
    have hne' : u[i + 1] - u[i] ≠ -180 := fun he =>
      h i hl (k - n - 1) (by rw [hk, hn] at he; push_cast; linarith)
    rw [abs_le] at s1 s2
    have l1 : u[i + 1] - u[i] < 180 := lt_of_le_of_ne s1.2 hne
    have l2 : -180 < u[i + 1] - u[i] := lt_of_le_of_ne s1.1 (Ne.symm hne')
    have e : u[i + 1] - v[i + 1] = 360 * ((m : ℝ) - k) := by rw [hk, hm]; ring
    have k1 : (m : ℝ) - k < 1 := by linarith
    have k2 : -1 < (m : ℝ) - k := by linarith
    have k1' : m - k < 1 := by exact_mod_cast k1
    have k2' : -1 < m - k := by exact_mod_cast k2
    have : m = k := by omega
    rw [hk, hm, this]

/-- The points of a rectangle. -/
theorem covers_box {x0 x1 y0 y1 : ℝ} (hx : x0 < x1) (hy : y0 < y1) (P : ℝ × ℝ) :
    Covers (box x0 x1 y0 y1) P ↔ (x0 ≤ P.1 ∧ P.1 < x1) ∧ y0 ≤ P.2 ∧ P.2 < y1 := by
  rw [covers_plain rfl]
  have e : outline (box x0 x1 y0 y1).exterior = [(x0, y0), (x1, y0), (x1, y1), (x0, y1), (x0, y0)] := rfl
  rw [e, sidesOver_cons, sidesOver_cons, sidesOver_cons, sidesOver_cons]
  have h0 : sidesOver [(x0, y0)] P = 0 := rfl
  have s1 : PassesOver P ((x0, y0), (x1, y0)) ↔ (x0 ≤ P.1 ∧ P.1 < x1) ∧ P.2 < y0 := by
    unfold PassesOver Spans heightAt
    simp only [sub_self, zero_mul, add_zero]
    constructor
    · rintro ⟨h | h, h'⟩
      · exact ⟨h, h'⟩
      · linarith [h.1, h.2]
    · rintro ⟨h, h'⟩; exact ⟨Or.inl h, h'⟩
  have s2 : ¬ PassesOver P ((x1, y0), (x1, y1)) := by
    rintro ⟨h | h, -⟩ <;> linarith [h.1, h.2]
  have s3 : PassesOver P ((x1, y1), (x0, y1)) ↔ (x0 ≤ P.1 ∧ P.1 < x1) ∧ P.2 < y1 := by
    unfold PassesOver Spans heightAt
    simp only [sub_self, zero_mul, add_zero]
    constructor
    · rintro ⟨h | h, h'⟩
      · linarith [h.1, h.2]
      · exact ⟨h, h'⟩
    · rintro ⟨h, h'⟩; exact ⟨Or.inr h, h'⟩
  have s4 : ¬ PassesOver P ((x0, y1), (x0, y0)) := by
    rintro ⟨h | h, -⟩ <;> linarith [h.1, h.2]
  rw [h0, if_neg s2, if_neg s4]
  simp only [s1, s3]
  by_cases hP : x0 ≤ P.1 ∧ P.1 < x1 <;> by_cases h1 : P.2 < y0 <;> by_cases h2 : P.2 < y1 <;>
    simp [hP, h1, h2]
  · exact ⟨fun h => absurd h (by decide), fun h => absurd h1 (not_lt.mpr h)⟩
  · linarith
  · exact not_lt.mp h1

/-- C113 does not hold of polygons that are given with longitudes beyond the antimeridian: every rectangle that reaches
beyond it, without a step of half a turn, is returned as it is, and the places beyond the antimeridian are not covered
where they are on the globe. -/
theorem C113_beyond_false (s : Shapely) (sort : SortValues Coord.x) (sort' : SortValues (α := ℝ × ℝ) Prod.fst)
    {x0 x1 y0 y1 : ℝ} (hx0 : x0 ≤ 180) (hx1 : 180 < x1) (hx : x1 - x0 < 180) (hy : y0 < y1) (h0 : -90 ≤ y0)
    (h1 : y1 ≤ 90) :
    splitPolygon s sort sort' (.polygon (box x0 x1 y0 y1)) = .ok (.polygon (box x0 x1 y0 y1)) ∧
    ∀ P : ℝ × ℝ, -180 ≤ P.1 → P.1 + 360 < x1 → y0 ≤ P.2 → P.2 < y1 →
      SamePlace (P.1 + 360, P.2) P ∧ Covers (box x0 x1 y0 y1) (P.1 + 360, P.2) ∧ ¬ Covers (box x0 x1 y0 y1) P := by
  constructor
  · have hsm : smallSteps ((box x0 x1 y0 y1).exterior.map (·.x)) := by
      show |x1 - x0| < 180 ∧ |x1 - x1| < 180 ∧ |x0 - x1| < 180 ∧ |x0 - x0| < 180 ∧ True
      refine ⟨?_, by norm_num, ?_, by norm_num, trivial⟩ <;> rw [abs_lt] <;> constructor <;> linarith
    have hs : ∀ c ∈ (box x0 x1 y0 y1).exterior, c.y ≥ -90 := by
      intro c hc
      simp only [box, List.mem_cons, List.not_mem_nil, or_false] at hc
      rcases hc with rfl | rfl | rfl | rfl | rfl <;> simp only <;> linarith
    have hn : ∀ c ∈ (box x0 x1 y0 y1).exterior, c.y ≤ 90 := by
      intro c hc
      simp only [box, List.mem_cons, List.not_mem_nil, or_false] at hc
      rcases hc with rfl | rfl | rfl | rfl | rfl <;> simp only <;> linarith
    unfold splitPolygon
    have e1 : forParts (splitAntimeridian s sort sort') (.polygon (box x0 x1 y0 y1)) = .ok (.polygon (box x0 x1 y0 y1)) := by
      show splitAntimeridian s sort sort' _ = _
      unfold splitAntimeridian; simp only [if_pos hsm]
    have e2 : forParts (splitSouth s) (.polygon (box x0 x1 y0 y1)) = .ok (.polygon (box x0 x1 y0 y1)) := by
      show splitSouth s _ = _
      unfold splitSouth; rw [if_pos hs]
    have e3 : forParts (splitNorth s) (.polygon (box x0 x1 y0 y1)) = .ok (.polygon (box x0 x1 y0 y1)) := by
      show splitNorth s _ = _
      unfold splitNorth; rw [if_pos hn]
    rw [e1]
    show (do let b ← forParts (splitSouth s) (.polygon (box x0 x1 y0 y1)); forParts (splitNorth s) b) = _
    rw [e2]
    exact e3
  · intro P p1 p2 p3 p4
    refine ⟨?_, ?_, ?_⟩
    · have := samePlace_turns P.1 P.2 1 (samePlace_refl (P.1, P.2))
      simpa using this
    · rw [covers_box (by linarith) hy]
      exact ⟨⟨by simp only; linarith, p2⟩, p3, p4⟩
    · rw [covers_box (by linarith) hy]
      rintro ⟨⟨h, -⟩, -⟩
      linarith

/-- A rectangle from 170 to 190 degrees. -/
example : (170 : ℝ) ≤ 180 ∧ (180 : ℝ) < 190 ∧ (190 : ℝ) - 170 < 180 ∧ (0 : ℝ) < 10 ∧ (-180 : ℝ) ≤ -175 ∧ (-175 : ℝ) + 360 < 190 := by
  norm_num

end Tatc.Props
