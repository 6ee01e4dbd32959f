import Verif.Model.Polygon
import Verif.Spec.Ring
import Verif.Lemmas.Generation
import Mathlib.Tactic.Linarith

/-!
# C52, C53 and C56: heights, unwrapped rings, and collections
-/

namespace Tatc.Props
open Tatc.Polygons Tatc.Spec Tatc.Num Tatc.Generation
open Tatc.Pandas (SortValues)
open scoped Classical

/-! ## C52 -/

/-- A list of coordinates that ends where it starts. -/
def ClosedRing (l : List Coord) : Prop := l.head? = l.getLast?

theorem ring_closed {l : List Coord} (h : ClosedRing l) : ring l = l := by
  unfold ring
  rcases l with _ | ⟨a, t⟩
  · rfl
  · simp only [List.head?_cons]
    rw [if_pos (show (a :: t).getLast? = some a from h.symm)]

theorem closed_map {l : List Coord} (h : ClosedRing l) (f : Coord → Coord) : ClosedRing (l.map f) := by
  unfold ClosedRing at *
  rw [List.head?_map, List.getLast?_map, h]

/-- Every ring of the polygon ends where it starts. -/
def ClosedPolygon (p : Polygon) : Prop := ClosedRing p.exterior ∧ ∀ i ∈ p.interiors, ClosedRing i

theorem mkPolygon_map {p : Polygon} (h : ClosedPolygon p) (f : Coord → Coord) :
    mkPolygon (p.exterior.map f) (p.interiors.map fun i => i.map f) =
      ⟨p.exterior.map f, p.interiors.map fun i => i.map f⟩ := by
  unfold mkPolygon
  rw [ring_closed (closed_map h.1 f), List.map_map]
  congr 1
  apply List.map_congr_left
  intro i hi
  exact ring_closed (closed_map (h.2 i hi) f)

/-- The polygon `q` is `p` with every height replaced by `e`. -/
def AtElevation (e : ℝ) (p q : Polygon) : Prop :=
  q.exterior.map (fun c => (c.x, c.y)) = p.exterior.map (fun c => (c.x, c.y)) ∧
  q.interiors.map (fun i => i.map fun c => (c.x, c.y)) = p.interiors.map (fun i => i.map fun c => (c.x, c.y)) ∧
  (∀ c ∈ q.exterior, c.z = some e) ∧ ∀ i ∈ q.interiors, ∀ c ∈ i, c.z = some e

theorem projectPolygon_at (e : ℝ) (p : Polygon) (h : ClosedPolygon p) : AtElevation e p (projectPolygon e p) := by
  unfold projectPolygon
  rw [mkPolygon_map h (fun c => ⟨c.x, c.y, some e⟩)]
  refine ⟨?_, ?_, ?_, ?_⟩
  · simp [List.map_map, Function.comp_def]
  · simp [List.map_map, Function.comp_def]
  · intro c hc
    obtain ⟨d, -, rfl⟩ := List.mem_map.mp hc
    rfl
  · intro i hi c hc
    obtain ⟨j, -, rfl⟩ := List.mem_map.mp hi
    obtain ⟨d, -, rfl⟩ := List.mem_map.mp hc
    rfl

theorem projectPolygon_twice (e e' : ℝ) (p : Polygon) (h : ClosedPolygon p) :
    projectPolygon e (projectPolygon e' p) = projectPolygon e p := by
  have h1 : projectPolygon e' p = ⟨p.exterior.map fun c => ⟨c.x, c.y, some e'⟩,
      p.interiors.map fun i => i.map fun c => ⟨c.x, c.y, some e'⟩⟩ :=
    mkPolygon_map h (fun c => ⟨c.x, c.y, some e'⟩)
  have hc : ClosedPolygon (projectPolygon e' p) := by
    rw [h1]
    refine ⟨closed_map h.1 _, ?_⟩
    intro i hi
    obtain ⟨j, hj, rfl⟩ := List.mem_map.mp hi
    exact closed_map (h.2 j hj) _
  unfold projectPolygon at hc ⊢
  rw [mkPolygon_map h] at hc ⊢
  rw [mkPolygon_map hc, mkPolygon_map h]
  simp [List.map_map, Function.comp_def]

/-- C52: for every polygon or multipolygon, with or without heights, and every elevation: the result is of the same
kind, with the same number of parts in the same order, each with the same rings and horizontal coordinates and every
height equal to the elevation; projecting again, whatever the elevation before, changes only the height. -/
theorem C52_project (e e' : ℝ) (s : Shape) (h : ∀ p ∈ s.parts, ClosedPolygon p) :
    ((∃ p q, s = .polygon p ∧ project e s = .polygon q ∧ AtElevation e p q) ∨
      (∃ ps qs, s = .multi ps ∧ project e s = .multi qs ∧ List.Forall₂ (AtElevation e) ps qs)) ∧
    project e (project e' s) = project e s := by
  rcases s with p | ps
  · have hp : ClosedPolygon p := h p (by simp [Shape.parts])
    refine ⟨Or.inl ⟨p, _, rfl, rfl, projectPolygon_at e p hp⟩, ?_⟩
    show Shape.polygon _ = Shape.polygon _
    rw [projectPolygon_twice e e' p hp]
  · have hp : ∀ p ∈ ps, ClosedPolygon p := h
    refine ⟨Or.inr ⟨ps, _, rfl, rfl, ?_⟩, ?_⟩
    · rw [List.forall₂_map_right_iff]
      exact List.forall₂_same.mpr fun p hpm => projectPolygon_at e p (hp p hpm)
    · show Shape.multi _ = Shape.multi _
      rw [List.map_map]
      congr 1
      apply List.map_congr_left
      intro p hpm
      exact projectPolygon_twice e e' p (hp p hpm)

/-- A triangle with a hole meets the hypothesis. -/
example : ClosedPolygon ⟨[⟨0, 0, none⟩, ⟨9, 0, none⟩, ⟨0, 9, none⟩, ⟨0, 0, none⟩],
    [[⟨1, 1, none⟩, ⟨2, 1, none⟩, ⟨1, 2, none⟩, ⟨1, 1, none⟩]]⟩ := by
  refine ⟨rfl, ?_⟩
  intro i hi
  obtain rfl := List.mem_singleton.mp hi
  rfl

/-! ## C53 -/

theorem shiftFrom_length (s : Int) (a : ℝ) (l : List ℝ) : (shiftFrom s a l).length = l.length := by
  induction l generalizing s a with
  | nil => rfl
  | cons b t ih => simp [shiftFrom, ih]

theorem shifts_length (l : List ℝ) : (shifts l).length = l.length := by
  cases l with
  | nil => rfl
  | cons a t => simp [shifts, shiftFrom_length]

theorem step_small (a b : ℝ) (s : Int) :
    |(b - 360 * ((s + Num.roundHalfEven ((b - a) / 360) : Int) : ℝ)) - (a - 360 * (s : ℝ))| ≤ 180 := by
  have := round_close ((b - a) / 360)
  rw [abs_le] at this ⊢
  push_cast
  constructor <;> linarith [this.1, this.2]

theorem shiftFrom_step (s : Int) (a : ℝ) (l : List ℝ) (i : Nat) (h : i < l.length) :
    ∃ h1 : i < (shiftFrom s a l).length, ∀ (hp : i < (a :: l).length) (hq : i < (s :: shiftFrom s a l).length),
      |(l[i] - 360 * ((shiftFrom s a l)[i] : ℝ)) - ((a :: l)[i] - 360 * ((s :: shiftFrom s a l)[i] : ℝ))| ≤ 180 := by
  induction l generalizing s a i with
  | nil => simp at h
  | cons b t ih =>
    refine ⟨by rw [shiftFrom_length]; exact h, ?_⟩
    intro hp hq
    rcases i with _ | i
    · simp only [List.getElem_cons_zero, shiftFrom]
      exact step_small a b s
    · obtain ⟨h1, h2⟩ := ih (s + Num.roundHalfEven ((b - a) / 360)) b i (by simpa using h)
      have := h2 (by simp at hp ⊢; omega) (by simp [shiftFrom_length] at hq ⊢; omega)
      simpa only [List.getElem_cons_succ, shiftFrom] using this

/-- The longitudes of the exterior after shifting. -/
noncomputable def unwrapped (lon : List ℝ) : List ℝ := List.zipWith (fun x (k : Int) => x - 360 * (k : ℝ)) lon (shifts lon)

theorem unwrapExterior_x (coords : List Coord) :
    (unwrapExterior coords).map (·.x) = unwrapped (coords.map (·.x)) := by
  unfold unwrapExterior unwrapped
  rw [List.map_zipWith, List.zipWith_map_left]

theorem unwrapped_unwraps (lon : List ℝ) : Unwraps lon (unwrapped lon) := by
  have hlen : (unwrapped lon).length = lon.length := by
    unfold unwrapped; rw [List.length_zipWith, shifts_length, min_self]
  refine ⟨hlen, ?_, ?_, ?_⟩
  · cases lon with
    | nil => rfl
    | cons a t => simp [unwrapped, shifts]
  · intro i h h'
    refine ⟨(shifts lon)[i]'(by rw [shifts_length]; exact h'), ?_⟩
    simp only [unwrapped, List.getElem_zipWith]
  · intro i h
    rw [hlen] at h
    cases lon with
    | nil => simp at h
    | cons a t =>
      have hi : i < t.length := by simpa using h
      obtain ⟨h1, h2⟩ := shiftFrom_step 0 a t i hi
      have := h2 (by simp; omega) (by simp [shiftFrom_length]; omega)
      simp only [unwrapped, shifts, List.getElem_zipWith, List.getElem_cons_succ]
      exact this

/-- C53: for every ring, the exterior of a polygon that crosses the antimeridian is shifted by whole turns so that each
step is at most 180 degrees; latitudes are kept. -/
theorem C53_exterior (coords : List Coord) :
    Unwraps (coords.map (·.x)) ((unwrapExterior coords).map (·.x)) ∧
      (unwrapExterior coords).map (·.y) = coords.map (·.y) := by
  refine ⟨?_, ?_⟩
  · rw [unwrapExterior_x]; exact unwrapped_unwraps _
  · unfold unwrapExterior
    rw [List.map_zipWith]
    have : ∀ (l : List Coord) (s : List Int), s.length = l.length →
        List.zipWith (fun (c : Coord) (_ : Int) => c.y) l s = l.map (·.y) := by
      intro l
      induction l with
      | nil => intro s _; rfl
      | cons c t ih =>
        intro s hs
        rcases s with _ | ⟨k, s⟩
        · simp at hs
        · simp only [List.zipWith_cons_cons, List.map_cons]
          rw [ih s (by simpa using hs)]
    exact this _ _ (by rw [shifts_length, List.length_map])

/-- A ring that goes over the antimeridian and back is shifted to go on beyond 180 degrees. -/
example : unwrapped [170, -170, 170] = [170, 190, 170] := by
  have h1 : Num.roundHalfEven ((-170 - 170) / 360) = -1 := by
    have hf : ⌊((-170 - 170 : ℝ) / 360)⌋ = -1 := by rw [Int.floor_eq_iff]; norm_num
    unfold Num.roundHalfEven
    simp only [hf]
    norm_num
  have h2 : Num.roundHalfEven ((170 - -170) / 360) = 1 := by
    have hf : ⌊((170 - -170 : ℝ) / 360)⌋ = 0 := by rw [Int.floor_eq_iff]; norm_num
    unfold Num.roundHalfEven
    simp only [hf]
    norm_num
  simp only [unwrapped, shifts, shiftFrom, h1, h2, List.zipWith_cons_cons, List.zipWith_nil_left]
  norm_num

/-! Interior rings -/

/-- Above a point from which on all values are `k`, the interpolation is `k`. -/
theorem interpFrom_above (x c k : ℝ) (l : List (ℝ × ℝ)) (x0 f0 : ℝ) (h0 : x0 ≤ x)
    (hs : ((x0, f0) :: l).Pairwise (fun a b => a.1 ≤ b.1)) (hk : ∀ q ∈ (x0, f0) :: l, c ≤ q.1 → q.2 = k)
    (hex : ∃ q ∈ (x0, f0) :: l, c ≤ q.1 ∧ q.1 ≤ x) : interpFrom x x0 f0 l = k := by
  induction l generalizing x0 f0 with
  | nil =>
    obtain ⟨q, hq, h1, -⟩ := hex
    obtain rfl := List.mem_singleton.mp hq
    exact hk _ (by simp) h1
  | cons p t ih =>
    rcases p with ⟨x1, f1⟩
    rw [List.pairwise_cons] at hs
    have h01 : x0 ≤ x1 := hs.1 (x1, f1) (by simp)
    unfold interpFrom
    split_ifs with hle
    · refine ih x1 f1 hle hs.2 (fun q hq => hk q (List.mem_cons_of_mem _ hq)) ?_
      obtain ⟨q, hq, h1, h2⟩ := hex
      rcases List.mem_cons.mp hq with rfl | hq
      · exact ⟨(x1, f1), by simp, h1.trans h01, hle⟩
      · exact ⟨q, hq, h1, h2⟩
    · obtain ⟨q, hq, h1, h2⟩ := hex
      have hq0 : c ≤ x0 := by
        rcases List.mem_cons.mp hq with rfl | hq
        · exact h1
        · exfalso
          have : x1 ≤ q.1 := by
            rcases List.mem_cons.mp hq with rfl | hq
            · exact le_rfl
            · exact (List.pairwise_cons.mp hs.2).1 q hq
          linarith
      have e0 : f0 = k := hk (x0, f0) (by simp) hq0
      have e1 : f1 = k := hk (x1, f1) (by simp) (hq0.trans h01)
      rw [e0, e1]; simp

/-- Below a point up to which all values are `k`, the interpolation is `k`. -/
theorem interpFrom_below (x c k : ℝ) (l : List (ℝ × ℝ)) (x0 f0 : ℝ) (h0 : x0 ≤ x)
    (hs : ((x0, f0) :: l).Pairwise (fun a b => a.1 ≤ b.1)) (hk : ∀ q ∈ (x0, f0) :: l, q.1 ≤ c → q.2 = k) (hxc : x ≤ c)
    (hex : ∃ q ∈ (x0, f0) :: l, x ≤ q.1 ∧ q.1 ≤ c) : interpFrom x x0 f0 l = k := by
  have e0 : f0 = k := hk (x0, f0) (by simp) (h0.trans hxc)
  induction l generalizing x0 f0 with
  | nil => exact e0
  | cons p t ih =>
    rcases p with ⟨x1, f1⟩
    rw [List.pairwise_cons] at hs
    have h01 : x0 ≤ x1 := hs.1 (x1, f1) (by simp)
    unfold interpFrom
    split_ifs with hle
    · refine ih x1 f1 hle hs.2 (fun q hq => hk q (List.mem_cons_of_mem _ hq)) ?_ (hk (x1, f1) (by simp) (hle.trans hxc))
      obtain ⟨q, hq, h1, h2⟩ := hex
      rcases List.mem_cons.mp hq with rfl | hq
      · exact ⟨(x1, f1), by simp, by linarith, by linarith⟩
      · exact ⟨q, hq, h1, h2⟩
    · obtain ⟨q, hq, h1, h2⟩ := hex
      rcases List.mem_cons.mp hq with rfl | hq
      · have : x = x0 := le_antisymm h1 h0
        rw [this, sub_self, mul_zero, add_zero]; exact e0
      · have : x1 ≤ q.1 := by
          rcases List.mem_cons.mp hq with rfl | hq
          · exact le_rfl
          · exact (List.pairwise_cons.mp hs.2).1 q hq
        have e1 : f1 = k := hk (x1, f1) (by simp) (this.trans h2)
        rw [e0, e1]; simp

theorem interp_above (x k : ℝ) (l : List (ℝ × ℝ)) (hs : l.Pairwise (fun a b => a.1 ≤ b.1)) (q : ℝ × ℝ) (hq : q ∈ l)
    (hk : ∀ p ∈ l, q.1 ≤ p.1 → p.2 = k) (hx : q.1 ≤ x) : interp x l = k := by
  rcases l with _ | ⟨⟨x0, f0⟩, t⟩
  · simp at hq
  · show (if x < x0 then f0 else interpFrom x x0 f0 t) = k
    have h0 : x0 ≤ x := by
      rcases List.mem_cons.mp hq with rfl | hq'
      · exact hx
      · exact ((List.pairwise_cons.mp hs).1 q hq').trans hx
    rw [if_neg (not_lt.mpr h0)]
    exact interpFrom_above x q.1 k t x0 f0 h0 hs hk ⟨q, hq, le_rfl, hx⟩

theorem interp_below (x k : ℝ) (l : List (ℝ × ℝ)) (hs : l.Pairwise (fun a b => a.1 ≤ b.1)) (q : ℝ × ℝ) (hq : q ∈ l)
    (hk : ∀ p ∈ l, p.1 ≤ q.1 → p.2 = k) (hx : x ≤ q.1) : interp x l = k := by
  rcases l with _ | ⟨⟨x0, f0⟩, t⟩
  · simp at hq
  · show (if x < x0 then f0 else interpFrom x x0 f0 t) = k
    split_ifs with h0
    · refine hk (x0, f0) (by simp) ?_
      rcases List.mem_cons.mp hq with rfl | hq'
      · exact le_rfl
      · exact (List.pairwise_cons.mp hs).1 q hq'
    · exact interpFrom_below x q.1 k t x0 f0 (not_lt.mp h0) hs hk hx ⟨q, hq, hx, le_rfl⟩

/-- The pairs of longitude and shift that are sorted. -/
noncomputable def shiftPairs (lon : List ℝ) : List (ℝ × ℝ) := lon.zip ((shifts lon).map fun (k : Int) => (k : ℝ))

theorem shiftPairs_mem {lon : List ℝ} {q : ℝ × ℝ} (h : q ∈ shiftPairs lon) :
    ∃ k : Int, q.2 = k ∧ q.1 ∈ lon ∧ q.1 - 360 * q.2 ∈ unwrapped lon := by
  unfold shiftPairs at h
  obtain ⟨i, hi, rfl⟩ := List.getElem_of_mem h
  have hl := hi
  rw [List.length_zip, List.length_map, shifts_length, min_self] at hl
  refine ⟨(shifts lon)[i]'(by rw [shifts_length]; exact hl), ?_, ?_, ?_⟩
  · simp
  · simp only [List.getElem_zip]; exact List.getElem_mem _
  · have : (unwrapped lon)[i]'(by simp [unwrapped, shifts_length]; exact hl) ∈ unwrapped lon := List.getElem_mem _
    simpa [unwrapped] using this

theorem unwrapped_mem {lon : List ℝ} {u : ℝ} (h : u ∈ unwrapped lon) :
    ∃ q ∈ shiftPairs lon, u = q.1 - 360 * q.2 := by
  obtain ⟨i, hi, rfl⟩ := List.getElem_of_mem h
  have hl : i < lon.length := by rw [← (unwrapped_unwraps lon).length]; exact hi
  have hp : i < (shiftPairs lon).length := by
    unfold shiftPairs
    rw [List.length_zip, List.length_map, shifts_length, min_self]; exact hl
  exact ⟨(shiftPairs lon)[i], List.getElem_mem _, by simp [shiftPairs, unwrapped]⟩

/-- The exterior spans less than 360 degrees of longitude once it is unwrapped. -/
def NarrowRing (lon : List ℝ) : Prop := ∀ u ∈ unwrapped lon, ∀ v ∈ unwrapped lon, u - v < 360

theorem shift_cases {lon : List ℝ} (hr : ∀ x ∈ lon, -180 ≤ x ∧ x ≤ 180) (hn : NarrowRing lon) :
    (∀ q ∈ shiftPairs lon, q.2 = 0 ∨ q.2 = -1) ∨ (∀ q ∈ shiftPairs lon, q.2 = 0 ∨ q.2 = 1) := by
  rcases lon with _ | ⟨a, t⟩
  · left; intro q hq; simp [shiftPairs] at hq
  have ha := hr a (by simp)
  have hstart : a ∈ unwrapped (a :: t) := by simp [unwrapped, shifts]
  have three : ∀ q ∈ shiftPairs (a :: t), q.2 = 0 ∨ q.2 = -1 ∨ q.2 = 1 := by
    intro q hq
    obtain ⟨k, hk, hmem, hu⟩ := shiftPairs_mem hq
    have h1 := hn _ hu _ hstart
    have h2 := hn _ hstart _ hu
    have h3 := hr _ hmem
    rw [hk] at h1 h2 ⊢
    have k1 : (k : ℝ) < 2 := by linarith [h3.2, ha.2]
    have k2 : (-2 : ℝ) < k := by linarith [h3.1, ha.1]
    have k1' : k < 2 := by exact_mod_cast k1
    have k2' : -2 < k := by exact_mod_cast k2
    have : k = 0 ∨ k = -1 ∨ k = 1 := by omega
    rcases this with rfl | rfl | rfl <;> norm_num
  by_cases h : ∃ q ∈ shiftPairs (a :: t), q.2 = 1
  · right
    obtain ⟨q, hq, hq1⟩ := h
    intro p hp
    rcases three p hp with h | h | h
    · exact Or.inl h
    · exfalso
      obtain ⟨-, -, hm, hu⟩ := shiftPairs_mem hq
      obtain ⟨-, -, hm', hu'⟩ := shiftPairs_mem hp
      have := hn _ hu' _ hu
      rw [h, hq1] at this
      linarith [(hr _ hm).2, (hr _ hm').1]
    · exact Or.inr h
  · left
    push Not at h
    intro p hp
    rcases three p hp with h' | h' | h'
    · exact Or.inl h'
    · exact Or.inr h'
    · exact absurd h' (h p hp)

/-- C53 for holes: for every exterior with longitudes in range that spans less than 360 degrees, a longitude of a hole
that lies strictly within the unwrapped exterior when whole turns are added is shifted by just these turns. -/
theorem C53_interior (sort : SortValues (α := ℝ × ℝ) Prod.fst) (lon : List ℝ) (hr : ∀ x ∈ lon, -180 ≤ x ∧ x ≤ 180)
    (hn : NarrowRing lon) (x v : ℝ) (j : Int) (hx : -180 ≤ x ∧ x ≤ 180) (hv : v = x - 360 * j)
    (hin : ∃ m ∈ unwrapped lon, ∃ M ∈ unwrapped lon, m < v ∧ v < M) : unwrapInterior sort lon x = v := by
  obtain ⟨m, hm, M, hM, hmv, hvM⟩ := hin
  obtain ⟨q, hq, rfl⟩ := unwrapped_mem hm
  obtain ⟨p, hp, rfl⟩ := unwrapped_mem hM
  have hs := sort.sorted (shiftPairs lon)
  have hmemiff : ∀ r, r ∈ sort.run (shiftPairs lon) ↔ r ∈ shiftPairs lon := fun r => (sort.perm _).mem_iff
  have hrange : ∀ r ∈ shiftPairs lon, -180 ≤ r.1 ∧ r.1 ≤ 180 := fun r hr' => by
    obtain ⟨-, -, h, -⟩ := shiftPairs_mem hr'; exact hr _ h
  have hspan : ∀ r ∈ shiftPairs lon, ∀ r' ∈ shiftPairs lon, (r.1 - 360 * r.2) - (r'.1 - 360 * r'.2) < 360 :=
    fun r h r' h' => by
      obtain ⟨-, -, -, hu⟩ := shiftPairs_mem h
      obtain ⟨-, -, -, hu'⟩ := shiftPairs_mem h'
      exact hn _ hu _ hu'
  have hrq := hrange q hq
  have hrp := hrange p hp
  have hgoal : interp x (sort.run (shiftPairs lon)) = j := by
    rcases shift_cases hr hn with hcase | hcase
    · -- shifts 0 and -1
      have hj : j = 0 ∨ j = -1 := by
        have j1 : (j : ℝ) < 1 := by rcases hcase q hq with h | h <;> rw [h] at hmv <;> linarith [hrq.1, hx.2]
        have j2 : (-2 : ℝ) < j := by rcases hcase p hp with h | h <;> rw [h] at hvM <;> linarith [hrp.2, hx.1]
        have j1' : j < 1 := by exact_mod_cast j1
        have j2' : -2 < j := by exact_mod_cast j2
        omega
      rcases hj with rfl | rfl
      · have hv' : v = x := by rw [hv]; simp
        have hq0 : q.2 = 0 := by
          rcases hcase q hq with h | h
          · exact h
          · exfalso; rw [h, hv'] at hmv; linarith [hrq.1, hx.2]
        rw [hq0, hv'] at hmv
        refine interp_above x _ _ hs q ((hmemiff q).mpr hq) ?_ (by linarith)
        intro r hr' hle
        rcases hcase r ((hmemiff r).mp hr') with h | h
        · rw [h]; simp
        · exfalso
          have := hspan r ((hmemiff r).mp hr') q hq
          rw [h, hq0] at this; linarith
      · have hv' : v = x + 360 := by rw [hv]; push_cast; ring
        have hp1 : p.2 = -1 := by
          rcases hcase p hp with h | h
          · exfalso; rw [h, hv'] at hvM; linarith [hrp.2, hx.1]
          · exact h
        rw [hp1, hv'] at hvM
        refine interp_below x _ _ hs p ((hmemiff p).mpr hp) ?_ (by linarith)
        intro r hr' hle
        rcases hcase r ((hmemiff r).mp hr') with h | h
        · exfalso
          have := hspan p hp r ((hmemiff r).mp hr')
          rw [h, hp1] at this; linarith
        · rw [h]; simp
    · -- shifts 0 and 1
      have hj : j = 0 ∨ j = 1 := by
        have j1 : (j : ℝ) < 2 := by rcases hcase q hq with h | h <;> rw [h] at hmv <;> linarith [hrq.1, hx.2]
        have j2 : (-1 : ℝ) < j := by rcases hcase p hp with h | h <;> rw [h] at hvM <;> linarith [hrp.2, hx.1]
        have j1' : j < 2 := by exact_mod_cast j1
        have j2' : -1 < j := by exact_mod_cast j2
        omega
      rcases hj with rfl | rfl
      · have hv' : v = x := by rw [hv]; simp
        have hp0 : p.2 = 0 := by
          rcases hcase p hp with h | h
          · exact h
          · exfalso; rw [h, hv'] at hvM; linarith [hrp.2, hx.1]
        rw [hp0, hv'] at hvM
        refine interp_below x _ _ hs p ((hmemiff p).mpr hp) ?_ (by linarith)
        intro r hr' hle
        rcases hcase r ((hmemiff r).mp hr') with h | h
        · rw [h]; simp
        · exfalso
          have := hspan p hp r ((hmemiff r).mp hr')
          rw [h, hp0] at this; linarith
      · have hv' : v = x - 360 := by rw [hv]; push_cast; ring
        have hq1 : q.2 = 1 := by
          rcases hcase q hq with h | h
          · exfalso; rw [h, hv'] at hmv; linarith [hrq.1, hx.2]
          · exact h
        rw [hq1, hv'] at hmv
        refine interp_above x _ _ hs q ((hmemiff q).mpr hq) ?_ (by linarith)
        intro r hr' hle
        rcases hcase r ((hmemiff r).mp hr') with h | h
        · exfalso
          have := hspan r ((hmemiff r).mp hr') q hq
          rw [h, hq1] at this; linarith
        · rw [h]; simp
  unfold unwrapInterior
  show x - 360 * interp x (sort.run (shiftPairs lon)) = v
  rw [hgoal, hv]

/-- Without the condition it is not a whole turn: between two vertices of different shifts the shift is interpolated, so
a longitude outside of the exterior moves by a part of a turn. -/
theorem C53_interior_false (sort : SortValues (α := ℝ × ℝ) Prod.fst) :
    unwrapInterior sort [170, -170, 170] 0 = 180 := by
  have h1 : Num.roundHalfEven ((-170 - 170) / 360) = -1 := by
    have hf : ⌊((-170 - 170 : ℝ) / 360)⌋ = -1 := by rw [Int.floor_eq_iff]; norm_num
    unfold Num.roundHalfEven
    simp only [hf]
    norm_num
  have h2 : Num.roundHalfEven ((170 - -170) / 360) = 1 := by
    have hf : ⌊((170 - -170 : ℝ) / 360)⌋ = 0 := by rw [Int.floor_eq_iff]; norm_num
    unfold Num.roundHalfEven
    simp only [hf]
    norm_num
  have hpairs : shiftPairs [170, -170, 170] = [(170, 0), (-170, -1), (170, 0)] := by
    simp only [shiftPairs, shifts, shiftFrom, h1, h2]
    norm_num
  have hsorted : sort.run (shiftPairs [170, -170, 170]) = [(-170, -1), (170, 0), (170, 0)] := by
    have hp := (sort.perm (shiftPairs [170, -170, 170]))
    have hs := sort.sorted (shiftPairs [170, -170, 170])
    rw [hpairs] at hp hs ⊢
    have hlen := hp.length_eq
    rcases hrun : sort.run [((170 : ℝ), (0 : ℝ)), (-170, -1), (170, 0)] with _ | ⟨a, _ | ⟨b, _ | ⟨c, _ | ⟨d, t⟩⟩⟩⟩ <;>
      rw [hrun] at hp hs hlen <;> simp only [List.length_cons, List.length_nil] at hlen <;> try omega
    have hmem : ∀ r, r ∈ [a, b, c] → r = (170, 0) ∨ r = (-170, -1) := by
      intro r hr
      have := hp.mem_iff.mp hr
      simp only [List.mem_cons, List.not_mem_nil, or_false] at this
      tauto
    have ha : a = (-170, -1) := by
      have hm : ((-170 : ℝ), (-1 : ℝ)) ∈ [a, b, c] := hp.mem_iff.mpr (by simp)
      rcases hmem a (by simp) with h | h
      · exfalso
        rw [List.pairwise_cons] at hs
        simp only [List.mem_cons, List.not_mem_nil, or_false] at hm
        rcases hm with hm | hm | hm
        · rw [← hm] at h; have := congrArg Prod.fst h; norm_num at this
        · have := hs.1 b (by simp); rw [← hm, h] at this; norm_num at this
        · have := hs.1 c (by simp); rw [← hm, h] at this; norm_num at this
      · exact h
    subst ha
    have hp' : [b, c].Perm [(170, 0), (170, 0)] := by
      have h3 : [((170 : ℝ), (0 : ℝ)), (-170, -1), (170, 0)].Perm [(-170, -1), (170, 0), (170, 0)] :=
        List.Perm.swap _ _ _
      exact (List.perm_cons _).mp (hp.trans h3)
    have hb := hp'.mem_iff.mp (show b ∈ [b, c] by simp)
    have hc := hp'.mem_iff.mp (show c ∈ [b, c] by simp)
    simp only [List.mem_cons, List.not_mem_nil, or_false, or_self] at hb hc
    rw [hb, hc]
  unfold unwrapInterior
  show 0 - 360 * interp 0 (sort.run (shiftPairs [170, -170, 170])) = 180
  rw [hsorted]
  norm_num [interp, interpFrom]

/-! ## C56 -/

/-- All polygons in a geometry, in order, whatever the nesting. -/
def allPolygons : Geom → List Polygon
  | .polygon p => [p]
  | .multi ps => ps
  | .collection gs => (gs.attach.map fun ⟨g, _⟩ => allPolygons g).flatten
  | .other => []

theorem ofList_parts (ps : List Polygon) : (ofList ps).parts = ps := by
  rcases ps with _ | ⟨a, _ | ⟨b, t⟩⟩ <;> rfl

/-- C56, where it holds: for every collection without collections in it, the result is one polygon when there is exactly
one and else a multipolygon, and holds exactly the polygons, up to order.  Missing: the order and nested collections. -/
theorem C56_flatten_partial (gs : List Geom) (h : ∀ g ∈ gs, ∀ l, g ≠ .collection l) :
    (convertCollection gs).parts.Perm (gs.flatMap allPolygons) ∧
      ((∃ p, convertCollection gs = .polygon p) ↔ (gs.flatMap allPolygons).length = 1) := by
  have hperm : (gs.flatMap Geom.polygons ++ gs.flatMap Geom.multis).Perm (gs.flatMap allPolygons) := by
    induction gs with
    | nil => exact List.Perm.refl _
    | cons g t ih =>
      have iht := ih (fun g' hg' => h g' (by simp [hg']))
      simp only [List.flatMap_cons]
      rcases g with p | ps | l | _
      · simp only [Geom.polygons, Geom.multis, allPolygons, List.nil_append, List.append_assoc]
        exact iht.append_left [p]
      · simp only [Geom.polygons, Geom.multis, allPolygons, List.nil_append]
        refine List.Perm.trans ?_ (iht.append_left ps)
        rw [← List.append_assoc, ← List.append_assoc]
        exact List.perm_append_comm.append_right _
      · exact absurd rfl (h _ (by simp) l)
      · simpa only [Geom.polygons, Geom.multis, allPolygons, List.nil_append] using iht
  refine ⟨by unfold convertCollection; rw [ofList_parts]; exact hperm, ?_⟩
  rw [← hperm.length_eq]
  unfold convertCollection
  generalize gs.flatMap Geom.polygons ++ gs.flatMap Geom.multis = l
  rcases l with _ | ⟨a, _ | ⟨b, t⟩⟩
  · constructor
    · rintro ⟨p, hp⟩; simp [ofList] at hp
    · intro hl; simp at hl
  · exact ⟨fun _ => rfl, fun _ => ⟨a, rfl⟩⟩
  · constructor
    · rintro ⟨p, hp⟩; simp [ofList] at hp
    · intro hl; simp at hl

/-- C56 does not hold: polygons in nested collections are dropped, and polygons of a multipolygon come after the polygons
that follow it. -/
theorem C56_flatten_false (p q r : Polygon) :
    (convertCollection [.collection [.polygon p]]).parts = [] ∧ allPolygons (.collection [.polygon p]) = [p] ∧
      (convertCollection [.multi [p, q], .polygon r]).parts = [r, p, q] ∧
      [Geom.multi [p, q], .polygon r].flatMap allPolygons = [p, q, r] := by
  refine ⟨rfl, ?_, rfl, ?_⟩
  · simp [allPolygons]
  · simp [allPolygons]

end Tatc.Props
