import Verif.Props.PolygonWrap
import Verif.Spec.Region
import Verif.Lemmas.Region

/-!
# Splitting a polygon along a line, with the points it covers

What C113 and C114 use of shapely beyond `Splitter`, and a splitting of arbitrary polygons without holes that meets it.
-/

namespace Tatc.Props
open Tatc.Polygons Tatc.Spec Tatc.Lemmas
open scoped Classical

/-- A ring in the plane of longitudes and latitudes. -/
def outline (l : List Coord) : List (ℝ × ℝ) := l.map fun c => (c.x, c.y)

/-- The polygon covers the point: it is inside of the exterior ring and of no hole. -/
def Covers (p : Polygon) (P : ℝ × ℝ) : Prop :=
  InsideRing (outline p.exterior) P ∧ ∀ i ∈ p.interiors, ¬ InsideRing (outline i) P

/-- The point is on a ring of the polygon. -/
def OnBoundary (p : Polygon) (P : ℝ × ℝ) : Prop :=
  OnRing (outline p.exterior) P ∨ ∃ i ∈ p.interiors, OnRing (outline i) P

/-- The point is on the line, or on its extension. -/
def OnLine : Line → ℝ × ℝ → Prop
  | .meridian c, P => P.1 = c
  | .parallel c, P => P.2 = c
  | .northHalf, P => P.1 = 0
  | .southHalf, P => P.1 = 0

/-- The polygon does not reach beyond the ends of the line. -/
def Spanned : Line → Polygon → Prop
  | .meridian _, p => ∀ v ∈ p.exterior, -180 ≤ v.y ∧ v.y ≤ 180
  | .parallel _, p => ∀ v ∈ p.exterior, -360 ≤ v.x ∧ v.x ≤ 360
  | .northHalf, p => ∀ v ∈ p.exterior, 90 ≤ v.y ∧ v.y < 180
  | .southHalf, p => ∀ v ∈ p.exterior, -180 < v.y ∧ v.y ≤ -90

/-- Exact splitting, with the points covered: off the line the pieces of a valid polygon together cover what it covers and
add no boundary; the pieces do not cross the line again; a polygon crosses a half line only if it is beyond the pole; a ring
of longitudes surrounds a pole only if it does not come back to where it started when followed without jumps. -/
structure Cutter (s : Shapely) : Prop extends Splitter s where
  covers : ∀ p l P, s.isValid p = true → Spanned l p → ¬ OnLine l P → ¬ OnBoundary p P →
    ((∃ q ∈ s.split p l, Covers q P) ↔ Covers p P)
  boundary : ∀ p l q P, s.isValid p = true → Spanned l p → q ∈ s.split p l → ¬ OnLine l P → OnBoundary q P →
    OnBoundary p P
  piecesNorth : ∀ p q, Spanned .northHalf p → q ∈ s.split p .northHalf → s.crosses q .northHalf = false
  piecesSouth : ∀ p q, Spanned .southHalf p → q ∈ s.split p .southHalf → s.crosses q .southHalf = false
  belowNorth : ∀ p, (∀ v ∈ p.exterior, v.y ≤ 90) → (∃ v ∈ p.exterior, v.y < 90) → s.crosses p .northHalf = false
  aboveSouth : ∀ p, (∀ v ∈ p.exterior, -90 ≤ v.y) → (∃ v ∈ p.exterior, -90 < v.y) → s.crosses p .southHalf = false
  pole : ∀ lon, s.containsPole lon = true → ∃ u, Unwraps lon u ∧ u.head? ≠ u.getLast?

/-! ## A splitting that meets this: clipping

Vertices are added where the ring meets the line; the part of the ring beyond the line is then moved onto the line. -/

/-- Where the side meets the line at `c` of a coordinate. -/
noncomputable def meet (f : Coord → ℝ) (c : ℝ) (a b : Coord) : Coord :=
  ⟨a.x + (c - f a) / (f b - f a) * (b.x - a.x), a.y + (c - f a) / (f b - f a) * (b.y - a.y), none⟩

/-- Add the vertices at which the chain meets the line. -/
noncomputable def meetsFrom (f : Coord → ℝ) (c : ℝ) : Coord → List Coord → List Coord
  | a, [] => [a]
  | a, b :: t => if (f a < c ∧ c < f b) ∨ (f b < c ∧ c < f a) then a :: meet f c a b :: meetsFrom f c b t
      else a :: meetsFrom f c b t

noncomputable def withMeets (f : Coord → ℝ) (c : ℝ) : List Coord → List Coord
  | [] => []
  | a :: t => meetsFrom f c a t

theorem meetsFrom_cons (f : Coord → ℝ) (c : ℝ) (a : Coord) (t : List Coord) : ∃ r, meetsFrom f c a t = a :: r := by
  cases t with
  | nil => exact ⟨_, rfl⟩
  | cons b t => unfold meetsFrom; split_ifs <;> exact ⟨_, rfl⟩

theorem meetsFrom_last (f : Coord → ℝ) (c : ℝ) (a : Coord) (t : List Coord) :
    (meetsFrom f c a t).getLast? = (a :: t).getLast? := by
  induction t generalizing a with
  | nil => rfl
  | cons b t ih =>
    have := ih b
    obtain ⟨r, hr⟩ := meetsFrom_cons f c b t
    unfold meetsFrom
    rw [hr] at this ⊢
    split_ifs
    · rw [List.getLast?_cons_cons, List.getLast?_cons_cons, this, List.getLast?_cons_cons]
    · rw [List.getLast?_cons_cons, this, List.getLast?_cons_cons]

theorem withMeets_closed {f : Coord → ℝ} {c : ℝ} {l : List Coord} (h : ClosedRing l) : ClosedRing (withMeets f c l) := by
  unfold ClosedRing at *
  cases l with
  | nil => rfl
  | cons a t =>
    show (meetsFrom f c a t).head? = (meetsFrom f c a t).getLast?
    obtain ⟨r, hr⟩ := meetsFrom_cons f c a t
    rw [meetsFrom_last, ← h, hr]
    rfl

/-- The linear coordinates of a vertex. -/
def Linear (f : Coord → ℝ) : Prop := f = Coord.x ∨ f = Coord.y

theorem meet_on {f : Coord → ℝ} (hf : Linear f) {c : ℝ} {a b : Coord}
    (h : (f a < c ∧ c < f b) ∨ (f b < c ∧ c < f a)) : f (meet f c a b) = c := by
  have hne : f b - f a ≠ 0 := by rcases h with h | h <;> intro h0 <;> linarith [h.1, h.2]
  rcases hf with rfl | rfl <;> unfold meet <;> simp only <;> field_simp <;> ring

theorem meet_ratio {f : Coord → ℝ} {c : ℝ} {a b : Coord}
    (h : (f a < c ∧ c < f b) ∨ (f b < c ∧ c < f a)) :
    0 < (c - f a) / (f b - f a) ∧ (c - f a) / (f b - f a) < 1 := by
  rcases h with h | h
  · exact ⟨div_pos (by linarith [h.1]) (by linarith [h.1, h.2]), by rw [div_lt_one (by linarith [h.1, h.2])]; linarith [h.2]⟩
  · exact ⟨div_pos_of_neg_of_neg (by linarith [h.2]) (by linarith [h.1, h.2]),
      by rw [div_lt_one_of_neg (by linarith [h.1, h.2])]; linarith [h.1]⟩

/-- No side of the new chain passes through the line. -/
theorem meetsFrom_sides {f : Coord → ℝ} (hf : Linear f) (c : ℝ) (a : Coord) (t : List Coord) :
    ∀ e ∈ (meetsFrom f c a t).zip (meetsFrom f c a t).tail, (f e.1 ≤ c ∧ f e.2 ≤ c) ∨ (c ≤ f e.1 ∧ c ≤ f e.2) := by
  induction t generalizing a with
  | nil => intro e he; simp [meetsFrom] at he
  | cons b t ih =>
    have := ih b
    obtain ⟨r, hr⟩ := meetsFrom_cons f c b t
    intro e he
    unfold meetsFrom at he
    rw [hr] at this he
    split_ifs at he with h
    · have hm := meet_on hf h
      simp only [List.tail_cons, List.zip_cons_cons, List.mem_cons] at he
      rcases he with rfl | rfl | he
      · simp only [hm]
        rcases h with h | h
        · exact Or.inl ⟨h.1.le, le_refl _⟩
        · exact Or.inr ⟨h.2.le, le_refl _⟩
      · simp only [hm]
        rcases h with h | h
        · exact Or.inr ⟨le_refl _, h.2.le⟩
        · exact Or.inl ⟨le_refl _, h.1.le⟩
      · exact this e (by simpa using he)
    · simp only [List.tail_cons, List.zip_cons_cons, List.mem_cons] at he
      rcases he with rfl | he
      · simp only
        rcases lt_trichotomy (f a) c with h1 | h1 | h1
        · exact Or.inl ⟨h1.le, not_lt.mp fun h2 => h (Or.inl ⟨h1, h2⟩)⟩
        · rcases le_total (f b) c with h2 | h2
          · exact Or.inl ⟨h1.le, h2⟩
          · exact Or.inr ⟨h1.ge, h2⟩
        · exact Or.inr ⟨h1.le, not_lt.mp fun h2 => h (Or.inr ⟨h2, h1⟩)⟩
      · exact this e (by simpa using he)

/-- A vertex added on a side: one of the two halves passes above a point exactly when the side does. -/
theorem passesOver_halves (P a b : ℝ × ℝ) {t : ℝ} (h0 : 0 < t) (h1 : t < 1) :
    (if PassesOver P (a, (a.1 + t * (b.1 - a.1), a.2 + t * (b.2 - a.2))) then 1 else 0) +
      (if PassesOver P ((a.1 + t * (b.1 - a.1), a.2 + t * (b.2 - a.2)), b) then 1 else 0) =
      (if PassesOver P (a, b) then (1 : ℕ) else 0) := by
  by_cases hab : a.1 = b.1
  · have n1 : ∀ q r : ℝ × ℝ, q.1 = r.1 → ¬ PassesOver P (q, r) := by
      rintro q r h ⟨h' | h', -⟩ <;> simp only at h' <;> linarith [h'.1, h'.2]
    rw [if_neg (n1 _ _ (by simp [hab])), if_neg (n1 _ _ (by simp [hab])), if_neg (n1 _ _ hab)]
  · have hne : b.1 - a.1 ≠ 0 := fun h => hab (by linarith)
    have ht : (1 : ℝ) - t ≠ 0 := by intro h; linarith
    have e1 : heightAt (a, (a.1 + t * (b.1 - a.1), a.2 + t * (b.2 - a.2))) P.1 = heightAt (a, b) P.1 := by
      unfold heightAt
      simp only [add_sub_cancel_left]
      field_simp
    have e2 : heightAt ((a.1 + t * (b.1 - a.1), a.2 + t * (b.2 - a.2)), b) P.1 = heightAt (a, b) P.1 := by
      unfold heightAt
      simp only
      have : b.1 - (a.1 + t * (b.1 - a.1)) = (1 - t) * (b.1 - a.1) := by ring
      rw [this]
      have h2 : b.2 - (a.2 + t * (b.2 - a.2)) = (1 - t) * (b.2 - a.2) := by ring
      rw [h2]
      field_simp
      ring
    simp only [PassesOver, e1, e2]
    by_cases hh : P.2 < heightAt (a, b) P.1
    · simp only [hh, and_true, spans_iff]
      rcases lt_or_gt_of_ne hab with h | h
      · have m1 : a.1 < a.1 + t * (b.1 - a.1) := by nlinarith
        have m2 : a.1 + t * (b.1 - a.1) < b.1 := by nlinarith
        by_cases c1 : a.1 ≤ P.1 <;> by_cases c2 : a.1 + t * (b.1 - a.1) ≤ P.1 <;> by_cases c3 : b.1 ≤ P.1 <;>
          simp [c1, c2, c3] <;> linarith
      · have m1 : a.1 + t * (b.1 - a.1) < a.1 := by nlinarith
        have m2 : b.1 < a.1 + t * (b.1 - a.1) := by nlinarith
        by_cases c1 : a.1 ≤ P.1 <;> by_cases c2 : a.1 + t * (b.1 - a.1) ≤ P.1 <;> by_cases c3 : b.1 ≤ P.1 <;>
          simp [c1, c2, c3] <;> linarith
    · simp [hh]

theorem outline_cons (a : Coord) (t : List Coord) : outline (a :: t) = (a.x, a.y) :: outline t := rfl

theorem sidesOver_cons (a b : ℝ × ℝ) (t : List (ℝ × ℝ)) (P : ℝ × ℝ) :
    sidesOver (a :: b :: t) P = (if PassesOver P (a, b) then 1 else 0) + sidesOver (b :: t) P := by
  unfold sidesOver
  rw [sides_cons, List.countP_cons]
  simp only [decide_eq_true_eq]
  exact add_comm _ _

/-- The new vertices do not change which points are inside. -/
theorem meetsFrom_over (f : Coord → ℝ) (c : ℝ) (P : ℝ × ℝ) (a : Coord) (t : List Coord) :
    sidesOver (outline (meetsFrom f c a t)) P = sidesOver (outline (a :: t)) P := by
  induction t generalizing a with
  | nil => rfl
  | cons b t ih =>
    have := ih b
    obtain ⟨r, hr⟩ := meetsFrom_cons f c b t
    unfold meetsFrom
    rw [hr] at this ⊢
    split_ifs with h
    · have hm := meet_ratio h
      rw [outline_cons, outline_cons, outline_cons, sidesOver_cons, sidesOver_cons, ← outline_cons, this, ← add_assoc,
        outline_cons a, outline_cons b, sidesOver_cons, ← outline_cons b]
      have := passesOver_halves P (a.x, a.y) (b.x, b.y) hm.1 hm.2
      unfold meet
      rw [← this]
    · rw [outline_cons, outline_cons, sidesOver_cons, ← outline_cons, this, outline_cons a, outline_cons b, sidesOver_cons]

theorem withMeets_over (f : Coord → ℝ) (c : ℝ) (P : ℝ × ℝ) (l : List Coord) :
    sidesOver (outline (withMeets f c l)) P = sidesOver (outline l) P := by
  cases l with
  | nil => rfl
  | cons a t => exact meetsFrom_over f c P a t

theorem onRing_cons {a b : ℝ × ℝ} {t : List (ℝ × ℝ)} {P : ℝ × ℝ} : OnRing (a :: b :: t) P ↔
    (∃ u : ℝ, 0 ≤ u ∧ u ≤ 1 ∧ P = (a.1 + u * (b.1 - a.1), a.2 + u * (b.2 - a.2))) ∨ OnRing (b :: t) P := by
  unfold OnRing
  rw [sides_cons]
  simp only [List.mem_cons, exists_eq_or_imp]

theorem meetsFrom_on (f : Coord → ℝ) (c : ℝ) (P : ℝ × ℝ) (a : Coord) (t : List Coord)
    (hP : OnRing (outline (meetsFrom f c a t)) P) : OnRing (outline (a :: t)) P := by
  induction t generalizing a with
  | nil => exact hP
  | cons b t ih =>
    have := ih b
    obtain ⟨r, hr⟩ := meetsFrom_cons f c b t
    unfold meetsFrom at hP
    rw [hr] at this hP
    rw [outline_cons, outline_cons, onRing_cons]
    split_ifs at hP with h
    · have hm := meet_ratio h
      set u := (c - f a) / (f b - f a) with hu
      rw [outline_cons, outline_cons, outline_cons, onRing_cons, onRing_cons] at hP
      rcases hP with ⟨w, h0, h1, rfl⟩ | ⟨w, h0, h1, rfl⟩ | hP
      · left
        refine ⟨w * u, by nlinarith [hm.1], by nlinarith [hm.1, hm.2], ?_⟩
        simp only [meet, ← hu]
        refine Prod.ext ?_ ?_ <;> simp only <;> ring
      · left
        refine ⟨u + w * (1 - u), by nlinarith [hm.1, hm.2], by nlinarith [hm.1, hm.2], ?_⟩
        simp only [meet, ← hu]
        refine Prod.ext ?_ ?_ <;> simp only <;> ring
      · exact Or.inr (this hP)
    · rw [outline_cons, outline_cons, onRing_cons] at hP
      rcases hP with hP | hP
      · exact Or.inl hP
      · exact Or.inr (this hP)

theorem withMeets_on {f : Coord → ℝ} {c : ℝ} {P : ℝ × ℝ} {l : List Coord} (hP : OnRing (outline (withMeets f c l)) P) :
    OnRing (outline l) P := by
  cases l with
  | nil => exact hP
  | cons a t => exact meetsFrom_on f c P a t hP

/-- The new vertices are within the ranges of the old ones. -/
theorem meetsFrom_range (f : Coord → ℝ) (c : ℝ) (a : Coord) (t : List Coord) {v : Coord} (hv : v ∈ meetsFrom f c a t) :
    (∃ w ∈ a :: t, w.x ≤ v.x) ∧ (∃ w ∈ a :: t, v.x ≤ w.x) ∧ (∃ w ∈ a :: t, w.y ≤ v.y) ∧ ∃ w ∈ a :: t, v.y ≤ w.y := by
  have own : ∀ v ∈ a :: t, (∃ w ∈ a :: t, w.x ≤ v.x) ∧ (∃ w ∈ a :: t, v.x ≤ w.x) ∧ (∃ w ∈ a :: t, w.y ≤ v.y) ∧
      ∃ w ∈ a :: t, v.y ≤ w.y := fun v hv => ⟨⟨v, hv, le_refl _⟩, ⟨v, hv, le_refl _⟩, ⟨v, hv, le_refl _⟩, v, hv, le_refl _⟩
  induction t generalizing a with
  | nil => exact own v hv
  | cons b t ih =>
    have rest : v ∈ meetsFrom f c b t → (∃ w ∈ a :: b :: t, w.x ≤ v.x) ∧ (∃ w ∈ a :: b :: t, v.x ≤ w.x) ∧
        (∃ w ∈ a :: b :: t, w.y ≤ v.y) ∧ ∃ w ∈ a :: b :: t, v.y ≤ w.y := by
      intro h
      obtain ⟨⟨w1, m1, e1⟩, ⟨w2, m2, e2⟩, ⟨w3, m3, e3⟩, w4, m4, e4⟩ := ih b h
        (fun v hv => ⟨⟨v, hv, le_refl _⟩, ⟨v, hv, le_refl _⟩, ⟨v, hv, le_refl _⟩, v, hv, le_refl _⟩)
      exact ⟨⟨w1, List.mem_cons_of_mem _ m1, e1⟩, ⟨w2, List.mem_cons_of_mem _ m2, e2⟩, ⟨w3, List.mem_cons_of_mem _ m3, e3⟩,
        w4, List.mem_cons_of_mem _ m4, e4⟩
    unfold meetsFrom at hv
    split_ifs at hv with h
    · rcases List.mem_cons.mp hv with rfl | hv
      · exact own v (by simp)
      · rcases List.mem_cons.mp hv with rfl | hv
        · have hm := meet_ratio h
          set u := (c - f a) / (f b - f a) with hu
          have ex : (meet f c a b).x = a.x + u * (b.x - a.x) := rfl
          have ey : (meet f c a b).y = a.y + u * (b.y - a.y) := rfl
          rw [ex, ey]
          refine ⟨?_, ?_, ?_, ?_⟩
          · rcases le_total a.x b.x with h | h
            · exact ⟨a, by simp, by nlinarith [hm.1]⟩
            · exact ⟨b, by simp, by nlinarith [hm.2]⟩
          · rcases le_total a.x b.x with h | h
            · exact ⟨b, by simp, by nlinarith [hm.2]⟩
            · exact ⟨a, by simp, by nlinarith [hm.1]⟩
          · rcases le_total a.y b.y with h | h
            · exact ⟨a, by simp, by nlinarith [hm.1]⟩
            · exact ⟨b, by simp, by nlinarith [hm.2]⟩
          · rcases le_total a.y b.y with h | h
            · exact ⟨b, by simp, by nlinarith [hm.2]⟩
            · exact ⟨a, by simp, by nlinarith [hm.1]⟩
        · exact rest hv
    · rcases List.mem_cons.mp hv with rfl | hv
      · exact own v (by simp)
      · exact rest hv

theorem withMeets_range {f : Coord → ℝ} {c : ℝ} {l : List Coord} {v : Coord} (hv : v ∈ withMeets f c l) :
    (∃ w ∈ l, w.x ≤ v.x) ∧ (∃ w ∈ l, v.x ≤ w.x) ∧ (∃ w ∈ l, w.y ≤ v.y) ∧ ∃ w ∈ l, v.y ≤ w.y := by
  cases l with
  | nil => simp [withMeets] at hv
  | cons a t => exact meetsFrom_range f c a t hv

/-- A side between two vertices. -/
def sideOf (e : Coord × Coord) : (ℝ × ℝ) × (ℝ × ℝ) := ((e.1.x, e.1.y), (e.2.x, e.2.y))

theorem sides_outline (l : List Coord) : sides (outline l) = (l.zip l.tail).map sideOf := by
  unfold sides outline
  rw [← List.map_tail, List.zip_map]
  rfl

theorem zip_tail_map (g : Coord → Coord) (l : List Coord) :
    (l.map g).zip (l.map g).tail = (l.zip l.tail).map (Prod.map g g) := by
  rw [← List.map_tail, List.zip_map]

/-- A chain without sides through the line. -/
def Unpierced (f : Coord → ℝ) (c : ℝ) (e : Coord × Coord) : Prop := (f e.1 ≤ c ∧ f e.2 ≤ c) ∨ (c ≤ f e.1 ∧ c ≤ f e.2)

theorem withMeets_sides {f : Coord → ℝ} (hf : Linear f) (c : ℝ) (l : List Coord) :
    ∀ e ∈ (withMeets f c l).zip (withMeets f c l).tail, Unpierced f c e := by
  cases l with
  | nil => intro e he; simp [withMeets] at he
  | cons a t => exact meetsFrom_sides hf c a t

/-- Moving the vertices beyond the line onto it does not change how many sides are above a point before the line. -/
theorem clip_over {f : Coord → ℝ} (hf : Linear f) (c : ℝ) (g : Coord → Coord) (P : ℝ × ℝ)
    (hg : ∀ e, Unpierced f c e → (PassesOver P (sideOf (g e.1, g e.2)) ↔ PassesOver P (sideOf e))) (l : List Coord) :
    sidesOver (outline ((withMeets f c l).map g)) P = sidesOver (outline l) P := by
  rw [← withMeets_over f c P l]
  unfold sidesOver
  rw [sides_outline, sides_outline, zip_tail_map, List.map_map, List.countP_map, List.countP_map]
  refine List.countP_congr fun e he => ?_
  simp only [Function.comp, decide_eq_true_eq]
  exact hg e (withMeets_sides hf c l e he)

theorem clip_on {f : Coord → ℝ} (hf : Linear f) (c : ℝ) (g : Coord → Coord) (P : ℝ × ℝ)
    (hg : ∀ e, Unpierced f c e → ∀ u, 0 ≤ u → u ≤ 1 →
      P = ((g e.1).x + u * ((g e.2).x - (g e.1).x), (g e.1).y + u * ((g e.2).y - (g e.1).y)) → g e.1 = e.1 ∧ g e.2 = e.2)
    (l : List Coord) (h : OnRing (outline ((withMeets f c l).map g)) P) : OnRing (outline l) P := by
  refine withMeets_on (f := f) (c := c) ?_
  obtain ⟨e, he, u, h0, h1, hP⟩ := h
  rw [sides_outline, zip_tail_map, List.map_map] at he
  obtain ⟨e, he', rfl⟩ := List.mem_map.mp he
  obtain ⟨e1, e2⟩ := hg e (withMeets_sides hf c l e he') u h0 h1 hP
  refine ⟨sideOf e, by rw [sides_outline]; exact List.mem_map.mpr ⟨e, he', rfl⟩, u, h0, h1, ?_⟩
  rw [hP]
  simp only [Function.comp, Prod.map, sideOf, e1, e2]

/-! ### The four half planes -/

/-- West of a meridian. -/
noncomputable def toWest (c : ℝ) (v : Coord) : Coord := if v.x ≤ c then v else ⟨c, v.y, none⟩
/-- East of a meridian. -/
noncomputable def toEast (c : ℝ) (v : Coord) : Coord := if c ≤ v.x then v else ⟨c, v.y, none⟩
/-- South of a parallel. -/
noncomputable def toSouth (c : ℝ) (v : Coord) : Coord := if v.y ≤ c then v else ⟨v.x, c, none⟩
/-- North of a parallel. -/
noncomputable def toNorth (c : ℝ) (v : Coord) : Coord := if c ≤ v.y then v else ⟨v.x, c, none⟩

theorem toWest_cases (c : ℝ) (v : Coord) : (v.x ≤ c ∧ toWest c v = v) ∨
    (c < v.x ∧ (toWest c v).x = c ∧ (toWest c v).y = v.y) := by
  unfold toWest
  split_ifs with h
  · exact Or.inl ⟨h, rfl⟩
  · exact Or.inr ⟨not_le.mp h, rfl, rfl⟩

theorem toEast_cases (c : ℝ) (v : Coord) : (c ≤ v.x ∧ toEast c v = v) ∨
    (v.x < c ∧ (toEast c v).x = c ∧ (toEast c v).y = v.y) := by
  unfold toEast
  split_ifs with h
  · exact Or.inl ⟨h, rfl⟩
  · exact Or.inr ⟨not_le.mp h, rfl, rfl⟩

theorem toSouth_cases (c : ℝ) (v : Coord) : (v.y ≤ c ∧ toSouth c v = v) ∨
    (c < v.y ∧ (toSouth c v).y = c ∧ (toSouth c v).x = v.x) := by
  unfold toSouth
  split_ifs with h
  · exact Or.inl ⟨h, rfl⟩
  · exact Or.inr ⟨not_le.mp h, rfl, rfl⟩

theorem toNorth_cases (c : ℝ) (v : Coord) : (c ≤ v.y ∧ toNorth c v = v) ∨
    (v.y < c ∧ (toNorth c v).y = c ∧ (toNorth c v).x = v.x) := by
  unfold toNorth
  split_ifs with h
  · exact Or.inl ⟨h, rfl⟩
  · exact Or.inr ⟨not_le.mp h, rfl, rfl⟩

theorem toWest_x (c : ℝ) (v : Coord) (h : c ≤ v.x) : (toWest c v).x = c := by
  rcases toWest_cases c v with ⟨h1, h2⟩ | ⟨-, h2, -⟩
  · rw [h2]; linarith
  · exact h2

theorem toEast_x (c : ℝ) (v : Coord) (h : v.x ≤ c) : (toEast c v).x = c := by
  rcases toEast_cases c v with ⟨h1, h2⟩ | ⟨-, h2, -⟩
  · rw [h2]; linarith
  · exact h2

theorem toSouth_y (c : ℝ) (v : Coord) (h : c ≤ v.y) : (toSouth c v).y = c := by
  rcases toSouth_cases c v with ⟨h1, h2⟩ | ⟨-, h2, -⟩
  · rw [h2]; linarith
  · exact h2

theorem toNorth_y (c : ℝ) (v : Coord) (h : v.y ≤ c) : (toNorth c v).y = c := by
  rcases toNorth_cases c v with ⟨h1, h2⟩ | ⟨-, h2, -⟩
  · rw [h2]; linarith
  · exact h2

theorem toSouth_x (c : ℝ) (v : Coord) : (toSouth c v).x = v.x := by unfold toSouth; split_ifs <;> rfl
theorem toNorth_x (c : ℝ) (v : Coord) : (toNorth c v).x = v.x := by unfold toNorth; split_ifs <;> rfl

theorem toWest_over {c : ℝ} {P : ℝ × ℝ} (hP : P.1 < c) (e : Coord × Coord) (h : Unpierced Coord.x c e) :
    PassesOver P (sideOf (toWest c e.1, toWest c e.2)) ↔ PassesOver P (sideOf e) := by
  rcases h with ⟨h1, h2⟩ | ⟨h1, h2⟩
  · unfold toWest; rw [if_pos h1, if_pos h2]
  · have a := toWest_x c e.1 h1; have b := toWest_x c e.2 h2
    constructor <;> rintro ⟨h | h, -⟩ <;> simp only [sideOf] at h <;> exfalso <;> linarith [h.1, h.2]

theorem toEast_over {c : ℝ} {P : ℝ × ℝ} (hP : c < P.1) (e : Coord × Coord) (h : Unpierced Coord.x c e) :
    PassesOver P (sideOf (toEast c e.1, toEast c e.2)) ↔ PassesOver P (sideOf e) := by
  rcases h with ⟨h1, h2⟩ | ⟨h1, h2⟩
  · have a := toEast_x c e.1 h1; have b := toEast_x c e.2 h2
    constructor <;> rintro ⟨h | h, -⟩ <;> simp only [sideOf] at h <;> exfalso <;> linarith [h.1, h.2]
  · unfold toEast; rw [if_pos h1, if_pos h2]

theorem toSouth_over {c : ℝ} {P : ℝ × ℝ} (hP : P.2 < c) (e : Coord × Coord) (h : Unpierced Coord.y c e) :
    PassesOver P (sideOf (toSouth c e.1, toSouth c e.2)) ↔ PassesOver P (sideOf e) := by
  rcases h with ⟨h1, h2⟩ | ⟨h1, h2⟩
  · unfold toSouth; rw [if_pos h1, if_pos h2]
  · have a := toSouth_y c e.1 h1; have b := toSouth_y c e.2 h2
    have hsp : Spans P (sideOf (toSouth c e.1, toSouth c e.2)) ↔ Spans P (sideOf e) := by
      unfold Spans sideOf; simp only [toSouth_x]
    constructor
    · rintro ⟨h, -⟩
      exact ⟨hsp.mp h, hP.trans_le (heightAt_between (hsp.mp h) (lo := c) (hi := max e.1.y e.2.y)
        ⟨h1, le_max_left _ _⟩ ⟨h2, le_max_right _ _⟩).1⟩
    · rintro ⟨h, -⟩
      exact ⟨hsp.mpr h, hP.trans_le (heightAt_between (hsp.mpr h) (lo := c) (hi := c)
        ⟨a.ge, a.le⟩ ⟨b.ge, b.le⟩).1⟩

theorem toNorth_over {c : ℝ} {P : ℝ × ℝ} (hP : c < P.2) (e : Coord × Coord) (h : Unpierced Coord.y c e) :
    PassesOver P (sideOf (toNorth c e.1, toNorth c e.2)) ↔ PassesOver P (sideOf e) := by
  rcases h with ⟨h1, h2⟩ | ⟨h1, h2⟩
  · have a := toNorth_y c e.1 h1; have b := toNorth_y c e.2 h2
    have hsp : Spans P (sideOf (toNorth c e.1, toNorth c e.2)) ↔ Spans P (sideOf e) := by
      unfold Spans sideOf; simp only [toNorth_x]
    constructor
    · rintro ⟨h, h'⟩
      have := (heightAt_between h (lo := c) (hi := c) ⟨a.ge, a.le⟩ ⟨b.ge, b.le⟩).2
      exact absurd h' (not_lt.mpr (this.trans hP.le))
    · rintro ⟨h, h'⟩
      have := (heightAt_between h (lo := min e.1.y e.2.y) (hi := c) ⟨min_le_left _ _, h1⟩ ⟨min_le_right _ _, h2⟩).2
      exact absurd h' (not_lt.mpr (this.trans hP.le))
  · unfold toNorth; rw [if_pos h1, if_pos h2]

theorem toWest_on {c : ℝ} {P : ℝ × ℝ} (hP : P.1 ≠ c) (e : Coord × Coord) (h : Unpierced Coord.x c e) (u : ℝ)
    (he : P = ((toWest c e.1).x + u * ((toWest c e.2).x - (toWest c e.1).x),
      (toWest c e.1).y + u * ((toWest c e.2).y - (toWest c e.1).y))) : toWest c e.1 = e.1 ∧ toWest c e.2 = e.2 := by
  rcases h with ⟨h1, h2⟩ | ⟨h1, h2⟩
  · unfold toWest; rw [if_pos h1, if_pos h2]; exact ⟨rfl, rfl⟩
  · exfalso; apply hP; rw [he]; simp only [toWest_x c _ h1, toWest_x c _ h2]; ring

theorem toEast_on {c : ℝ} {P : ℝ × ℝ} (hP : P.1 ≠ c) (e : Coord × Coord) (h : Unpierced Coord.x c e) (u : ℝ)
    (he : P = ((toEast c e.1).x + u * ((toEast c e.2).x - (toEast c e.1).x),
      (toEast c e.1).y + u * ((toEast c e.2).y - (toEast c e.1).y))) : toEast c e.1 = e.1 ∧ toEast c e.2 = e.2 := by
  rcases h with ⟨h1, h2⟩ | ⟨h1, h2⟩
  · exfalso; apply hP; rw [he]; simp only [toEast_x c _ h1, toEast_x c _ h2]; ring
  · unfold toEast; rw [if_pos h1, if_pos h2]; exact ⟨rfl, rfl⟩

theorem toSouth_on {c : ℝ} {P : ℝ × ℝ} (hP : P.2 ≠ c) (e : Coord × Coord) (h : Unpierced Coord.y c e) (u : ℝ)
    (he : P = ((toSouth c e.1).x + u * ((toSouth c e.2).x - (toSouth c e.1).x),
      (toSouth c e.1).y + u * ((toSouth c e.2).y - (toSouth c e.1).y))) : toSouth c e.1 = e.1 ∧ toSouth c e.2 = e.2 := by
  rcases h with ⟨h1, h2⟩ | ⟨h1, h2⟩
  · unfold toSouth; rw [if_pos h1, if_pos h2]; exact ⟨rfl, rfl⟩
  · exfalso; apply hP; rw [he]; simp only [toSouth_y c _ h1, toSouth_y c _ h2]; ring

theorem toNorth_on {c : ℝ} {P : ℝ × ℝ} (hP : P.2 ≠ c) (e : Coord × Coord) (h : Unpierced Coord.y c e) (u : ℝ)
    (he : P = ((toNorth c e.1).x + u * ((toNorth c e.2).x - (toNorth c e.1).x),
      (toNorth c e.1).y + u * ((toNorth c e.2).y - (toNorth c e.1).y))) : toNorth c e.1 = e.1 ∧ toNorth c e.2 = e.2 := by
  rcases h with ⟨h1, h2⟩ | ⟨h1, h2⟩
  · exfalso; apply hP; rw [he]; simp only [toNorth_y c _ h1, toNorth_y c _ h2]; ring
  · unfold toNorth; rw [if_pos h1, if_pos h2]; exact ⟨rfl, rfl⟩

/-! ### The splitting -/

/-- The part of a polygon before or beyond a line. -/
noncomputable def clip (f : Coord → ℝ) (c : ℝ) (g : Coord → Coord) (p : Polygon) : Polygon :=
  ⟨(withMeets f c p.exterior).map g, []⟩

/-- Cut a polygon without holes along a meridian. -/
noncomputable def clipX (c : ℝ) (p : Polygon) : List Polygon :=
  if (∃ v ∈ p.exterior, v.x < c) ∧ ∃ v ∈ p.exterior, c < v.x then [clip Coord.x c (toWest c) p, clip Coord.x c (toEast c) p]
  else [p]

/-- Cut a polygon without holes along a parallel. -/
noncomputable def clipY (c : ℝ) (p : Polygon) : List Polygon :=
  if (∃ v ∈ p.exterior, v.y < c) ∧ ∃ v ∈ p.exterior, c < v.y then
    [clip Coord.y c (toSouth c) p, clip Coord.y c (toNorth c) p]
  else [p]

/-- Polygons without holes. -/
def Plain (p : Polygon) : Prop := ClosedPolygon p ∧ p.interiors = []

/-- Shapely for polygons without holes. -/
noncomputable def clipping : Shapely where
  isValid p := decide (Plain p)
  split p l := if Plain p then
    match l with
    | .meridian c => clipX c p
    | .parallel c => clipY c p
    | .northHalf => clipX 0 p
    | .southHalf => clipX 0 p
    else []
  crosses p l := decide ((∃ v ∈ p.exterior, v.x < 0) ∧ (∃ v ∈ p.exterior, 0 < v.x) ∧
    match l with
    | .northHalf => (∀ v ∈ p.exterior, 90 ≤ v.y) ∨ ∃ v ∈ p.exterior, 90 < v.y
    | .southHalf => (∀ v ∈ p.exterior, v.y ≤ -90) ∨ ∃ v ∈ p.exterior, v.y < -90
    | _ => True)
  containsPole lon := decide (∃ u, Unwraps lon u ∧ u.head? ≠ u.getLast?)

theorem clip_plain {f : Coord → ℝ} {c : ℝ} {g : Coord → Coord} {p : Polygon} (h : Plain p) : Plain (clip f c g p) :=
  ⟨⟨closed_map (withMeets_closed h.1.1) g, by simp [clip]⟩, rfl⟩

theorem withinRange_self {p : Polygon} {v : Coord} (h : v ∈ p.exterior) : WithinRange p v :=
  ⟨⟨v, h, le_refl _⟩, ⟨v, h, le_refl _⟩, ⟨v, h, le_refl _⟩, v, h, le_refl _⟩

theorem covers_plain {p : Polygon} (h : p.interiors = []) (P : ℝ × ℝ) : Covers p P ↔ Odd (sidesOver (outline p.exterior) P) := by
  unfold Covers; rw [h]; simp [InsideRing]

theorem onBoundary_plain {p : Polygon} (h : p.interiors = []) (P : ℝ × ℝ) : OnBoundary p P ↔ OnRing (outline p.exterior) P := by
  unfold OnBoundary; rw [h]; simp

theorem outline_closed {l : List Coord} (h : ClosedRing l) : (outline l).head? = (outline l).getLast? := by
  unfold outline ClosedRing at *; rw [List.head?_map, List.getLast?_map, h]

/-- A covered point is within the longitudes of the exterior. -/
theorem covers_x {p : Polygon} {P : ℝ × ℝ} (h : Covers p P) {lo hi : ℝ} (hp : ∀ v ∈ p.exterior, lo ≤ v.x ∧ v.x ≤ hi) :
    lo ≤ P.1 ∧ P.1 ≤ hi := by
  refine inside_x h.1 fun v hv => ?_
  obtain ⟨w, hw, rfl⟩ := List.mem_map.mp hv
  exact hp w hw

/-- A covered point is within the latitudes of the exterior. -/
theorem covers_y {p : Polygon} (hc : ClosedPolygon p) {P : ℝ × ℝ} (h : Covers p P) {lo hi : ℝ}
    (hp : ∀ v ∈ p.exterior, lo ≤ v.y ∧ v.y ≤ hi) : lo ≤ P.2 ∧ P.2 ≤ hi := by
  refine inside_y (outline_closed hc.1) h.1 fun v hv => ?_
  obtain ⟨w, hw, rfl⟩ := List.mem_map.mp hv
  exact hp w hw

theorem covers_west {p : Polygon} {P : ℝ × ℝ} (h : Covers p P) {c : ℝ} (hp : ∀ v ∈ p.exterior, v.x ≤ c) : P.1 ≤ c := by
  obtain ⟨e, he, hs, -⟩ := exists_over h.1
  rw [sides_outline] at he
  obtain ⟨e, he', rfl⟩ := List.mem_map.mp he
  have m := List.of_mem_zip (show (e.1, e.2) ∈ _ from he')
  have a := hp _ m.1; have b := hp _ (List.mem_of_mem_tail m.2)
  rcases hs with h | h <;> simp only [sideOf] at h <;> linarith [h.1, h.2]

theorem covers_east {p : Polygon} {P : ℝ × ℝ} (h : Covers p P) {c : ℝ} (hp : ∀ v ∈ p.exterior, c ≤ v.x) : c ≤ P.1 := by
  obtain ⟨e, he, hs, -⟩ := exists_over h.1
  rw [sides_outline] at he
  obtain ⟨e, he', rfl⟩ := List.mem_map.mp he
  have m := List.of_mem_zip (show (e.1, e.2) ∈ _ from he')
  have a := hp _ m.1; have b := hp _ (List.mem_of_mem_tail m.2)
  rcases hs with h | h <;> simp only [sideOf] at h <;> linarith [h.1, h.2]

theorem exists_bounds (l : List ℝ) : ∃ lo hi : ℝ, ∀ y ∈ l, lo ≤ y ∧ y ≤ hi := by
  induction l with
  | nil => exact ⟨0, 0, by simp⟩
  | cons a t ih =>
    obtain ⟨lo, hi, h⟩ := ih
    refine ⟨min a lo, max a hi, fun y hy => ?_⟩
    rcases List.mem_cons.mp hy with rfl | hy
    · exact ⟨min_le_left _ _, le_max_left _ _⟩
    · exact ⟨(min_le_right _ _).trans (h y hy).1, (h y hy).2.trans (le_max_right _ _)⟩

theorem covers_south {p : Polygon} (hc : ClosedPolygon p) {P : ℝ × ℝ} (h : Covers p P) {c : ℝ}
    (hp : ∀ v ∈ p.exterior, v.y ≤ c) : P.2 ≤ c := by
  obtain ⟨lo, hi, hb⟩ := exists_bounds (p.exterior.map (·.y))
  exact (covers_y hc h fun v hv => ⟨(hb _ (List.mem_map.mpr ⟨v, hv, rfl⟩)).1, hp v hv⟩).2

theorem covers_north {p : Polygon} (hc : ClosedPolygon p) {P : ℝ × ℝ} (h : Covers p P) {c : ℝ}
    (hp : ∀ v ∈ p.exterior, c ≤ v.y) : c ≤ P.2 := by
  obtain ⟨lo, hi, hb⟩ := exists_bounds (p.exterior.map (·.y))
  exact (covers_y hc h fun v hv => ⟨hp v hv, (hb _ (List.mem_map.mpr ⟨v, hv, rfl⟩)).2⟩).1

theorem clipX_spec {p q : Polygon} {c : ℝ} (hp : Plain p) (h : q ∈ clipX c p) :
    Plain q ∧ (∀ v ∈ q.exterior, WithinRange p v) ∧ OneSide c q.exterior ∧
      ∀ P : ℝ × ℝ, P.1 ≠ c → OnBoundary q P → OnBoundary p P := by
  unfold clipX at h
  split_ifs at h with hc
  · obtain ⟨⟨a, ha, ha'⟩, b, hb, hb'⟩ := hc
    rcases List.mem_cons.mp h with rfl | h
    · refine ⟨clip_plain hp, fun v hv => ?_, Or.inl fun v hv => ?_, fun P hP hb => ?_⟩
      · obtain ⟨w, hw, rfl⟩ := List.mem_map.mp hv
        obtain ⟨h1, h2, h3, h4⟩ := withMeets_range hw
        rcases toWest_cases c w with ⟨-, e⟩ | ⟨e, e1, e2⟩
        · rw [e]; exact ⟨h1, h2, h3, h4⟩
        · unfold WithinRange; rw [e1, e2]; exact ⟨⟨a, ha, ha'.le⟩, ⟨b, hb, hb'.le⟩, h3, h4⟩
      · obtain ⟨w, -, rfl⟩ := List.mem_map.mp hv
        rcases toWest_cases c w with ⟨e, e'⟩ | ⟨-, e, -⟩
        · rw [e']; exact e
        · exact e.le
      · rw [onBoundary_plain rfl] at hb
        rw [onBoundary_plain hp.2]
        exact clip_on (Or.inl rfl) c _ P (fun e he u _ _ => toWest_on hP e he u) _ hb
    · obtain rfl := List.mem_singleton.mp h
      refine ⟨clip_plain hp, fun v hv => ?_, Or.inr fun v hv => ?_, fun P hP hb => ?_⟩
      · obtain ⟨w, hw, rfl⟩ := List.mem_map.mp hv
        obtain ⟨h1, h2, h3, h4⟩ := withMeets_range hw
        rcases toEast_cases c w with ⟨-, e⟩ | ⟨e, e1, e2⟩
        · rw [e]; exact ⟨h1, h2, h3, h4⟩
        · unfold WithinRange; rw [e1, e2]; exact ⟨⟨a, ha, ha'.le⟩, ⟨b, hb, hb'.le⟩, h3, h4⟩
      · obtain ⟨w, -, rfl⟩ := List.mem_map.mp hv
        rcases toEast_cases c w with ⟨e, e'⟩ | ⟨-, e, -⟩
        · rw [e']; exact e
        · exact e.ge
      · rw [onBoundary_plain rfl] at hb
        rw [onBoundary_plain hp.2]
        exact clip_on (Or.inl rfl) c _ P (fun e he u _ _ => toEast_on hP e he u) _ hb
  · obtain rfl := List.mem_singleton.mp h
    refine ⟨hp, fun v hv => withinRange_self hv, ?_, fun _ _ h => h⟩
    by_cases h1 : ∃ v ∈ q.exterior, v.x < c
    · left
      intro v hv
      exact not_lt.mp fun h2 => hc ⟨h1, v, hv, h2⟩
    · right
      intro v hv
      exact not_lt.mp fun h2 => h1 ⟨v, hv, h2⟩

theorem clipX_covers {p : Polygon} {c : ℝ} (hp : Plain p) {P : ℝ × ℝ} (hP : P.1 ≠ c) :
    (∃ q ∈ clipX c p, Covers q P) ↔ Covers p P := by
  unfold clipX
  split_ifs with hc
  · have w : P.1 < c → (Covers (clip Coord.x c (toWest c) p) P ↔ Covers p P) := fun h => by
      rw [covers_plain rfl, covers_plain hp.2]
      show Odd (sidesOver (outline ((withMeets _ _ _).map _)) P) ↔ _
      rw [clip_over (Or.inl rfl) c _ P (toWest_over h)]
    have e : c < P.1 → (Covers (clip Coord.x c (toEast c) p) P ↔ Covers p P) := fun h => by
      rw [covers_plain rfl, covers_plain hp.2]
      show Odd (sidesOver (outline ((withMeets _ _ _).map _)) P) ↔ _
      rw [clip_over (Or.inl rfl) c _ P (toEast_over h)]
    constructor
    · rintro ⟨q, hq, h⟩
      rcases List.mem_cons.mp hq with rfl | hq
      · have : P.1 ≤ c := covers_west h (by
          intro v hv
          obtain ⟨w, -, rfl⟩ := List.mem_map.mp hv
          rcases toWest_cases c w with ⟨e, e'⟩ | ⟨-, e, -⟩
          · rw [e']; exact e
          · exact e.le)
        exact (w (lt_of_le_of_ne this hP)).mp h
      · obtain rfl := List.mem_singleton.mp hq
        have : c ≤ P.1 := covers_east h (by
          intro v hv
          obtain ⟨w, -, rfl⟩ := List.mem_map.mp hv
          rcases toEast_cases c w with ⟨e, e'⟩ | ⟨-, e, -⟩
          · rw [e']; exact e
          · exact e.ge)
        exact (e (lt_of_le_of_ne this (Ne.symm hP))).mp h
    · intro h
      rcases lt_or_gt_of_ne hP with h1 | h1
      · exact ⟨_, by simp, (w h1).mpr h⟩
      · exact ⟨_, List.mem_cons_of_mem _ (List.mem_singleton.mpr rfl), (e h1).mpr h⟩
  · simp

theorem clipY_spec {p q : Polygon} {c : ℝ} (hp : Plain p) (h : q ∈ clipY c p) :
    Plain q ∧ (∀ v ∈ q.exterior, WithinRange p v) ∧ ((∀ v ∈ q.exterior, v.y ≤ c) ∨ ∀ v ∈ q.exterior, c ≤ v.y) ∧
      ∀ P : ℝ × ℝ, P.2 ≠ c → OnBoundary q P → OnBoundary p P := by
  unfold clipY at h
  split_ifs at h with hc
  · obtain ⟨⟨a, ha, ha'⟩, b, hb, hb'⟩ := hc
    rcases List.mem_cons.mp h with rfl | h
    · refine ⟨clip_plain hp, fun v hv => ?_, Or.inl fun v hv => ?_, fun P hP hb => ?_⟩
      · obtain ⟨w, hw, rfl⟩ := List.mem_map.mp hv
        obtain ⟨h1, h2, h3, h4⟩ := withMeets_range hw
        rcases toSouth_cases c w with ⟨-, e⟩ | ⟨e, e1, e2⟩
        · rw [e]; exact ⟨h1, h2, h3, h4⟩
        · unfold WithinRange; rw [e1, e2]; exact ⟨h1, h2, ⟨a, ha, ha'.le⟩, ⟨b, hb, hb'.le⟩⟩
      · obtain ⟨w, -, rfl⟩ := List.mem_map.mp hv
        rcases toSouth_cases c w with ⟨e, e'⟩ | ⟨-, e, -⟩
        · rw [e']; exact e
        · exact e.le
      · rw [onBoundary_plain rfl] at hb
        rw [onBoundary_plain hp.2]
        exact clip_on (Or.inr rfl) c _ P (fun e he u _ _ => toSouth_on hP e he u) _ hb
    · obtain rfl := List.mem_singleton.mp h
      refine ⟨clip_plain hp, fun v hv => ?_, Or.inr fun v hv => ?_, fun P hP hb => ?_⟩
      · obtain ⟨w, hw, rfl⟩ := List.mem_map.mp hv
        obtain ⟨h1, h2, h3, h4⟩ := withMeets_range hw
        rcases toNorth_cases c w with ⟨-, e⟩ | ⟨e, e1, e2⟩
        · rw [e]; exact ⟨h1, h2, h3, h4⟩
        · unfold WithinRange; rw [e1, e2]; exact ⟨h1, h2, ⟨a, ha, ha'.le⟩, ⟨b, hb, hb'.le⟩⟩
      · obtain ⟨w, -, rfl⟩ := List.mem_map.mp hv
        rcases toNorth_cases c w with ⟨e, e'⟩ | ⟨-, e, -⟩
        · rw [e']; exact e
        · exact e.ge
      · rw [onBoundary_plain rfl] at hb
        rw [onBoundary_plain hp.2]
        exact clip_on (Or.inr rfl) c _ P (fun e he u _ _ => toNorth_on hP e he u) _ hb
  · obtain rfl := List.mem_singleton.mp h
    refine ⟨hp, fun v hv => withinRange_self hv, ?_, fun _ _ h => h⟩
    by_cases h1 : ∃ v ∈ q.exterior, v.y < c
    · left
      intro v hv
      exact not_lt.mp fun h2 => hc ⟨h1, v, hv, h2⟩
    · right
      intro v hv
      exact not_lt.mp fun h2 => h1 ⟨v, hv, h2⟩

theorem clipY_covers {p : Polygon} {c : ℝ} (hp : Plain p) {P : ℝ × ℝ} (hP : P.2 ≠ c) :
    (∃ q ∈ clipY c p, Covers q P) ↔ Covers p P := by
  unfold clipY
  split_ifs with hc
  · have w : P.2 < c → (Covers (clip Coord.y c (toSouth c) p) P ↔ Covers p P) := fun h => by
      rw [covers_plain rfl, covers_plain hp.2]
      show Odd (sidesOver (outline ((withMeets _ _ _).map _)) P) ↔ _
      rw [clip_over (Or.inr rfl) c _ P (toSouth_over h)]
    have e : c < P.2 → (Covers (clip Coord.y c (toNorth c) p) P ↔ Covers p P) := fun h => by
      rw [covers_plain rfl, covers_plain hp.2]
      show Odd (sidesOver (outline ((withMeets _ _ _).map _)) P) ↔ _
      rw [clip_over (Or.inr rfl) c _ P (toNorth_over h)]
    constructor
    · rintro ⟨q, hq, h⟩
      rcases List.mem_cons.mp hq with rfl | hq
      · have : P.2 ≤ c := covers_south (clip_plain hp).1 h (by
          intro v hv
          obtain ⟨w, -, rfl⟩ := List.mem_map.mp hv
          rcases toSouth_cases c w with ⟨e, e'⟩ | ⟨-, e, -⟩
          · rw [e']; exact e
          · exact e.le)
        exact (w (lt_of_le_of_ne this hP)).mp h
      · obtain rfl := List.mem_singleton.mp hq
        have : c ≤ P.2 := covers_north (clip_plain hp).1 h (by
          intro v hv
          obtain ⟨w, -, rfl⟩ := List.mem_map.mp hv
          rcases toNorth_cases c w with ⟨e, e'⟩ | ⟨-, e, -⟩
          · rw [e']; exact e
          · exact e.ge)
        exact (e (lt_of_le_of_ne this (Ne.symm hP))).mp h
    · intro h
      rcases lt_or_gt_of_ne hP with h1 | h1
      · exact ⟨_, by simp, (w h1).mpr h⟩
      · exact ⟨_, List.mem_cons_of_mem _ (List.mem_singleton.mpr rfl), (e h1).mpr h⟩
  · simp

theorem clipping_mem {p q : Polygon} {l : Line} (h : q ∈ clipping.split p l) :
    Plain p ∧ Plain q ∧ ∀ v ∈ q.exterior, WithinRange p v := by
  by_cases hp : Plain p
  · simp only [clipping, if_pos hp] at h
    rcases l with c | c | _ | _
    · exact ⟨hp, (clipX_spec hp h).1, (clipX_spec hp h).2.1⟩
    · exact ⟨hp, (clipY_spec hp h).1, (clipY_spec hp h).2.1⟩
    · exact ⟨hp, (clipX_spec hp h).1, (clipX_spec hp h).2.1⟩
    · exact ⟨hp, (clipX_spec hp h).1, (clipX_spec hp h).2.1⟩
  · simp [clipping, hp] at h

theorem clipping_half {p q : Polygon} {l : Line} (hl : l = .northHalf ∨ l = .southHalf) (h : q ∈ clipping.split p l) :
    OneSide 0 q.exterior := by
  have hp := (clipping_mem h).1
  rcases hl with rfl | rfl <;> simp only [clipping, if_pos hp] at h <;> exact (clipX_spec hp h).2.2.1

theorem not_both {l : List Coord} (h : OneSide 0 l) : ¬ ((∃ v ∈ l, v.x < 0) ∧ ∃ v ∈ l, 0 < v.x) := by
  rintro ⟨⟨a, ha, ha'⟩, b, hb, hb'⟩
  rcases h with h | h
  · linarith [h b hb]
  · linarith [h a ha]

theorem oneSide_of {l : List Coord} (h : ¬ ((∃ v ∈ l, v.x < 0) ∧ ∃ v ∈ l, 0 < v.x)) : OneSide 0 l := by
  by_cases h1 : ∃ v ∈ l, v.x < 0
  · left
    intro v hv
    exact not_lt.mp fun h2 => h ⟨h1, v, hv, h2⟩
  · right
    intro v hv
    exact not_lt.mp fun h2 => h1 ⟨v, hv, h2⟩

theorem mkPolygon_plain (l : List Coord) : Plain (mkPolygon l []) := by
  refine ⟨⟨?_, by simp [mkPolygon]⟩, rfl⟩
  show ClosedRing (ring l)
  unfold ring ClosedRing
  rcases l with _ | ⟨a, t⟩
  · rfl
  · simp only [List.head?_cons]
    split_ifs with h
    · rw [h]; rfl
    · rw [List.getLast?_append]; rfl

/-- Clipping meets the contract, for polygons of any shape without holes. -/
theorem clipping_cutter : Cutter clipping where
  closed _ _ _ h := (clipping_mem h).2.1.1
  inside _ _ _ h := (clipping_mem h).2.2
  holes _ _ _ h i hi := by rw [(clipping_mem h).2.1.2] at hi; simp at hi
  simple _ _ _ _ h := (clipping_mem h).2.1.2
  meridian p c q _ h := by
    have hp := (clipping_mem h).1
    simp only [clipping, if_pos hp] at h
    exact (clipX_spec hp h).2.2.1
  parallel p c q _ h := by
    have hp := (clipping_mem h).1
    simp only [clipping, if_pos hp] at h
    exact (clipY_spec hp h).2.2.1
  northHalf p q _ h := clipping_half (Or.inl rfl) h
  southHalf p q _ h := clipping_half (Or.inr rfl) h
  crossNorth p hy h := by
    refine oneSide_of fun hb => ?_
    simp only [clipping, decide_eq_false_iff_not] at h
    exact h ⟨hb.1, hb.2, Or.inl fun v hv => (hy v hv).1⟩
  crossSouth p hy h := by
    refine oneSide_of fun hb => ?_
    simp only [clipping, decide_eq_false_iff_not] at h
    exact h ⟨hb.1, hb.2, Or.inl fun v hv => (hy v hv).2⟩
  valid _ _ _ h := by simpa [clipping] using (clipping_mem h).2.1
  moved q f _ h := by
    have hq : Plain q := by simpa [clipping] using h
    simp only [clipping, decide_eq_true_eq, hq.2, List.map_nil]
    exact mkPolygon_plain _
  covers p l P hv _ hP _ := by
    have hp : Plain p := by simpa [clipping] using hv
    simp only [clipping, if_pos hp]
    rcases l with c | c | _ | _
    · exact clipX_covers hp hP
    · exact clipY_covers hp hP
    · exact clipX_covers hp hP
    · exact clipX_covers hp hP
  boundary p l q P hv _ hq hP := by
    have hp : Plain p := by simpa [clipping] using hv
    simp only [clipping, if_pos hp] at hq
    rcases l with c | c | _ | _
    · exact (clipX_spec hp hq).2.2.2 P hP
    · exact (clipY_spec hp hq).2.2.2 P hP
    · exact (clipX_spec hp hq).2.2.2 P hP
    · exact (clipX_spec hp hq).2.2.2 P hP
  piecesNorth p q _ h := by
    have := not_both (clipping_half (Or.inl rfl) h)
    simp only [clipping, decide_eq_false_iff_not]
    exact fun h => this ⟨h.1, h.2.1⟩
  piecesSouth p q _ h := by
    have := not_both (clipping_half (Or.inr rfl) h)
    simp only [clipping, decide_eq_false_iff_not]
    exact fun h => this ⟨h.1, h.2.1⟩
  belowNorth p h h' := by
    obtain ⟨w, hw, hw'⟩ := h'
    simp only [clipping, decide_eq_false_iff_not]
    rintro ⟨-, -, h1 | ⟨v, hv, h1⟩⟩
    · linarith [h1 w hw]
    · linarith [h v hv]
  aboveSouth p h h' := by
    obtain ⟨w, hw, hw'⟩ := h'
    simp only [clipping, decide_eq_false_iff_not]
    rintro ⟨-, -, h1 | ⟨v, hv, h1⟩⟩
    · linarith [h1 w hw]
    · linarith [h v hv]
  pole lon h := by simpa [clipping] using h

end Tatc.Props
