import Verif.Props.Region
import Mathlib.Tactic.IntervalCases

/-!
# C114: polygons around a pole
-/

namespace Tatc.Props
open Tatc.Polygons Tatc.Spec Tatc.Lemmas
open Tatc.Pandas (SortValues)
open scoped Classical

/-- The ring `r` is the polygon around the north pole (`σ = 1`) or the south pole (`σ = -1`) drawn in one plane: the
exterior is followed once around the globe, without jumps and never beyond the ends, and then closed along the meridian of
its first vertex and the pole. -/
def CapOf (σ : ℝ) (p : Polygon) (r : List (ℝ × ℝ)) : Prop :=
  ∃ (u : List ℝ) (a b : ℝ) (v : ℝ × ℝ), Unwraps (p.exterior.map (·.x)) u ∧ u.head? = some a ∧ u.getLast? = some b ∧
    (b = a + 360 ∨ b = a - 360) ∧ (∀ x ∈ u, min a b ≤ x ∧ x ≤ max a b) ∧
    (u.zip (p.exterior.map (·.y))).head? = some v ∧
    r = u.zip (p.exterior.map (·.y)) ++ [(b, 90 * σ), (a, 90 * σ), v]

/-! ## Counting sides -/

theorem sidesOver_append (l : List (ℝ × ℝ)) (a : ℝ × ℝ) (m : List (ℝ × ℝ)) (P : ℝ × ℝ) :
    sidesOver (l ++ a :: m) P = sidesOver (l ++ [a]) P + sidesOver (a :: m) P := by
  induction l with
  | nil => simp [sidesOver, sides]
  | cons b t ih =>
    rcases t with _ | ⟨c, t⟩
    · simp only [List.cons_append, List.nil_append] at ih ⊢
      rw [sidesOver_cons, sidesOver_cons]
      have : sidesOver [a] P = 0 := rfl
      omega
    · simp only [List.cons_append] at ih ⊢
      rw [sidesOver_cons, sidesOver_cons, ih]
      omega

theorem sidesOver_zero {l : List (ℝ × ℝ)} {P : ℝ × ℝ} (h : (∀ v ∈ l, v.1 ≤ P.1) ∨ ∀ v ∈ l, P.1 < v.1) :
    sidesOver l P = 0 := by
  unfold sidesOver
  rw [List.countP_eq_zero]
  intro e he hp
  obtain ⟨m1, m2⟩ := mem_sides he
  have hs : Spans P e := (of_decide_eq_true hp).1
  rcases h with h | h
  · have a := h _ m1; have b := h _ m2
    rcases hs with hs | hs <;> linarith [hs.1, hs.2]
  · have a := h _ m1; have b := h _ m2
    rcases hs with hs | hs <;> linarith [hs.1, hs.2]

theorem passesOver_vertical (x y z : ℝ) (P : ℝ × ℝ) : ¬ PassesOver P ((x, y), (x, z)) := by
  rintro ⟨h | h, -⟩ <;> linarith [h.1, h.2]

/-- A side along a parallel. -/
theorem passesOver_level {a b y : ℝ} {P : ℝ × ℝ} : PassesOver P ((a, y), (b, y)) ↔
    ((a ≤ P.1 ∧ P.1 < b) ∨ (b ≤ P.1 ∧ P.1 < a)) ∧ P.2 < y := by
  unfold PassesOver Spans heightAt
  simp

/-! ## The map of a cap -/

/-- The ring of a cap on the map: from the pole down the antimeridian, along the vertices, and up again. -/
def capRing (σ lat : ℝ) (coords : List Coord) : List Coord :=
  [⟨-180, 90 * σ, none⟩, ⟨-180, lat, none⟩] ++ coords ++ [⟨180, lat, none⟩, ⟨180, 90 * σ, none⟩, ⟨-180, 90 * σ, none⟩]

theorem capRing_closed (σ lat : ℝ) (coords : List Coord) : ring (capRing σ lat coords) = capRing σ lat coords := by
  apply ring_closed
  unfold ClosedRing capRing
  simp [List.getLast?_cons, List.getLast?_append]

/-- The ring of a cap drawn in one plane. -/
def capPath (σ : ℝ) (first : Coord) (coords : List Coord) : List (ℝ × ℝ) :=
  outline coords ++ [(first.x + 360, first.y)] ++ [(first.x + 360, 90 * σ), (first.x, 90 * σ), (first.x, first.y)]

theorem head_last {coords : List Coord} {first last : Coord} (hf : coords.head? = some first)
    (hl : coords.getLast? = some last) : ∃ R D, coords = first :: R ∧ first :: R = D ++ [last] := by
  obtain ⟨R, rfl⟩ : ∃ R, coords = first :: R := by
    rcases coords with _ | ⟨a, t⟩
    · simp at hf
    · simp at hf; exact ⟨t, by rw [hf]⟩
  refine ⟨R, (first :: R).dropLast, rfl, ?_⟩
  rw [List.getLast?_eq_some_getLast (List.cons_ne_nil _ _)] at hl
  rw [← Option.some.inj hl, List.dropLast_append_getLast]

/-- The number of sides above a point, on the map. -/
theorem cap_map_sides (σ : ℝ) {coords : List Coord} {first last : Coord} (hf : coords.head? = some first)
    (hl : coords.getLast? = some last) (Q : ℝ × ℝ) : sidesOver (outline (capRing σ first.y coords)) Q =
      (if PassesOver Q ((-180, first.y), (first.x, first.y)) then 1 else 0) + sidesOver (outline coords) Q +
        (if PassesOver Q ((last.x, last.y), (180, first.y)) then 1 else 0) +
        (if PassesOver Q ((180, 90 * σ), (-180, 90 * σ)) then 1 else 0) := by
  obtain ⟨R, D, rfl, hD⟩ := head_last hf hl
  have e : outline (capRing σ first.y (first :: R)) = (-180, 90 * σ) :: (-180, first.y) :: (first.x, first.y) ::
      (outline R ++ [(180, first.y), (180, 90 * σ), (-180, 90 * σ)]) := by simp [capRing, outline]
  have e' : (first.x, first.y) :: (outline R ++ [(180, first.y), (180, 90 * σ), (-180, 90 * σ)]) =
      outline D ++ (last.x, last.y) :: [(180, first.y), (180, 90 * σ), (-180, 90 * σ)] := by
    have : outline (first :: R) = outline (D ++ [last]) := by rw [hD]
    simp only [outline, List.map_cons, List.map_append, List.map_nil] at this ⊢
    rw [← List.cons_append, this]
    simp
  rw [e, sidesOver_cons, sidesOver_cons, e', sidesOver_append, sidesOver_cons, sidesOver_cons, sidesOver_cons,
    if_neg (passesOver_vertical _ _ _ _), if_neg (passesOver_vertical _ _ _ _)]
  have h0 : sidesOver [((-180 : ℝ), 90 * σ)] Q = 0 := rfl
  have h3 : outline D ++ [(last.x, last.y)] = outline (first :: R) := by rw [hD]; simp [outline]
  rw [h0, h3]
  omega

/-- The number of sides above a point, drawn in one plane. -/
theorem cap_path_sides (σ : ℝ) {coords : List Coord} {first last : Coord} (hf : coords.head? = some first)
    (hl : coords.getLast? = some last) (Q : ℝ × ℝ) : sidesOver (capPath σ first coords) Q =
      sidesOver (outline coords) Q + (if PassesOver Q ((last.x, last.y), (first.x + 360, first.y)) then 1 else 0) +
        (if PassesOver Q ((first.x + 360, 90 * σ), (first.x, 90 * σ)) then 1 else 0) := by
  obtain ⟨R, D, rfl, hD⟩ := head_last hf hl
  have e : capPath σ first (first :: R) = outline D ++ (last.x, last.y) :: [(first.x + 360, first.y),
      (first.x + 360, 90 * σ), (first.x, 90 * σ), (first.x, first.y)] := by
    unfold capPath
    rw [hD]
    simp [outline]
  rw [e, sidesOver_append, sidesOver_cons, sidesOver_cons, sidesOver_cons, sidesOver_cons,
    if_neg (passesOver_vertical _ _ _ _), if_neg (passesOver_vertical _ _ _ _)]
  have h0 : sidesOver [(first.x, first.y)] Q = 0 := rfl
  have h3 : outline D ++ [(last.x, last.y)] = outline (first :: R) := by rw [hD]; simp [outline]
  rw [h0, h3]
  omega

/-- The map of a cap covers what its drawing covers. -/
theorem cap_covers {σ : ℝ} {coords : List Coord} {first last : Coord} (hf : coords.head? = some first)
    (hl : coords.getLast? = some last) (hsort : coords.Pairwise fun a b => a.x < b.x)
    (hx : ∀ c ∈ coords, -180 ≤ c.x ∧ c.x < 180) (hy : first.y = last.y ∨ first.x = -180)
    {P : ℝ × ℝ} (h1 : -180 < P.1) (h2 : P.1 < 180) :
    InsideRing (outline (capRing σ first.y coords)) P ↔
      ∃ k : Int, InsideRing (capPath σ first coords) (P.1 + 360 * k, P.2) := by
  obtain ⟨R, D, rfl, hD⟩ := head_last hf hl
  have hfirst : ∀ c ∈ first :: R, first.x ≤ c.x := by
    intro c hc
    rcases List.mem_cons.mp hc with rfl | hc
    · exact le_refl _
    · exact (List.rel_of_pairwise_cons hsort hc).le
  have hlast : ∀ c ∈ first :: R, c.x ≤ last.x := by
    intro c hc
    rw [hD] at hc hsort
    rcases List.mem_append.mp hc with hc | hc
    · exact ((List.pairwise_append.mp hsort).2.2 c hc last (by simp)).le
    · rw [List.mem_singleton.mp hc]
  have hlx := hx last (by rw [hD]; simp)
  have hfx := hx first (by simp)
  have cmap := cap_map_sides σ hf hl
  have cpath := cap_path_sides σ hf hl
  have hmem : ∀ v ∈ outline (first :: R), first.x ≤ v.1 ∧ v.1 ≤ last.x := by
    intro v hv
    obtain ⟨c, hc, rfl⟩ := List.mem_map.mp hv
    exact ⟨hfirst c hc, hlast c hc⟩
  -- the turn at which the drawing covers the point
  have range : ∀ Q : ℝ × ℝ, InsideRing (capPath σ first (first :: R)) Q → first.x ≤ Q.1 ∧ Q.1 < first.x + 360 := by
    intro Q hQ
    by_contra hne
    have : sidesOver (capPath σ first (first :: R)) Q = 0 := by
      apply sidesOver_zero
      have hall : ∀ v ∈ capPath σ first (first :: R), first.x ≤ v.1 ∧ v.1 ≤ first.x + 360 := by
        intro v hv
        unfold capPath at hv
        simp only [List.mem_append, List.mem_cons, List.not_mem_nil, or_false] at hv
        rcases hv with (hv | rfl) | rfl | rfl | rfl
        · have := hmem v hv; exact ⟨this.1, by linarith⟩
        all_goals simp
      rw [not_and_or] at hne
      rcases hne with h | h
      · right; intro v hv; linarith [(hall v hv).1, not_le.mp h]
      · left; intro v hv; linarith [(hall v hv).2, not_lt.mp h]
    unfold InsideRing at hQ
    rw [this] at hQ
    exact absurd hQ (by decide)
  have top : PassesOver P ((180, 90 * σ), (-180, 90 * σ)) ↔ P.2 < 90 * σ := by
    rw [passesOver_level]
    exact ⟨fun h => h.2, fun h => ⟨Or.inr ⟨h1.le, h2⟩, h⟩⟩
  have top' : ∀ Q : ℝ × ℝ, first.x ≤ Q.1 → Q.1 < first.x + 360 →
      (PassesOver Q ((first.x + 360, 90 * σ), (first.x, 90 * σ)) ↔ Q.2 < 90 * σ) := by
    intro Q q1 q2
    rw [passesOver_level]
    exact ⟨fun h => h.2, fun h => ⟨Or.inr ⟨q1, q2⟩, h⟩⟩
  by_cases hP : first.x ≤ P.1
  · have hzero : ∀ k : Int, InsideRing (capPath σ first (first :: R)) (P.1 + 360 * k, P.2) → k = 0 := by
      intro k hk
      obtain ⟨r1, r2⟩ := range _ hk
      simp only at r1 r2
      have k1 : (k : ℝ) < 1 := by linarith
      have k2 : (-1 : ℝ) < k := by linarith
      have k1' : k < 1 := by exact_mod_cast k1
      have k2' : -1 < k := by exact_mod_cast k2
      omega
    have hA : ¬ PassesOver P ((-180, first.y), (first.x, first.y)) := by
      rw [passesOver_level]
      rintro ⟨h | h, -⟩
      · linarith [h.2]
      · linarith [h.2]
    have hB : PassesOver P ((last.x, last.y), (180, first.y)) ↔ PassesOver P ((last.x, last.y), (first.x + 360, first.y)) := by
      rcases hy with hy | hy
      · rw [← hy, passesOver_level, passesOver_level]
        constructor
        · rintro ⟨h | h, h'⟩
          · exact ⟨Or.inl ⟨h.1, by linarith⟩, h'⟩
          · linarith [h.1, h.2]
        · rintro ⟨h | h, h'⟩
          · exact ⟨Or.inl ⟨h.1, h2⟩, h'⟩
          · linarith [h.1, h.2]
      · rw [hy]; norm_num
    have heq : InsideRing (outline (capRing σ first.y (first :: R))) P ↔
        InsideRing (capPath σ first (first :: R)) P := by
      unfold InsideRing
      rw [cmap, cpath, if_neg hA]
      simp only [hB, top, top' P hP (by linarith), zero_add]
    rw [heq]
    constructor
    · intro h; exact ⟨0, by simpa using h⟩
    · rintro ⟨k, hk⟩
      have := hzero k hk
      rw [this] at hk
      simpa using hk
  · push Not at hP
    have hone : ∀ k : Int, InsideRing (capPath σ first (first :: R)) (P.1 + 360 * k, P.2) → k = 1 := by
      intro k hk
      obtain ⟨r1, r2⟩ := range _ hk
      simp only at r1 r2
      have k1 : (k : ℝ) < 2 := by linarith
      have k2 : (0 : ℝ) < k := by linarith
      have k1' : k < 2 := by exact_mod_cast k1
      have k2' : 0 < k := by exact_mod_cast k2
      omega
    have hN : sidesOver (outline (first :: R)) P = 0 := sidesOver_zero (Or.inr fun v hv => by linarith [(hmem v hv).1])
    have hN' : sidesOver (outline (first :: R)) (P.1 + 360, P.2) = 0 :=
      sidesOver_zero (Or.inl fun v hv => by simp only; linarith [(hmem v hv).2])
    have hB : ¬ PassesOver P ((last.x, last.y), (180, first.y)) := by
      have hfl := hfirst last (by rw [hD]; simp)
      rintro ⟨h | h, -⟩ <;> simp only at h <;> linarith [h.1, h.2]
    have hA : PassesOver P ((-180, first.y), (first.x, first.y)) ↔
        PassesOver (P.1 + 360, P.2) ((last.x, last.y), (first.x + 360, first.y)) := by
      rcases hy with hy | hy
      · rw [← hy, passesOver_level, passesOver_level]
        constructor
        · rintro ⟨-, h'⟩
          exact ⟨Or.inl ⟨by simp only; linarith, by simp only; linarith⟩, h'⟩
        · rintro ⟨-, h'⟩
          exact ⟨Or.inl ⟨h1.le, hP⟩, h'⟩
      · linarith
    have heq : InsideRing (outline (capRing σ first.y (first :: R))) P ↔
        InsideRing (capPath σ first (first :: R)) (P.1 + 360, P.2) := by
      unfold InsideRing
      rw [cmap, cpath, hN, hN', if_neg hB]
      simp only [hA, top, top' (P.1 + 360, P.2) (by simp only; linarith) (by simp only; linarith), zero_add, add_zero]
    rw [heq]
    constructor
    · intro h; exact ⟨1, by simpa using h⟩
    · rintro ⟨k, hk⟩
      have := hone k hk
      rw [this] at hk
      simpa using hk

theorem onRing_append {l : List (ℝ × ℝ)} {a : ℝ × ℝ} {m : List (ℝ × ℝ)} {P : ℝ × ℝ} :
    OnRing (l ++ a :: m) P ↔ OnRing (l ++ [a]) P ∨ OnRing (a :: m) P := by
  have : sides (l ++ a :: m) = sides (l ++ [a]) ++ sides (a :: m) := by
    induction l with
    | nil => simp [sides]
    | cons b t ih =>
      rcases t with _ | ⟨c, t⟩
      · simp only [List.cons_append, List.nil_append] at ih ⊢
        rw [sides_cons, sides_cons]
        simp [sides]
      · simp only [List.cons_append] at ih ⊢
        rw [sides_cons, sides_cons, ih, List.cons_append]
  unfold OnRing
  rw [this]
  constructor
  · rintro ⟨e, he, h⟩
    rcases List.mem_append.mp he with he | he
    · exact Or.inl ⟨e, he, h⟩
    · exact Or.inr ⟨e, he, h⟩
  · rintro (⟨e, he, h⟩ | ⟨e, he, h⟩)
    · exact ⟨e, List.mem_append_left _ he, h⟩
    · exact ⟨e, List.mem_append_right _ he, h⟩

/-- The point is on the side. -/
def OnSide (P : ℝ × ℝ) (a b : ℝ × ℝ) : Prop :=
  ∃ t : ℝ, 0 ≤ t ∧ t ≤ 1 ∧ P = (a.1 + t * (b.1 - a.1), a.2 + t * (b.2 - a.2))

/-- A point on the ring of a cap on the map is on the ring drawn in one plane. -/
theorem cap_boundary {σ : ℝ} (hσ : σ = 1 ∨ σ = -1) {coords : List Coord} {first last : Coord}
    (hf : coords.head? = some first) (hl : coords.getLast? = some last)
    (hx : ∀ c ∈ coords, -180 ≤ c.x ∧ c.x < 180) (hy : first.y = last.y ∨ first.x = -180)
    {P : ℝ × ℝ} (h1 : -180 < P.1) (h2 : P.1 < 180) (h3 : -90 < P.2) (h4 : P.2 < 90)
    (h : OnRing (outline (capRing σ first.y coords)) P) :
    ∃ k : Int, OnRing (capPath σ first coords) (P.1 + 360 * k, P.2) := by
  obtain ⟨R, D, rfl, hD⟩ := head_last hf hl
  have hlx := hx last (by rw [hD]; simp)
  have hfx := hx first (by simp)
  have e : outline (capRing σ first.y (first :: R)) = (-180, 90 * σ) :: (-180, first.y) :: (first.x, first.y) ::
      (outline R ++ [(180, first.y), (180, 90 * σ), (-180, 90 * σ)]) := by simp [capRing, outline]
  have e' : (first.x, first.y) :: (outline R ++ [(180, first.y), (180, 90 * σ), (-180, 90 * σ)]) =
      outline D ++ (last.x, last.y) :: [(180, first.y), (180, 90 * σ), (-180, 90 * σ)] := by
    have : outline (first :: R) = outline (D ++ [last]) := by rw [hD]
    simp only [outline, List.map_cons, List.map_append, List.map_nil] at this ⊢
    rw [← List.cons_append, this]
    simp
  have h5 : outline D ++ [(last.x, last.y)] = outline (first :: R) := by rw [hD]; simp [outline]
  have path : capPath σ first (first :: R) = outline D ++ (last.x, last.y) :: [(first.x + 360, first.y),
      (first.x + 360, 90 * σ), (first.x, 90 * σ), (first.x, first.y)] := by
    unfold capPath
    rw [hD]
    simp [outline]
  have vertical : ∀ x y z : ℝ, x = 180 ∨ x = -180 → ¬ OnSide P (x, y) (x, z) := by
    rintro x y z hx ⟨t, -, -, hP⟩
    have := congrArg Prod.fst hP
    simp only [sub_self, mul_zero, add_zero] at this
    rcases hx with rfl | rfl <;> linarith
  rw [e, onRing_cons, onRing_cons, e', onRing_append, onRing_cons, onRing_cons, onRing_cons, h5] at h
  rw [path]
  simp only [onRing_append, onRing_cons, h5]
  rcases h with h | h | h | h | h | h | h
  · exact absurd h (vertical _ _ _ (Or.inr rfl))
  · -- before the first vertex
    obtain ⟨t, t0, t1, hP⟩ := h
    have p1 : P.1 = -180 + t * (first.x + 180) := by
      have := congrArg Prod.fst hP; simp only at this; linarith
    have p2 : P.2 = first.y := by have := congrArg Prod.snd hP; simpa using this
    rcases hy with hy | hy
    · refine ⟨1, Or.inr (Or.inl ⟨(P.1 + 360 - last.x) / (first.x + 360 - last.x), ?_, ?_, Prod.ext ?_ ?_⟩)⟩
      · exact div_nonneg (by linarith) (by linarith)
      · rw [div_le_one (by linarith)]
        nlinarith
      · have hne : first.x + 360 - last.x ≠ 0 := by linarith
        simp only
        field_simp
        push_cast
        ring
      · simp only [p2, hy]; ring
    · rw [hy] at p1; linarith
  · exact ⟨0, Or.inl (by simpa using h)⟩
  · -- after the last vertex
    obtain ⟨t, t0, t1, hP⟩ := h
    have p1 : P.1 = last.x + t * (180 - last.x) := by
      have := congrArg Prod.fst hP; simpa using this
    have p2 : P.2 = last.y + t * (first.y - last.y) := by
      have := congrArg Prod.snd hP; simpa using this
    refine ⟨0, Or.inr (Or.inl ?_)⟩
    rcases hy with hy | hy
    · refine ⟨(P.1 - last.x) / (first.x + 360 - last.x), ?_, ?_, Prod.ext ?_ ?_⟩
      · exact div_nonneg (by nlinarith) (by linarith)
      · rw [div_le_one (by linarith)]
        nlinarith
      · have hne : first.x + 360 - last.x ≠ 0 := by linarith
        simp only
        field_simp
        push_cast
        ring
      · simp only [p2, hy]; ring
    · refine ⟨t, t0, t1, Prod.ext ?_ ?_⟩
      · simp only [hy, p1, Int.cast_zero]; ring
      · simp only [p2]
  · exact absurd h (vertical _ _ _ (Or.inl rfl))
  · obtain ⟨t, -, -, hP⟩ := h
    have p2 : P.2 = 90 * σ := by have := congrArg Prod.snd hP; simpa using this
    rcases hσ with rfl | rfl <;> linarith
  · obtain ⟨e, he, -⟩ := h
    simp [sides] at he

/-! ## C114 -/

theorem sort_eq (sort : SortValues Coord.x) {l m : List Coord} (hm : m.Perm l) (h : m.Pairwise fun a b => a.x < b.x) :
    sort.run l = m := by
  have hp := (sort.perm l).trans hm.symm
  have hs := sort.sorted l
  have hinj : ∀ a ∈ m, ∀ b ∈ m, a.x ≤ b.x → b.x ≤ a.x → a = b := by
    intro a ha b hb h1 h2
    obtain ⟨i, hi, rfl⟩ := List.getElem_of_mem ha
    obtain ⟨j, hj, rfl⟩ := List.getElem_of_mem hb
    rcases lt_trichotomy i j with hij | rfl | hij
    · exact absurd (List.pairwise_iff_getElem.mp h i j hi hj hij) (not_lt.mpr h2)
    · rfl
    · exact absurd (List.pairwise_iff_getElem.mp h j i hj hi hij) (not_lt.mpr h1)
  exact hp.eq_of_pairwise (fun a b ha hb h1 h2 => hinj a (hp.mem_iff.mp ha) b hb h1 h2) hs
    (h.imp fun h => h.le)

/-- A polygon that stays between the poles is not changed at the poles. -/
theorem splitPoles_id {s : Shapely} {a : Shape} (h : ∀ q ∈ a.parts, ∀ v ∈ q.exterior, -90 ≤ v.y ∧ v.y ≤ 90) :
    ∃ out, (do let b ← forParts (splitSouth s) a; forParts (splitNorth s) b) = .ok out ∧
      ∀ r, r ∈ out.parts ↔ r ∈ a.parts := by
  obtain ⟨b, hb, hb'⟩ := forParts_exact (splitSouth s) Shape.polygon a fun q hq => by
    unfold splitSouth; rw [if_pos fun c hc => (h q hq c hc).1]
  have hb'' : ∀ r, r ∈ b.parts ↔ r ∈ a.parts := fun r => by rw [hb']; simp [Shape.parts]
  obtain ⟨c, hc, hc'⟩ := forParts_exact (splitNorth s) Shape.polygon b fun q hq => by
    unfold splitNorth; rw [if_pos fun c hc => (h q ((hb'' q).mp hq) c hc).2]
  refine ⟨c, ?_, fun r => ?_⟩
  · rw [hb]; exact hc
  · rw [hc', ← hb'']; simp [Shape.parts]

/-- What the parts of a polygon around a pole cover: its vertices arranged by longitude, closed along the antimeridian and
the pole. -/
theorem splitPole_covers {s : Shapely} (hs : Cutter s) (sort : SortValues Coord.x)
    (sort' : SortValues (α := ℝ × ℝ) Prod.fst) (p : Polygon) {σ : ℝ} {coords : List Coord} {first last : Coord}
    (hcoords : sort.run p.exterior.dropLast = coords) (hi : p.interiors = [])
    (hf : coords.head? = some first) (hl : coords.getLast? = some last)
    (hz : ∀ c ∈ coords, c.z = none) (hx : ∀ c ∈ coords, -180 ≤ c.x ∧ c.x < 180)
    (hlat : ∀ c ∈ coords, -90 ≤ c.y ∧ c.y ≤ 90) (hfx : first.x ≤ 0)
    (hstep : ¬ smallSteps (p.exterior.map (·.x))) (hpole : s.containsPole (p.exterior.map (·.x)) = true)
    (hσ : (σ = 1 ∧ 0 < (coords.map (·.y)).sum) ∨ (σ = -1 ∧ (coords.map (·.y)).sum ≤ 0))
    (hv : s.isValid ⟨capRing σ first.y coords, []⟩ = true) :
    ∃ out, splitPolygon s sort sort' (.polygon p) = .ok out ∧
      ∀ P : ℝ × ℝ, P.1 ≠ 0 → ¬ OnRing (outline (capRing σ first.y coords)) P →
        ((∃ r ∈ out.parts, Covers r P) ↔ InsideRing (outline (capRing σ first.y coords)) P) := by
  have hfm := List.mem_of_head? hf
  have hlm := List.mem_of_getLast? hl
  have hlatp : poleLatitude first last = first.y :=
    (C79_latitude_false first last (hx first hfm).1 hfx (hx last hlm).2).1
  have hlen : 0 < (coords.length : ℝ) := by
    have := List.length_pos_of_mem hfm
    exact_mod_cast this
  have hns : (if (coords.map (·.y)).sum / coords.length > 0 then (1 : ℝ) else -1) = σ := by
    rcases hσ with ⟨rfl, h⟩ | ⟨rfl, h⟩
    · rw [if_pos (div_pos h hlen)]
    · rw [if_neg (not_lt.mpr (div_nonpos_of_nonpos_of_nonneg h hlen.le))]
  have hσ' : σ = 1 ∨ σ = -1 := hσ.imp And.left And.left
  set pg : Polygon := ⟨capRing σ first.y coords, []⟩ with hpg
  have hok : splitAntimeridian s sort sort' p = .ok (ofList (s.split pg (.meridian 0))) := by
    unfold splitAntimeridian
    simp only [if_neg hstep, hpole, if_true]
    unfold splitPole
    simp only [hcoords, hf, hl, hns, hlatp, hi]
    unfold require
    rw [if_pos hz]
    have : mkPolygon ([⟨-180, 90 * σ, none⟩, ⟨-180, first.y, none⟩] ++ coords ++
      [⟨180, first.y, none⟩, ⟨180, 90 * σ, none⟩, ⟨-180, 90 * σ, none⟩]) [] = pg := by
      show (⟨ring (capRing σ first.y coords), [].map ring⟩ : Polygon) = _
      rw [capRing_closed]; rfl
    rw [this]
    rfl
  have hext : ∀ v ∈ pg.exterior, -90 ≤ v.y ∧ v.y ≤ 90 := by
    intro v hv
    simp only [hpg, capRing, List.mem_append, List.mem_cons, List.not_mem_nil, or_false] at hv
    have hpy : -90 ≤ 90 * σ ∧ 90 * σ ≤ 90 := by rcases hσ' with rfl | rfl <;> norm_num
    rcases hv with ((rfl | rfl) | hv) | rfl | rfl | rfl
    · exact hpy
    · exact hlat first hfm
    · exact hlat v hv
    · exact hlat first hfm
    · exact hpy
    · exact hpy
  obtain ⟨out, ho, ho'⟩ := splitPoles_id (s := s) (a := ofList (s.split pg (.meridian 0))) (by
    intro q hq v hv
    rw [ofList_parts] at hq
    exact inBox_y (hs.inside _ _ q hq v hv) hext)
  refine ⟨out, ?_, fun P h0 hoff => ?_⟩
  · unfold splitPolygon
    have : forParts (splitAntimeridian s sort sort') (.polygon p) = .ok (ofList (s.split pg (.meridian 0))) := hok
    rw [this]
    exact ho
  · have hsp : Spanned (.meridian 0) pg := fun v hv => ⟨by linarith [(hext v hv).1], by linarith [(hext v hv).2]⟩
    have hcov := hs.covers pg (.meridian 0) P hv hsp h0 (by rw [onBoundary_plain rfl]; exact hoff)
    simp only [ho', ofList_parts]
    rw [hcov]
    unfold Covers
    simp [hpg]

/-- A polygon around a pole, without holes and heights, whose vertices are given from west to east, once around the globe
without steps of more than half a turn; `σ` is the side of its mean latitude.  Shapely finds that it contains a pole and that
its map is valid. -/
structure WestToEast (s : Shapely) (σ : ℝ) (first last : Coord) (rest : List Coord) : Prop where
  final : (first :: rest).getLast? = some last
  flat : ∀ c ∈ first :: rest, c.z = none
  lon : ∀ c ∈ first :: rest, -180 ≤ c.x ∧ c.x < 180
  lat : ∀ c ∈ first :: rest, -90 ≤ c.y ∧ c.y ≤ 90
  east : (first :: rest).Pairwise fun a b => a.x < b.x
  steps : ∀ i (h : i + 1 < (first :: rest).length), (first :: rest)[i + 1].x - (first :: rest)[i].x ≤ 180
  around : first.x + 360 - last.x ≤ 180
  pole : s.containsPole ((first :: rest ++ [first]).map (·.x)) = true
  mean : (σ = 1 ∧ 0 < ((first :: rest).map (·.y)).sum) ∨ (σ = -1 ∧ ((first :: rest).map (·.y)).sum ≤ 0)
  valid : s.isValid ⟨capRing σ first.y (first :: rest), []⟩ = true

theorem westToEast_split {s : Shapely} (hs : Cutter s) (sort : SortValues Coord.x)
    (sort' : SortValues (α := ℝ × ℝ) Prod.fst) {σ : ℝ} {first last : Coord} {rest : List Coord}
    (h : WestToEast s σ first last rest) :
    ∃ out, splitPolygon s sort sort' (.polygon ⟨first :: rest ++ [first], []⟩) = .ok out ∧
      CapOf σ ⟨first :: rest ++ [first], []⟩ (capPath σ first (first :: rest)) ∧
      ∀ P : ℝ × ℝ, P.1 ≠ 0 → ¬ OnRing (outline (capRing σ first.y (first :: rest))) P →
        ((∃ r ∈ out.parts, Covers r P) ↔ InsideRing (outline (capRing σ first.y (first :: rest))) P) := by
  obtain ⟨hl, hz, hx, hlat, hsort, hsteps, hgap, hpole, hσ, hv⟩ := h
  have hfm : first ∈ first :: rest := by simp
  have hlm := List.mem_of_getLast? hl
  have hlx := hx last hlm
  have hσ' : σ = 1 ∨ σ = -1 := hσ.imp And.left And.left
  have hstep : ¬ smallSteps ((first :: rest ++ [first]).map (·.x)) := by
    intro h
    have hu := (smallSteps_unwraps h).steps
    have hstrict : ∀ (l : List ℝ), smallSteps l → ∀ i (h : i + 1 < l.length), |l[i + 1] - l[i]| < 180 := by
      intro l
      induction l with
      | nil => intro _ i h; simp at h
      | cons a t ih =>
        intro hs i h
        rcases t with _ | ⟨b, t⟩
        · simp at h
        · rcases i with _ | i
          · exact hs.1
          · exact ih hs.2 i (by simpa using h)
    have hn := hstrict _ h rest.length (by simp)
    have e1 : ((first :: rest ++ [first]).map (·.x))[rest.length + 1]'(by simp) = first.x := by simp
    have e2 : ((first :: rest ++ [first]).map (·.x))[rest.length]'(by simp) = last.x := by
      rw [List.getLast?_eq_getElem?] at hl
      simp only [List.length_cons, Nat.add_sub_cancel] at hl
      obtain ⟨hb, hl'⟩ := List.getElem?_eq_some_iff.mp hl
      simp only [List.getElem_map, List.getElem_append_left hb, hl']
    rw [e1, e2, abs_lt] at hn
    linarith [hn.1]
  obtain ⟨out, ho, hcov⟩ := splitPole_covers hs sort sort' ⟨first :: rest ++ [first], []⟩ (σ := σ)
    (coords := first :: rest) (by rw [List.dropLast_concat]; exact sort_eq sort (List.Perm.refl _) hsort) rfl rfl hl hz hx hlat
    (by linarith) hstep hpole hσ hv
  refine ⟨out, ho, ?_, hcov⟩
  · have hfirst : ∀ c ∈ first :: rest, first.x ≤ c.x := by
      intro c hc
      rcases List.mem_cons.mp hc with rfl | hc
      · exact le_refl _
      · exact (List.rel_of_pairwise_cons hsort hc).le
    refine ⟨(first :: rest).map (·.x) ++ [first.x + 360], first.x, first.x + 360, (first.x, first.y),
      ⟨by simp, by simp, ?_, ?_⟩, by simp, by rw [List.getLast?_concat], Or.inl rfl, ?_, by simp, ?_⟩
    · intro i h h'
      by_cases hi : i < (first :: rest).length
      · refine ⟨0, ?_⟩
        rw [List.getElem_append_left (by simpa using hi)]
        simp only [List.getElem_map, List.getElem_append_left hi, Int.cast_zero, mul_zero, sub_zero]
      · have hi' : i = (first :: rest).length := by
          simp at h hi ⊢; omega
        subst hi'
        refine ⟨-1, ?_⟩
        simp
    · intro i h
      by_cases hi : i + 1 < (first :: rest).length
      · rw [List.getElem_append_left (by simpa using hi), List.getElem_append_left (by simp at hi ⊢; omega)]
        simp only [List.getElem_map]
        have hlt : (first :: rest)[i].x < (first :: rest)[i + 1].x :=
          List.pairwise_iff_getElem.mp hsort i (i + 1) (by omega) hi (by omega)
        rw [abs_le]
        exact ⟨by linarith, hsteps i hi⟩
      · have hi' : i = rest.length := by simp at h hi ⊢; omega
        subst hi'
        have e1 : ((first :: rest).map (·.x) ++ [first.x + 360])[rest.length + 1]'(by simp) = first.x + 360 := by simp
        have e2 : ((first :: rest).map (·.x) ++ [first.x + 360])[rest.length]'(by simp) = last.x := by
          rw [List.getLast?_eq_getElem?] at hl
          simp only [List.length_cons, Nat.add_sub_cancel] at hl
          obtain ⟨hb, hl'⟩ := List.getElem?_eq_some_iff.mp hl
          rw [List.getElem_append_left (by simp)]
          simp only [List.getElem_map, hl']
        rw [e1, e2, abs_le]
        exact ⟨by linarith [(hx first hfm).1], hgap⟩
    · intro x hx'
      rw [min_eq_left (by linarith), max_eq_right (by linarith)]
      rcases List.mem_append.mp hx' with hx' | hx'
      · obtain ⟨c, hc, rfl⟩ := List.mem_map.mp hx'
        exact ⟨hfirst c hc, by linarith [(hx c hc).2, (hx first hfm).1]⟩
      · rw [List.mem_singleton.mp hx']; constructor <;> linarith
    · unfold capPath outline
      have : ((first :: rest).map (·.x) ++ [first.x + 360]).zip ((first :: rest ++ [first]).map (·.y)) =
          (first :: rest).map (fun c => (c.x, c.y)) ++ [(first.x + 360, first.y)] := by
        rw [List.map_append, List.zip_append (by simp), List.zip_map']
        rfl
      rw [this]

/-- C114, where it holds: for every polygon without holes and heights around a pole whose vertices are given from west to
east, once around the globe without steps of more than half a turn, and whose first and last vertices are at the same
latitude or whose first vertex is on the antimeridian: splitting succeeds, and every place off the outline is covered by the
parts exactly when the polygon, drawn in one plane to the pole on the side of its mean latitude, covers it.  Missing:
vertices in another order and other latitudes at the ends, where it fails, and holes. -/
theorem C114_cap_partial {s : Shapely} (hs : Cutter s) (sort : SortValues Coord.x)
    (sort' : SortValues (α := ℝ × ℝ) Prod.fst) {σ : ℝ} {first last : Coord} {rest : List Coord}
    (h : WestToEast s σ first last rest) (hy : first.y = last.y ∨ first.x = -180) :
    ∃ out r, splitPolygon s sort sort' (.polygon ⟨first :: rest ++ [first], []⟩) = .ok out ∧
      CapOf σ ⟨first :: rest ++ [first], []⟩ r ∧
      ∀ P : ℝ × ℝ, -180 < P.1 → P.1 < 180 → P.1 ≠ 0 → -90 < P.2 → P.2 < 90 →
        (∀ k : Int, ¬ OnRing r (P.1 + 360 * k, P.2)) →
        ((∃ q ∈ out.parts, Covers q P) ↔ ∃ k : Int, InsideRing r (P.1 + 360 * k, P.2)) := by
  obtain ⟨out, ho, hcap, hcov⟩ := westToEast_split hs sort sort' h
  refine ⟨out, _, ho, hcap, ?_⟩
  intro P h1 h2 h0 h3 h4 hoff
  have hσ' : σ = 1 ∨ σ = -1 := h.mean.imp And.left And.left
  have hb : ¬ OnRing (outline (capRing σ first.y (first :: rest))) P := fun hb => by
    obtain ⟨k, hk⟩ := cap_boundary hσ' rfl h.final h.lon hy h1 h2 h3 h4 hb
    exact hoff k hk
  rw [hcov P h0 hb]
  exact cap_covers rfl h.final h.east h.lon hy h1 h2

/-- A cap at 60 degrees north, with four vertices, the last at any northern latitude, meets the hypotheses: at 60 degrees
those of `C114_cap_partial` and at 70 those of `C114_latitude_false`. -/
theorem someCap {y : ℝ} (hy : 0 ≤ y ∧ y ≤ 90) :
    WestToEast clipping 1 ⟨-135, 60, none⟩ ⟨135, y, none⟩ [⟨-45, 60, none⟩, ⟨45, 60, none⟩, ⟨135, y, none⟩] := by
  refine ⟨rfl, ?_, ?_, ?_, ?_, ?_, by norm_num, ?_, ?_, ?_⟩
  · intro c hc
    simp only [List.mem_cons, List.not_mem_nil, or_false] at hc
    rcases hc with rfl | rfl | rfl | rfl <;> rfl
  · intro c hc
    simp only [List.mem_cons, List.not_mem_nil, or_false] at hc
    rcases hc with rfl | rfl | rfl | rfl <;> norm_num
  · intro c hc
    simp only [List.mem_cons, List.not_mem_nil, or_false] at hc
    rcases hc with rfl | rfl | rfl | rfl
    · norm_num
    · norm_num
    · norm_num
    · exact ⟨by simp only; linarith [hy.1], hy.2⟩
  · simp only [List.pairwise_cons, List.mem_cons, List.not_mem_nil, or_false]
    refine ⟨?_, ?_, ?_, by simp, List.Pairwise.nil⟩
    · rintro c (rfl | rfl | rfl) <;> norm_num
    · rintro c (rfl | rfl) <;> norm_num
    · rintro c rfl; norm_num
  · intro i h
    have : i < 3 := by simp at h; omega
    interval_cases i <;> norm_num
  · show decide _ = true
    rw [decide_eq_true_eq]
    refine ⟨[-135, -45, 45, 135, 225], ⟨rfl, rfl, ?_, ?_⟩, by norm_num⟩
    · intro i h h'
      have : i < 5 := by simpa using h
      interval_cases i
      · exact ⟨0, by norm_num⟩
      · exact ⟨0, by norm_num⟩
      · exact ⟨0, by norm_num⟩
      · exact ⟨0, by norm_num⟩
      · exact ⟨-1, by norm_num⟩
    · intro i h
      have : i < 4 := by simp at h; omega
      interval_cases i <;> norm_num [abs_le]
  · left
    simp only [List.map_cons, List.map_nil, List.sum_cons, List.sum_nil]
    refine ⟨trivial, ?_⟩
    linarith [hy.1]
  · show decide _ = true
    rw [decide_eq_true_eq]
    refine ⟨⟨?_, by simp⟩, rfl⟩
    simp [capRing, ClosedRing]

/-- C114 does not hold of any other such polygon: when the first and last vertices are at different latitudes and the first
is not on the antimeridian, there is a place off the outline that the parts cover and the polygon does not, or the other way
around. -/
theorem C114_latitude_false {s : Shapely} (hs : Cutter s) (sort : SortValues Coord.x)
    (sort' : SortValues (α := ℝ × ℝ) Prod.fst) {σ : ℝ} {first last : Coord} {rest : List Coord}
    (h : WestToEast s σ first last rest) (hy : first.y ≠ last.y) (hf : first.x ≠ -180) :
    ∃ out r, splitPolygon s sort sort' (.polygon ⟨first :: rest ++ [first], []⟩) = .ok out ∧
      CapOf σ ⟨first :: rest ++ [first], []⟩ r ∧
      ∃ P : ℝ × ℝ, (-180 < P.1 ∧ P.1 < 180 ∧ P.1 ≠ 0 ∧ -90 < P.2 ∧ P.2 < 90) ∧
        (∀ k : Int, ¬ OnRing r (P.1 + 360 * k, P.2)) ∧
        ¬ ((∃ q ∈ out.parts, Covers q P) ↔ ∃ k : Int, InsideRing r (P.1 + 360 * k, P.2)) := by
  obtain ⟨out, ho, hcap, hcov⟩ := westToEast_split hs sort sort' h
  refine ⟨out, _, ho, hcap, ?_⟩
  have hσ' : σ = 1 ∨ σ = -1 := h.mean.imp And.left And.left
  have hfm : first ∈ first :: rest := by simp
  have hlm := List.mem_of_getLast? h.final
  have hlx := h.lon last hlm
  have hfx := h.lon first hfm
  have hfy := h.lat first hfm
  have hly := h.lat last hlm
  have hgap := h.around
  have hfx' : -180 < first.x := lt_of_le_of_ne hfx.1 (Ne.symm hf)
  -- the place: half way to the antimeridian, between the side that is drawn and the side that is there
  set t : ℝ := (180 - last.x) / 2 / (first.x + 360 - last.x) with ht
  have hd : 0 < first.x + 360 - last.x := by linarith
  have ht0 : 0 < t := div_pos (by linarith) hd
  have ht1 : t < 1 / 2 := by rw [ht, div_lt_iff₀ hd]; linarith
  set x : ℝ := (last.x + 180) / 2 with hxdef
  set dy : ℝ := first.y - last.y with hdy
  have hdy0 : dy ≠ 0 := sub_ne_zero.mpr hy
  set y : ℝ := last.y + (t + 1 / 2) / 2 * dy with hydef
  have hx1 : last.x < x := by rw [hxdef]; linarith
  have hx2 : x < 180 := by rw [hxdef]; linarith
  have hx0 : 0 < x := by rw [hxdef]; linarith
  have hspan1 : Spans (x, y) ((last.x, last.y), (180, first.y)) := Or.inl ⟨hx1.le, hx2⟩
  have hspan2 : Spans (x, y) ((last.x, last.y), (first.x + 360, first.y)) := Or.inl ⟨hx1.le, by simp only; linarith⟩
  have hh1 : heightAt ((last.x, last.y), (180, first.y)) x = last.y + 1 / 2 * dy := by
    have hne : (180 : ℝ) - last.x ≠ 0 := by linarith
    unfold heightAt
    simp only [hxdef, hdy]
    field_simp
    ring
  have hh2 : heightAt ((last.x, last.y), (first.x + 360, first.y)) x = last.y + t * dy := by
    unfold heightAt
    simp only [hxdef, hdy, ht]
    field_simp
    ring
  have hrange : -90 < y ∧ y < 90 := by
    rw [hydef, hdy]
    have w : 0 < (t + 1 / 2) / 2 ∧ (t + 1 / 2) / 2 < 1 := ⟨by linarith, by linarith⟩
    rcases lt_or_gt_of_ne hy with hlt | hlt
    · constructor <;> nlinarith [w.1, w.2]
    · constructor <;> nlinarith [w.1, w.2]
  have hmem : ∀ v ∈ outline (first :: rest), first.x ≤ v.1 ∧ v.1 ≤ last.x := by
    obtain ⟨R, D, hR, hD⟩ := head_last (coords := first :: rest) rfl h.final
    intro v hv
    obtain ⟨c, hc, rfl⟩ := List.mem_map.mp hv
    constructor
    · rcases List.mem_cons.mp hc with rfl | hc
      · exact le_refl _
      · exact (List.rel_of_pairwise_cons h.east hc).le
    · have hpw := h.east
      rw [hR, hD] at hc hpw
      rcases List.mem_append.mp hc with hc | hc
      · exact ((List.pairwise_append.mp hpw).2.2 c hc last (by simp)).le
      · rw [List.mem_singleton.mp hc]
  -- the sides above the place
  have hN : sidesOver (outline (first :: rest)) (x, y) = 0 :=
    sidesOver_zero (Or.inl fun v hv => by simp only; linarith [(hmem v hv).2])
  have hA : ¬ PassesOver (x, y) ((-180, first.y), (first.x, first.y)) := by
    rw [passesOver_level]
    rintro ⟨h' | h', -⟩ <;> simp only at h' <;> linarith [h'.1, h'.2]
  have hT1 : PassesOver (x, y) ((180, 90 * σ), (-180, 90 * σ)) ↔ y < 90 * σ := by
    rw [passesOver_level]
    exact ⟨fun h => h.2, fun h => ⟨Or.inr ⟨by simp only; linarith, hx2⟩, h⟩⟩
  have hT2 : PassesOver (x, y) ((first.x + 360, 90 * σ), (first.x, 90 * σ)) ↔ y < 90 * σ := by
    rw [passesOver_level]
    exact ⟨fun h => h.2, fun h => ⟨Or.inr ⟨by simp only; linarith, by simp only; linarith⟩, h⟩⟩
  have hB1 : PassesOver (x, y) ((last.x, last.y), (180, first.y)) ↔ 0 < dy := by
    have e : PassesOver (x, y) ((last.x, last.y), (180, first.y)) ↔ 0 < dy * (1 / 2 - t) := by
      unfold PassesOver
      simp only [hspan1, true_and, hh1]
      constructor <;> intro h' <;> linarith
    rw [e, mul_pos_iff_of_pos_right (by linarith)]
  have hB2 : PassesOver (x, y) ((last.x, last.y), (first.x + 360, first.y)) ↔ ¬ 0 < dy := by
    have e : PassesOver (x, y) ((last.x, last.y), (first.x + 360, first.y)) ↔ 0 < -dy * (1 / 2 - t) := by
      unfold PassesOver
      simp only [hspan2, true_and, hh2]
      constructor <;> intro h' <;> linarith
    rw [e, mul_pos_iff_of_pos_right (by linarith)]
    constructor
    · intro h'; linarith
    · intro h'; have : dy < 0 := lt_of_le_of_ne (not_lt.mp h') hdy0
      linarith
  have hflip : InsideRing (outline (capRing σ first.y (first :: rest))) (x, y) ↔
      ¬ InsideRing (capPath σ first (first :: rest)) (x, y) := by
    unfold InsideRing
    rw [cap_map_sides σ rfl h.final, cap_path_sides σ rfl h.final, hN, if_neg hA]
    simp only [hB1, hB2, hT1, hT2]
    by_cases c1 : 0 < dy <;> by_cases c2 : y < 90 * σ <;> simp [c1, c2]
  have hpathx : ∀ v ∈ capPath σ first (first :: rest), first.x ≤ v.1 ∧ v.1 ≤ first.x + 360 := by
    intro v hv
    unfold capPath at hv
    simp only [List.mem_append, List.mem_cons, List.not_mem_nil, or_false] at hv
    rcases hv with (hv | rfl) | rfl | rfl | rfl
    · have := hmem v hv; exact ⟨this.1, by linarith⟩
    all_goals simp
  have turn : ∀ k : Int, first.x ≤ x + 360 * (k : ℝ) → x + 360 * (k : ℝ) ≤ first.x + 360 → k = 0 := by
    intro k r1 r2
    have k1 : (k : ℝ) < 1 := by linarith
    have k2 : (-1 : ℝ) < k := by linarith
    have k1' : k < 1 := by exact_mod_cast k1
    have k2' : -1 < k := by exact_mod_cast k2
    omega
  have offSide : ∀ (b : ℝ) (m : ℝ), last.x < b → y ≠ m →
      heightAt ((last.x, last.y), (b, first.y)) x = m → ¬ OnSide (x, y) (last.x, last.y) (b, first.y) := by
    rintro b m hb hne hm ⟨w, -, -, hP⟩
    have p1 : x = last.x + w * (b - last.x) := by have := congrArg Prod.fst hP; simpa using this
    have p2 : y = last.y + w * (first.y - last.y) := by have := congrArg Prod.snd hP; simpa using this
    apply hne
    rw [← hm, p2]
    unfold heightAt
    have hne' : b - last.x ≠ 0 := by linarith
    simp only
    rw [p1]
    field_simp
    ring
  have hyne1 : y ≠ last.y + 1 / 2 * dy := by
    rw [hydef]; intro he
    have : ((t + 1 / 2) / 2 - 1 / 2) * dy = 0 := by linarith
    rcases mul_eq_zero.mp this with h' | h'
    · linarith
    · exact hdy0 h'
  have hyne2 : y ≠ last.y + t * dy := by
    rw [hydef]; intro he
    have : ((t + 1 / 2) / 2 - t) * dy = 0 := by linarith
    rcases mul_eq_zero.mp this with h' | h'
    · linarith
    · exact hdy0 h'
  have offVertices : ¬ OnRing (outline (first :: rest)) (x, y) := fun hb => by
    have := (onRing_x hb hmem).2
    simp only at this
    linarith
  have offVertical : ∀ b z w : ℝ, b ≠ x → ¬ OnSide (x, y) (b, z) (b, w) := by
    rintro b z w hb ⟨u, -, -, hP⟩
    have := congrArg Prod.fst hP
    simp only [sub_self, mul_zero, add_zero] at this
    exact hb this.symm
  have offPole : ∀ a b : ℝ, ¬ OnSide (x, y) (a, 90 * σ) (b, 90 * σ) := by
    rintro a b ⟨u, -, -, hP⟩
    have := congrArg Prod.snd hP
    simp only [sub_self, mul_zero, add_zero] at this
    rcases hσ' with h' | h' <;> rw [h'] at this <;> linarith [hrange.1, hrange.2]
  have offOne : ∀ a : ℝ × ℝ, ¬ OnRing [a] (x, y) := by
    rintro a ⟨e, he, -⟩; simp [sides] at he
  have offPath : ¬ OnRing (capPath σ first (first :: rest)) (x, y) := by
    obtain ⟨R, D, hR, hD⟩ := head_last (coords := first :: rest) rfl h.final
    have path : capPath σ first (first :: rest) = outline D ++ (last.x, last.y) :: [(first.x + 360, first.y),
        (first.x + 360, 90 * σ), (first.x, 90 * σ), (first.x, first.y)] := by
      unfold capPath
      rw [hR, hD]
      simp [outline]
    have h5 : outline D ++ [(last.x, last.y)] = outline (first :: rest) := by rw [hR, hD]; simp [outline]
    rw [path, onRing_append, onRing_cons, onRing_cons, onRing_cons, onRing_cons, h5]
    rintro (hb | hb | hb | hb | hb | hb)
    · exact offVertices hb
    · exact offSide _ _ (by linarith) hyne2 hh2 hb
    · exact offVertical _ _ _ (by linarith) hb
    · exact offPole _ _ hb
    · exact offVertical _ _ _ (by linarith) hb
    · exact offOne _ hb
  have offMap : ¬ OnRing (outline (capRing σ first.y (first :: rest))) (x, y) := by
    obtain ⟨R, D, hR, hD⟩ := head_last (coords := first :: rest) rfl h.final
    have hRr : R = rest := (List.cons.inj hR).2.symm
    subst hRr
    have e : outline (capRing σ first.y (first :: R)) = (-180, 90 * σ) :: (-180, first.y) :: (first.x, first.y) ::
        (outline R ++ [(180, first.y), (180, 90 * σ), (-180, 90 * σ)]) := by simp [capRing, outline]
    have e' : (first.x, first.y) :: (outline R ++ [(180, first.y), (180, 90 * σ), (-180, 90 * σ)]) =
        outline D ++ (last.x, last.y) :: [(180, first.y), (180, 90 * σ), (-180, 90 * σ)] := by
      have : outline (first :: R) = outline (D ++ [last]) := by rw [hD]
      simp only [outline, List.map_cons, List.map_append, List.map_nil] at this ⊢
      rw [← List.cons_append, this]
      simp
    have h5 : outline D ++ [(last.x, last.y)] = outline (first :: R) := by rw [hD]; simp [outline]
    rw [e, onRing_cons, onRing_cons, e', onRing_append, onRing_cons, onRing_cons, onRing_cons, h5]
    rintro (hb | hb | hb | hb | hb | hb | hb)
    · exact offVertical _ _ _ (by linarith) hb
    · obtain ⟨w, w0, w1, hP⟩ := hb
      have := congrArg Prod.fst hP
      simp only at this
      nlinarith
    · exact offVertices hb
    · exact offSide _ _ (by linarith) hyne1 hh1 hb
    · exact offVertical _ _ _ (by linarith) hb
    · exact offPole _ _ hb
    · exact offOne _ hb
  refine ⟨(x, y), ⟨by simp only; linarith, hx2, hx0.ne', hrange.1, hrange.2⟩, ?_, ?_⟩
  · intro k hk
    have hr := onRing_x hk hpathx
    have hk0 := turn k hr.1 hr.2
    rw [hk0] at hk
    exact offPath (by simpa using hk)
  · rw [hcov (x, y) hx0.ne' offMap, hflip]
    intro hiff
    by_cases hin : InsideRing (capPath σ first (first :: rest)) (x, y)
    · exact hiff.mpr ⟨0, by simpa using hin⟩ hin
    · obtain ⟨k, hk⟩ := hiff.mp hin
      have hr := inside_x hk hpathx
      have hk0 := turn k hr.1 hr.2
      rw [hk0] at hk
      exact hin (by simpa using hk)

/-! ## Vertices in another order -/

/-- A ring around the north pole that steps back to the west once. -/
noncomputable def hooked : List Coord :=
  [⟨-135, 60, none⟩, ⟨-45, 60, none⟩, ⟨45, 60, none⟩, ⟨30, 70, none⟩, ⟨135, 60, none⟩, ⟨-135, 60, none⟩]

/-- The same vertices by longitude. -/
noncomputable def unhooked : List Coord :=
  [⟨-135, 60, none⟩, ⟨-45, 60, none⟩, ⟨30, 70, none⟩, ⟨45, 60, none⟩, ⟨135, 60, none⟩]

/-- C114 does not hold of vertices in another order: the ring `hooked` covers the place at 35 degrees east and 63 degrees
north, whichever way it is drawn, and the parts do not. -/
theorem C114_order_false {s : Shapely} (hs : Cutter s) (sort : SortValues Coord.x)
    (sort' : SortValues (α := ℝ × ℝ) Prod.fst) (hpole : s.containsPole (hooked.map (·.x)) = true)
    (hv : s.isValid ⟨capRing 1 60 unhooked, []⟩ = true) :
    ∃ out r, splitPolygon s sort sort' (.polygon ⟨hooked, []⟩) = .ok out ∧ CapOf 1 ⟨hooked, []⟩ r ∧
      (∀ k : Int, ¬ OnRing r (35 + 360 * k, 63)) ∧
      (∃ k : Int, InsideRing r (35 + 360 * k, 63)) ∧ ¬ ∃ q ∈ out.parts, Covers q (35, 63) := by
  have hsort : unhooked.Pairwise fun a b => a.x < b.x := by
    unfold unhooked
    simp only [List.pairwise_cons, List.mem_cons, List.not_mem_nil, or_false]
    refine ⟨?_, ?_, ?_, ?_, by simp, List.Pairwise.nil⟩
    · rintro c (rfl | rfl | rfl | rfl) <;> norm_num
    · rintro c (rfl | rfl | rfl) <;> norm_num
    · rintro c (rfl | rfl) <;> norm_num
    · rintro c rfl; norm_num
  have hperm : hooked.dropLast.Perm unhooked := by
    unfold hooked unhooked
    simp only [List.dropLast]
    exact ((List.Perm.swap _ _ _).cons _).cons _
  obtain ⟨out, ho, hcov⟩ := splitPole_covers hs sort sort' ⟨hooked, []⟩ (σ := 1) (coords := unhooked)
    (first := ⟨-135, 60, none⟩) (last := ⟨135, 60, none⟩)
    (sort_eq sort hperm.symm hsort) rfl rfl rfl
    (by unfold unhooked; simp) (by unfold unhooked; simp; norm_num) (by unfold unhooked; simp; norm_num) (by norm_num)
    (by unfold hooked; simp [smallSteps]; norm_num) hpole (Or.inl ⟨rfl, by unfold unhooked; norm_num⟩) hv
  refine ⟨out, [(-135, 60), (-45, 60), (45, 60), (30, 70), (135, 60), (225, 60), (225, 90 * 1), (-135, 90 * 1), (-135, 60)],
    ho, ?_, ?_, ⟨0, ?_⟩, ?_⟩
  · refine ⟨[-135, -45, 45, 30, 135, 225], -135, 225, (-135, 60), ⟨rfl, rfl, ?_, ?_⟩, rfl, rfl, by norm_num, ?_, rfl, ?_⟩
    · intro i h h'
      have : i < 6 := by simpa using h
      interval_cases i
      · exact ⟨0, by norm_num [hooked]⟩
      · exact ⟨0, by norm_num [hooked]⟩
      · exact ⟨0, by norm_num [hooked]⟩
      · exact ⟨0, by norm_num [hooked]⟩
      · exact ⟨0, by norm_num [hooked]⟩
      · exact ⟨-1, by norm_num [hooked]⟩
    · intro i h
      have : i < 5 := by simp at h; omega
      interval_cases i <;> norm_num [abs_le]
    · norm_num
    · simp [hooked]
  · intro k hk
    have hr := onRing_x hk (lo := -135) (hi := 225) (by simp; norm_num)
    have k1 : (k : ℝ) < 1 := by have := hr.2; simp only at this; linarith
    have k2 : (-1 : ℝ) < k := by have := hr.1; simp only at this; linarith
    have k1' : k < 1 := by exact_mod_cast k1
    have k2' : -1 < k := by exact_mod_cast k2
    have hk0 : k = 0 := by omega
    subst hk0
    simp only [onRing_cons] at hk
    rcases hk with h | h | h | h | h | h | h | h | ⟨e, he, -⟩
    on_goal 9 => simp [sides] at he
    all_goals
      obtain ⟨w, w0, w1, hP⟩ := h
      have e1 := congrArg Prod.fst hP
      have e2 := congrArg Prod.snd hP
      simp only [Int.cast_zero] at e1 e2
      linarith
  · unfold InsideRing
    have : sidesOver [((-135 : ℝ), (60 : ℝ)), (-45, 60), (45, 60), (30, 70), (135, 60), (225, 60), (225, 90 * 1),
        (-135, 90 * 1), (-135, 60)] (35, 63) = 3 := by
      simp only [sidesOver_cons, PassesOver, Spans, heightAt]
      norm_num [sidesOver, sides]
    simp only [Int.cast_zero, mul_zero, add_zero]
    rw [this]
    decide
  · have e : outline (capRing 1 60 unhooked) = [(-180, 90 * 1), (-180, 60), (-135, 60), (-45, 60), (30, 70), (45, 60),
        (135, 60), (180, 60), (180, 90 * 1), (-180, 90 * 1)] := by
      simp [capRing, outline, unhooked]
    rw [hcov (35, 63) (by norm_num) ?_]
    · rw [e]
      unfold InsideRing
      have : sidesOver [((-180 : ℝ), 90 * (1 : ℝ)), (-180, 60), (-135, 60), (-45, 60), (30, 70), (45, 60),
        (135, 60), (180, 60), (180, 90 * 1), (-180, 90 * 1)] (35, 63) = 2 := by
        simp only [sidesOver_cons, PassesOver, Spans, heightAt]
        norm_num [sidesOver, sides]
      rw [this]
      decide
    · rw [e]
      simp only [onRing_cons]
      rintro (h | h | h | h | h | h | h | h | h | ⟨e, he, -⟩)
      on_goal 10 => simp [sides] at he
      all_goals
        obtain ⟨w, w0, w1, hP⟩ := h
        have e1 := congrArg Prod.fst hP
        have e2 := congrArg Prod.snd hP
        simp only at e1 e2
        linarith

/-- The hypotheses of `C114_order_false` are met. -/
theorem hooked_meets : clipping.containsPole (hooked.map (·.x)) = true ∧
    clipping.isValid ⟨capRing 1 60 unhooked, []⟩ = true := by
  constructor
  · show decide _ = true
    rw [decide_eq_true_eq]
    refine ⟨[-135, -45, 45, 30, 135, 225], ⟨rfl, rfl, ?_, ?_⟩, by norm_num⟩
    · intro i h h'
      have : i < 6 := by simpa using h
      interval_cases i
      · exact ⟨0, by norm_num [hooked]⟩
      · exact ⟨0, by norm_num [hooked]⟩
      · exact ⟨0, by norm_num [hooked]⟩
      · exact ⟨0, by norm_num [hooked]⟩
      · exact ⟨0, by norm_num [hooked]⟩
      · exact ⟨-1, by norm_num [hooked]⟩
    · intro i h
      have : i < 5 := by simp at h; omega
      interval_cases i <;> norm_num [abs_le]
  · show decide _ = true
    rw [decide_eq_true_eq]
    refine ⟨⟨?_, by simp⟩, rfl⟩
    simp [capRing, ClosedRing, unhooked]

end Tatc.Props
