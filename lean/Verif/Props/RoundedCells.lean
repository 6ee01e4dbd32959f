import Verif.Model.IeeeCells
import Verif.Props.RoundedGrid
import Verif.Props.RoundedSamples

/-!
# C151: equally spaced cells, computed with double precision numbers
-/

namespace Tatc.Props
open Tatc.Num Tatc.Ieee Tatc.Generation
open scoped Classical

/-- The steps of the distances from 1 m to 20,000 km. -/
theorem step_ge {d : ℝ} (h1 : 1 ≤ d) (h2 : d ≤ 20000000) : 1 / 10 ^ 6 ≤ Ieee.gridStep d := by
  obtain ⟨h0, h180, -, q2⟩ := turn_close h1 h2
  have hC := circumference_lt
  have hd : circumference / d ≤ 40030240 := by
    rw [div_le_iff₀ (by linarith)]; nlinarith
  obtain ⟨p1, -⟩ := fl_between (x := 360 / Ieee.gridStep d) (by
    rw [le_div_iff₀ h0]
    refine le_trans (mul_le_mul_of_nonneg_left h180 (by positivity)) (by norm_num))
  have p1' : 360 / Ieee.gridStep d * (1 - 1 / 2 ^ 52) ≤ turn (Ieee.gridStep d) := p1
  have hq : turn (Ieee.gridStep d) ≤ 40030241 := by
    refine q2.trans ((mul_le_mul_of_nonneg_right hd (by norm_num)).trans (by norm_num))
  have : 360 / Ieee.gridStep d ≤ 80000000 := by
    have := p1'.trans hq
    norm_num at this
    linarith
  rw [div_le_iff₀ h0] at this
  norm_num
  linarith

/-- Indices of the grid stay below the end of the range by less than half a step. -/
theorem index_le {t A : ℝ} {i : ℤ} (h0 : 0 < t) (h180 : t ≤ 180) (hA : 90 ≤ A) (hA2 : A ≤ 360)
    (hi : i ≤ roundHalfEven (fl (A / t))) : (i : ℝ) * t ≤ A + 1 / 10 ^ 13 + t / 2 := by
  obtain ⟨-, p2⟩ := fl_between (x := A / t) (by
    rw [le_div_iff₀ h0]
    refine le_trans (mul_le_mul_of_nonneg_left h180 (by positivity)) (le_trans (by norm_num) hA))
  have h1 := (abs_le.mp (rhe_error (fl (A / t)))).2
  have h2 : (i : ℝ) ≤ roundHalfEven (fl (A / t)) := by exact_mod_cast hi
  have h3 : (i : ℝ) ≤ A / t * (1 + 1 / 2 ^ 52) + 1 / 2 := by linarith
  have h4 := mul_le_mul_of_nonneg_right h3 h0.le
  have h5 : (A / t * (1 + 1 / 2 ^ 52) + 1 / 2) * t = A * (1 + 1 / 2 ^ 52) + t / 2 := by
    field_simp
  rw [h5] at h4
  norm_num at *
  linarith

theorem index_ge {t A : ℝ} (h0 : 0 < t) (h180 : t ≤ 180) (hA : 90 ≤ A) (hA2 : A ≤ 360) :
    A - 1 / 10 ^ 13 - t / 2 ≤ (roundHalfEven (fl (A / t)) : ℝ) * t := by
  obtain ⟨p1, -⟩ := fl_between (x := A / t) (by
    rw [le_div_iff₀ h0]
    refine le_trans (mul_le_mul_of_nonneg_left h180 (by positivity)) (le_trans (by norm_num) hA))
  have h1 := (abs_le.mp (rhe_error (fl (A / t)))).1
  have h3 : A / t * (1 - 1 / 2 ^ 52) - 1 / 2 ≤ (roundHalfEven (fl (A / t)) : ℝ) := by linarith
  have h4 := mul_le_mul_of_nonneg_right h3 h0.le
  have h5 : (A / t * (1 - 1 / 2 ^ 52) - 1 / 2) * t = A * (1 - 1 / 2 ^ 52) - t / 2 := by
    field_simp
  rw [h5] at h4
  norm_num at *
  linarith

/-- A sum of a product, rounded twice, of the size of an angle. -/
theorem side_sum_close {o x y : ℝ} (ho : |o| ≤ 180) (h0 : 0 ≤ x) (h1 : x ≤ 500) (hy : |y - x| ≤ 2 / 10 ^ 13) :
    |fl (o + fl y) - (o + x)| ≤ 5 / 10 ^ 13 := by
  have e1 := fl_close' y
  have e2 := fl_close' (o + fl y)
  rw [abs_le] at ho hy
  have a1 : |y| ≤ 501 := by rw [abs_le]; norm_num at *; constructor <;> linarith
  have a2 : |fl y - y| ≤ 1 / 10 ^ 13 := e1.trans (by norm_num at *; linarith)
  rw [abs_le] at a2
  have a3 : |o + fl y| ≤ 700 := by rw [abs_le]; norm_num at *; constructor <;> linarith
  have a4 : |fl (o + fl y) - (o + fl y)| ≤ 1 / 10 ^ 13 := e2.trans (by norm_num at *; linarith)
  rw [abs_le] at a4 ⊢
  norm_num at *
  constructor <;> linarith

theorem side_close {t o : ℝ} {i : ℤ} (ho : |o| ≤ 180) (h0 : 0 ≤ (i : ℝ) * t) (h1 : (i : ℝ) * t ≤ 500) :
    |side t o i - (o + i * t)| ≤ 5 / 10 ^ 13 :=
  side_sum_close ho h0 h1 (by rw [sub_self, abs_zero]; positivity)

theorem middle_close {t o : ℝ} {i : ℤ} (ho : |o| ≤ 180) (ht0 : 0 < t) (ht : t ≤ 180) (hi : 0 ≤ i) (h1 : (i : ℝ) * t ≤ 400) :
    |fl (o + fl (fl (i + 0.5) * t)) - (o + (i + 1 / 2) * t)| ≤ 5 / 10 ^ 13 := by
  have hi' : (0 : ℝ) ≤ i := by exact_mod_cast hi
  have h2 : ((i : ℝ) + 1 / 2) * t ≤ 490 := by linarith
  have h3 : 0 ≤ ((i : ℝ) + 1 / 2) * t := by positivity
  refine side_sum_close ho h3 (by linarith) ?_
  have e : ((i : ℝ) + 0.5) = i + 1 / 2 := by norm_num
  rw [e, ← sub_mul, abs_mul, abs_of_pos ht0]
  have := fl_close' ((i : ℝ) + 1 / 2)
  rw [abs_of_nonneg (by positivity : (0 : ℝ) ≤ (i : ℝ) + 1 / 2)] at this
  have h4 := mul_le_mul_of_nonneg_right this ht0.le
  have h5 : (((i : ℝ) + 1 / 2) / 2 ^ 53 + 1 / 2 ^ 100) * t = ((i : ℝ) + 1 / 2) * t / 2 ^ 53 + t / 2 ^ 100 := by ring
  rw [h5] at h4
  refine h4.trans ?_
  norm_num at *
  linarith

theorem side_zero {t o : ℝ} (ho : IsDouble o) : side t o 0 = o := by
  unfold side
  have : IsDouble (0 : ℝ) := by exact_mod_cast double_int (n := 0) (by norm_num)
  simp only [Int.cast_zero, zero_mul, fl_of_double this, add_zero, fl_of_double ho]

/-- Sides of larger indices lie further on. -/
theorem side_lt {t o : ℝ} {i j : ℤ} (ho : |o| ≤ 180) (ht : 1 / 10 ^ 6 ≤ t) (hi : 0 ≤ i) (hij : i < j) (h1 : (j : ℝ) * t ≤ 500) :
    side t o i < side t o j := by
  have ht0 : 0 < t := lt_of_lt_of_le (by norm_num) ht
  have hi' : (0 : ℝ) ≤ i := by exact_mod_cast hi
  have hj : (i : ℝ) + 1 ≤ j := by exact_mod_cast hij
  have h2 : ((i : ℝ) + 1) * t ≤ j * t := mul_le_mul_of_nonneg_right hj ht0.le
  have h3 : 0 ≤ (i : ℝ) * t := by positivity
  have e1 := side_close (t := t) (o := o) (i := i) ho h3 (by linarith)
  have e2 := side_close (t := t) (o := o) (i := j) ho (by linarith) h1
  rw [abs_le] at e1 e2
  norm_num at *
  linarith

/-- The point of an index lies strictly between the sides of that index and of the next. -/
theorem side_middle {t o : ℝ} {i j : ℤ} (ho : |o| ≤ 180) (ht : 1 / 10 ^ 6 ≤ t) (ht2 : t ≤ 180) (hi : 0 ≤ i)
    (h1 : (i : ℝ) * t ≤ 400) (hj : 0 ≤ j) (h2 : (j : ℝ) * t ≤ 500) :
    (j ≤ i → side t o j < fl (o + fl (fl (i + 0.5) * t))) ∧ (i < j → fl (o + fl (fl (i + 0.5) * t)) < side t o j) := by
  have ht0 : 0 < t := lt_of_lt_of_le (by norm_num) ht
  have hj' : (0 : ℝ) ≤ j := by exact_mod_cast hj
  have h3 : 0 ≤ (j : ℝ) * t := by positivity
  have e1 := side_close (t := t) (o := o) (i := j) ho h3 h2
  have e2 := middle_close (t := t) (o := o) (i := i) ho ht0 ht2 hi h1
  rw [abs_le] at e1 e2
  constructor
  · intro h
    have h4 : (j : ℝ) * t ≤ i * t := mul_le_mul_of_nonneg_right (by exact_mod_cast h) ht0.le
    norm_num at *
    linarith
  · intro h
    have h4 : ((i : ℝ) + 1) * t ≤ j * t := mul_le_mul_of_nonneg_right (by exact_mod_cast h) ht0.le
    norm_num at *
    linarith

theorem between_sides (f : ℤ → ℝ) (x : ℝ) (h0 : f 0 ≤ x) : ∀ n : ℕ, x ≤ f n → 0 < n → ∃ i : ℤ, 0 ≤ i ∧ i < n ∧ f i ≤ x ∧ x ≤ f (i + 1) := by
  intro n
  induction n with
  | zero => intro _ h; omega
  | succ n ih =>
    intro hx _
    by_cases hn : x ≤ f n
    · rcases Nat.eq_zero_or_pos n with rfl | hp
      · exact ⟨0, le_rfl, by norm_num, h0, by simpa using hx⟩
      · obtain ⟨i, a, b, c⟩ := ih hn hp
        exact ⟨i, a, by push_cast; omega, c⟩
    · exact ⟨n, by omega, by push_cast; omega, (not_le.mp hn).le, by exact_mod_cast hx⟩

theorem mem_strip_indices {t : ℝ} {s : Option Strips} {i j : ℤ} (h0 : 0 < t) (h180 : t ≤ 180) (h : (i, j) ∈ stripIndices t s) :
    (0 ≤ i ∧ i < roundHalfEven (turn t)) ∧ 0 ≤ j ∧ j < roundHalfEven (fl (180 / t)) := by
  have hr := half_turn_ge h0 h180
  have hc : 0 < roundHalfEven (turn t) := by
    have := le_rhe (n := 2) (x := turn t) (by exact_mod_cast turn_ge h0 h180)
    omega
  match s with
  | none => exact mem_ieee_indices.mp h
  | some .lat =>
    simp only [stripIndices, List.mem_map, Prod.mk.injEq, mem_pyRange] at h
    obtain ⟨j', hj, rfl, rfl⟩ := h
    exact ⟨⟨le_rfl, hc⟩, hj⟩
  | some .lon =>
    simp only [stripIndices, List.mem_map, Prod.mk.injEq, mem_pyRange] at h
    obtain ⟨i', hi, rfl, rfl⟩ := h
    exact ⟨hi, le_rfl, hr⟩

theorem nodup_strip_indices (t : ℝ) (s : Option Strips) : (stripIndices t s).Nodup := by
  match s with
  | none => exact nodup_ieee_indices t
  | some .lat => exact (nodup_pyRange _ _).map (by intro a b h; simpa using h)
  | some .lon => exact (nodup_pyRange _ _).map (by intro a b h; simpa using h)

theorem interior_rectangle (w e s n : ℝ) : interior (rectangle w e s n) = Set.Ioo w e ×ˢ Set.Ioo s n := by
  have : rectangle w e s n = Set.Icc w e ×ˢ Set.Icc s n := by
    ext x
    simp only [rectangle, Set.mem_ofPred_eq, Set.mem_prod, Set.mem_Icc]
    tauto
  rw [this, interior_prod_eq, interior_Icc, interior_Icc]

/-- C151: points and cells of the same distance carry the same identifiers in the same order, and every point lies strictly
inside the cell in its place and in no other cell, with double precision numbers too. -/
theorem C151_points (d el : ℝ) (h1 : 1 ≤ d) (h2 : d ≤ 20000000) :
    (Ieee.gridPoints d el).map (·.id) = (Ieee.gridCells d el none).map (·.id) ∧
    ∀ k l, (hk : k < (Ieee.gridPoints d el).length) → (hl : l < (Ieee.gridCells d el none).length) →
      (((Ieee.gridPoints d el)[k].lon, (Ieee.gridPoints d el)[k].lat) ∈ (Ieee.gridCells d el none)[l].shape ↔ k = l) ∧
      (k = l → ((Ieee.gridPoints d el)[k].lon, (Ieee.gridPoints d el)[k].lat) ∈ interior (Ieee.gridCells d el none)[l].shape) := by
  obtain ⟨h0, h180, -, -⟩ := turn_close h1 h2
  have ht := step_ge h1 h2
  unfold Ieee.gridPoints Ieee.gridCells
  simp only [stripIndices]
  set t := Ieee.gridStep d with htd
  refine ⟨by rw [List.map_map, List.map_map]; rfl, ?_⟩
  intro k l hk hl
  simp only [List.length_map] at hk hl
  have mk := mem_ieee_indices.mp (show ((Ieee.gridIndices t)[k].1, (Ieee.gridIndices t)[k].2) ∈ _ from List.getElem_mem hk)
  have ml := mem_ieee_indices.mp (show ((Ieee.gridIndices t)[l].1, (Ieee.gridIndices t)[l].2) ∈ _ from List.getElem_mem hl)
  simp only [List.getElem_map, reduceCtorEq, if_false]
  have hnd := nodup_ieee_indices t
  generalize hp : (Ieee.gridIndices t)[k] = p at mk
  generalize hq : (Ieee.gridIndices t)[l] = q at ml
  have key : k = l ↔ p = q := by
    rw [← hp, ← hq]; exact (List.Nodup.getElem_inj_iff hnd).symm
  have b1 := index_le (A := 360) (i := p.1) h0 h180 (by norm_num) le_rfl mk.1.2.le
  have b2 := index_le (A := 180) (i := p.2) h0 h180 (by norm_num) (by norm_num) mk.2.2.le
  have c1 := index_le (A := 360) (i := p.1 + 1) h0 h180 (by norm_num) le_rfl mk.1.2
  have c2 := index_le (A := 180) (i := p.2 + 1) h0 h180 (by norm_num) (by norm_num) mk.2.2
  have d1 := index_le (A := 360) (i := q.1 + 1) h0 h180 (by norm_num) le_rfl ml.1.2
  have d2 := index_le (A := 180) (i := q.2 + 1) h0 h180 (by norm_num) (by norm_num) ml.2.2
  have tiny : (1 : ℝ) / 10 ^ 13 ≤ 1 := by norm_num
  have sub : ∀ i : ℤ, ((i + 1 : ℤ) : ℝ) * t = (i : ℝ) * t + t := by intro i; push_cast; ring
  rw [sub] at c1 c2 d1 d2
  have o1 : |(-180 : ℝ)| ≤ 180 := by norm_num
  have o2 : |(-90 : ℝ)| ≤ 180 := by norm_num
  have m1 := fun (j : ℤ) (hj : 0 ≤ j) (h : (j : ℝ) * t ≤ 500) =>
    side_middle (o := -180) (i := p.1) (j := j) o1 ht h180 mk.1.1 (by linarith) hj h
  have m2 := fun (j : ℤ) (hj : 0 ≤ j) (h : (j : ℝ) * t ≤ 500) =>
    side_middle (o := -90) (i := p.2) (j := j) o2 ht h180 mk.2.1 (by linarith) hj h
  have w := m1 q.1 ml.1.1 (by linarith)
  have e := m1 (q.1 + 1) (by have := ml.1.1; omega) (by rw [sub]; linarith)
  have s := m2 q.2 ml.2.1 (by linarith)
  have n := m2 (q.2 + 1) (by have := ml.2.1; omega) (by rw [sub]; linarith)
  have inside : p = q → (fl (-180 + fl (fl (p.1 + 0.5) * t)), fl (-90 + fl (fl (p.2 + 0.5) * t))) ∈
      interior (rectangle (side t (-180) q.1) (side t (-180) (q.1 + 1)) (side t (-90) q.2) (side t (-90) (q.2 + 1))) := by
    rintro rfl
    rw [interior_rectangle]
    exact ⟨⟨w.1 le_rfl, e.2 (by omega)⟩, s.1 le_rfl, n.2 (by omega)⟩
  rw [key]
  refine ⟨⟨?_, fun h => interior_subset (inside h)⟩, inside⟩
  rintro ⟨g1, g2, g3, g4⟩
  simp only at g1 g2 g3 g4
  have a1 : q.1 ≤ p.1 := by by_contra h; exact absurd (w.2 (by omega)) (not_lt.mpr g1)
  have a2 : p.1 < q.1 + 1 := by by_contra h; exact absurd (e.1 (by omega)) (not_lt.mpr g2)
  have a3 : q.2 ≤ p.2 := by by_contra h; exact absurd (s.2 (by omega)) (not_lt.mpr g3)
  have a4 : p.2 < q.2 + 1 := by by_contra h; exact absurd (n.1 (by omega)) (not_lt.mpr g4)
  exact Prod.ext (by omega) (by omega)

/-- C151: cells and strips do not overlap: no position is inside two of them. -/
theorem C151_disjoint (d el : ℝ) (h1 : 1 ≤ d) (h2 : d ≤ 20000000) (s : Option Strips) (k l : ℕ)
    (hk : k < (Ieee.gridCells d el s).length) (hl : l < (Ieee.gridCells d el s).length) (hkl : k ≠ l) :
    Disjoint (interior (Ieee.gridCells d el s)[k].shape) (interior (Ieee.gridCells d el s)[l].shape) := by
  obtain ⟨h0, h180, -, -⟩ := turn_close h1 h2
  have ht := step_ge h1 h2
  unfold Ieee.gridCells at *
  set t := Ieee.gridStep d with htd
  simp only [List.length_map] at hk hl
  have mk := mem_strip_indices h0 h180 (show ((stripIndices t s)[k].1, (stripIndices t s)[k].2) ∈ _ from List.getElem_mem hk)
  have ml := mem_strip_indices h0 h180 (show ((stripIndices t s)[l].1, (stripIndices t s)[l].2) ∈ _ from List.getElem_mem hl)
  simp only [List.getElem_map]
  have hne : (stripIndices t s)[k] ≠ (stripIndices t s)[l] :=
    fun h => hkl ((List.Nodup.getElem_inj_iff (nodup_strip_indices t s)).mp h)
  have lat0 : s = some .lat → (stripIndices t s)[k].1 = (stripIndices t s)[l].1 := by
    intro h; subst h; simp [stripIndices]
  have lon0 : s = some .lon → (stripIndices t s)[k].2 = (stripIndices t s)[l].2 := by
    intro h; subst h; simp [stripIndices]
  generalize (stripIndices t s)[k] = p at mk hne lat0 lon0
  generalize (stripIndices t s)[l] = q at ml hne lat0 lon0
  rw [interior_rectangle, interior_rectangle, Set.disjoint_left]
  rintro x ⟨⟨x1, x2⟩, x3, x4⟩ ⟨⟨y1, y2⟩, y3, y4⟩
  have tiny : (1 : ℝ) / 10 ^ 13 ≤ 1 := by norm_num
  have mono : ∀ (o : ℝ) (i j : ℤ), |o| ≤ 180 → 0 ≤ i → i ≤ j → (j : ℝ) * t ≤ 500 → side t o i ≤ side t o j := by
    intro o i j ho hi hij h
    rcases hij.lt_or_eq with h' | rfl
    · exact (side_lt ho ht hi h' h).le
    · exact le_rfl
  have ord : ∀ (o A : ℝ) (i j : ℤ) (z : ℝ), |o| ≤ 180 → 90 ≤ A → A ≤ 360 → 0 ≤ i → 0 ≤ j →
      i < roundHalfEven (fl (A / t)) → j < roundHalfEven (fl (A / t)) →
      side t o i < z → z < side t o (i + 1) → side t o j < z → z < side t o (j + 1) → i = j := by
    intro o A i j z ho hA hA2 hi hj hi2 hj2 z1 z2 z3 z4
    have bi := index_le (A := A) (i := i) h0 h180 hA hA2 hi2.le
    have bj := index_le (A := A) (i := j) h0 h180 hA hA2 hj2.le
    rcases lt_trichotomy i j with h | h | h
    · have := mono o (i + 1) j ho (by omega) (by omega) (by linarith)
      linarith
    · exact h
    · have := mono o (j + 1) i ho (by omega) (by omega) (by linarith)
      linarith
  apply hne
  refine Prod.ext ?_ ?_
  · by_cases hs : s = some .lat
    · exact lat0 hs
    · simp only [hs, if_false] at x1 x2 y1 y2
      exact ord (-180) 360 p.1 q.1 x.1 (by norm_num) (by norm_num) le_rfl mk.1.1 ml.1.1 mk.1.2 ml.1.2 x1 x2 y1 y2
  · by_cases hs : s = some .lon
    · exact lon0 hs
    · simp only [hs, if_false] at x3 x4 y3 y4
      exact ord (-90) 180 p.2 q.2 x.2 (by norm_num) (by norm_num) (by norm_num) mk.2.1 ml.2.1 mk.2.2 ml.2.2 x3 x4 y3 y4

/-- C151: cells and strips leave no gaps: every position lies in one of them, unless it lies within half a step of the
antimeridian in the east or of the north pole; and none reaches further than half a step beyond these (10⁻¹² degrees is a
tenth of a micrometre). -/
theorem C151_cover (d el : ℝ) (h1 : 1 ≤ d) (h2 : d ≤ 20000000) (s : Option Strips) :
    (∀ lon lat : ℝ, -180 ≤ lon → lon ≤ 180 - Ieee.gridStep d / 2 - 1 / 10 ^ 12 →
      -90 ≤ lat → lat ≤ 90 - Ieee.gridStep d / 2 - 1 / 10 ^ 12 → ∃ c ∈ Ieee.gridCells d el s, (lon, lat) ∈ c.shape) ∧
    ∀ c ∈ Ieee.gridCells d el s, ∀ p ∈ c.shape, -180 ≤ p.1 ∧ p.1 ≤ 180 + Ieee.gridStep d / 2 + 1 / 10 ^ 12 ∧
      -90 ≤ p.2 ∧ p.2 ≤ 90 + Ieee.gridStep d / 2 + 1 / 10 ^ 12 := by
  obtain ⟨h0, h180, -, -⟩ := turn_close h1 h2
  have ht := step_ge h1 h2
  set t := Ieee.gridStep d with htd
  have tiny : (1 : ℝ) / 10 ^ 13 ≤ 1 := by norm_num
  have t12 : (1 : ℝ) / 10 ^ 13 + 5 / 10 ^ 13 ≤ 1 / 10 ^ 12 := by norm_num
  have p12 : (0 : ℝ) < 1 / 10 ^ 12 := by norm_num
  have D : ∀ n : ℤ, |n| < 2 ^ 53 → IsDouble ((n : ℝ)) := fun n h => double_int h
  have D1 : IsDouble (-180 : ℝ) := by have := D (-180) (by norm_num); push_cast at this; exact this
  have D2 : IsDouble (-90 : ℝ) := by have := D (-90) (by norm_num); push_cast at this; exact this
  have hr := half_turn_ge h0 h180
  have hc : 0 < roundHalfEven (turn t) := by
    have := le_rhe (n := 2) (x := turn t) (by exact_mod_cast turn_ge h0 h180)
    omega
  have find : ∀ (o A x : ℝ), IsDouble o → |o| ≤ 180 → 90 ≤ A → A ≤ 360 → 0 < roundHalfEven (fl (A / t)) → o ≤ x →
      x ≤ o + A - t / 2 - 1 / 10 ^ 12 →
      ∃ i : ℤ, 0 ≤ i ∧ i < roundHalfEven (fl (A / t)) ∧ side t o i ≤ x ∧ x ≤ side t o (i + 1) := by
    intro o A x hD ho hA hA2 hpos hx hx2
    obtain ⟨n, hn⟩ := Int.eq_ofNat_of_zero_le hpos.le
    have lo := index_ge (A := A) h0 h180 hA hA2
    have hi := index_le (A := A) (i := roundHalfEven (fl (A / t))) h0 h180 hA hA2 le_rfl
    have hnn : (0 : ℝ) ≤ roundHalfEven (fl (A / t)) := by exact_mod_cast hpos.le
    have cl := side_close (t := t) (o := o) (i := roundHalfEven (fl (A / t))) ho (by positivity) (by linarith)
    have hn0 : 0 < n := by omega
    rw [hn] at cl lo ⊢
    rw [abs_le] at cl
    obtain ⟨i, a, b, c⟩ := between_sides (side t o) x (by rw [side_zero hD]; exact hx) n (by
      linarith) hn0
    exact ⟨i, a, b, c⟩
  have reach : ∀ (o A x : ℝ) (i : ℤ), IsDouble o → |o| ≤ 180 → 90 ≤ A → A ≤ 360 → 0 ≤ i → i < roundHalfEven (fl (A / t)) →
      side t o i ≤ x → x ≤ side t o (i + 1) → o ≤ x ∧ x ≤ o + A + t / 2 + 1 / 10 ^ 12 := by
    intro o A x i hD ho hA hA2 hi hi2 x1 x2
    have hi' : (0 : ℝ) ≤ i := by exact_mod_cast hi
    have b := index_le (A := A) (i := i + 1) h0 h180 hA hA2 hi2
    have cl := side_close (t := t) (o := o) (i := i + 1) ho (by push_cast; positivity) (by linarith)
    rw [abs_le] at cl
    refine ⟨?_, by linarith⟩
    refine le_trans ?_ x1
    rcases hi.lt_or_eq with h | rfl
    · have := side_lt (t := t) (o := o) ho ht le_rfl h (by push_cast at b; linarith)
      rw [side_zero hD] at this
      exact this.le
    · rw [side_zero hD]
  constructor
  · intro lon lat a1 a2 a3 a4
    obtain ⟨i, i1, i2, i3, i4⟩ := find (-180) 360 lon D1 (by norm_num) (by norm_num) le_rfl hc a1 (by linarith)
    obtain ⟨j, j1, j2, j3, j4⟩ := find (-90) 180 lat D2 (by norm_num) (by norm_num) (by norm_num) hr a3 (by linarith)
    unfold Ieee.gridCells
    match s with
    | none =>
      refine ⟨_, List.mem_map.mpr ⟨(i, j), mem_ieee_indices.mpr ⟨⟨i1, i2⟩, j1, j2⟩, rfl⟩, ?_⟩
      simp only [reduceCtorEq, if_false]
      exact ⟨i3, i4, j3, j4⟩
    | some .lat =>
      refine ⟨_, List.mem_map.mpr ⟨(0, j), List.mem_map.mpr ⟨j, mem_pyRange.mpr ⟨j1, j2⟩, rfl⟩, rfl⟩, ?_⟩
      simp only [reduceCtorEq, if_false, if_true, Option.some.injEq]
      exact ⟨a1, by simp only; linarith, j3, j4⟩
    | some .lon =>
      refine ⟨_, List.mem_map.mpr ⟨(i, 0), List.mem_map.mpr ⟨i, mem_pyRange.mpr ⟨i1, i2⟩, rfl⟩, rfl⟩, ?_⟩
      simp only [reduceCtorEq, if_false, if_true, Option.some.injEq]
      exact ⟨i3, i4, a3, by simp only; linarith⟩
  · intro c hc p hp
    unfold Ieee.gridCells at hc
    obtain ⟨⟨i, j⟩, hm, rfl⟩ := List.mem_map.mp hc
    have m := mem_strip_indices h0 h180 hm
    obtain ⟨g1, g2, g3, g4⟩ := hp
    have A1 : -180 ≤ p.1 ∧ p.1 ≤ 180 + t / 2 + 1 / 10 ^ 12 := by
      by_cases hs : s = some .lat
      · simp only [hs, if_true] at g1 g2
        exact ⟨g1, by linarith⟩
      · simp only [hs, if_false] at g1 g2
        have := reach (-180) 360 p.1 i D1 (by norm_num) (by norm_num) le_rfl m.1.1 m.1.2 g1 g2
        exact ⟨this.1, by linarith [this.2]⟩
    have A2 : -90 ≤ p.2 ∧ p.2 ≤ 90 + t / 2 + 1 / 10 ^ 12 := by
      by_cases hs : s = some .lon
      · simp only [hs, if_true] at g3 g4
        exact ⟨g3, by linarith⟩
      · simp only [hs, if_false] at g3 g4
        have := reach (-90) 180 p.2 j D2 (by norm_num) (by norm_num) (by norm_num) m.2.1 m.2.2 g3 g4
        exact ⟨this.1, by linarith [this.2]⟩
    exact ⟨A1.1, A1.2, A2.1, A2.2⟩

/-- Witness: the hypotheses are those of a distance; 5,000 km gives a grid with cells. -/
example : (1 : ℝ) ≤ 5000000 ∧ (5000000 : ℝ) ≤ 20000000 ∧ Ieee.gridCells 5000000 0 none ≠ [] := by
  refine ⟨by norm_num, by norm_num, ?_⟩
  obtain ⟨h0, h180, -, -⟩ := turn_close (d := 5000000) (by norm_num) (by norm_num)
  have hr := half_turn_ge h0 h180
  have hc := le_rhe (n := 2) (x := turn (Ieee.gridStep 5000000)) (by exact_mod_cast turn_ge h0 h180)
  intro h
  unfold Ieee.gridCells at h
  rw [List.map_eq_nil_iff] at h
  have := (mem_ieee_indices (t := Ieee.gridStep 5000000) (i := 0) (j := 0)).mpr ⟨⟨le_rfl, by omega⟩, le_rfl, hr⟩
  rw [stripIndices] at h
  rw [h] at this
  simp at this

end Tatc.Props
