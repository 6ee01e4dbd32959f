import Verif.Model.PointSchema
import Verif.Props.RoundedCells
import Verif.Props.RoundedLattice

/-!
# C152: generated rows are points
-/

namespace Tatc.Props
open Tatc.Num Tatc.Ieee Tatc.Generation
open scoped Classical

/-- A row of a frame of points makes a `Point` with the same identifier, position and elevation. -/
def MakesPoint (p : PointRow) : Prop := GeoPoint.make p.id p.lat p.lon p.elevation = .ok ⟨p.id, p.lat, p.lon, p.elevation⟩

theorem makesPoint_iff (p : PointRow) :
    MakesPoint p ↔ 0 ≤ p.id ∧ (-90 ≤ p.lat ∧ p.lat ≤ 90) ∧ -180 ≤ p.lon ∧ p.lon ≤ 180 := by
  unfold MakesPoint GeoPoint.make require
  by_cases h1 : 0 ≤ p.id <;> by_cases h2 : -90 ≤ p.lat ∧ p.lat ≤ 90 <;> by_cases h3 : -180 ≤ p.lon ∧ p.lon ≤ 180 <;>
    simp [h1, h2, h3, bind, Except.bind, pure, Except.pure]

/-- C152: every row of the Fibonacci lattice makes a point. -/
theorem C152_lattice (clip : Clip) (surface d elevation : ℝ) (hs : 1 ≤ surface) (hs2 : surface ≤ 5.2e14) (h0 : 1 ≤ d)
    (h1 : d ≤ 20000000) :
    ∃ pts, latticePoints clip surface d elevation none = .ok pts ∧ ∀ p ∈ pts, MakesPoint p := by
  obtain ⟨n, pts, hn, hp, hl, hall, -, -⟩ := C146_lattice clip surface d elevation hs hs2 h0 h1
  refine ⟨pts, hp, ?_⟩
  intro p hm
  obtain ⟨i, hi, rfl⟩ := List.getElem_of_mem hm
  obtain ⟨a, -, b1, b2, b3, b4, -, -⟩ := hall i hi
  rw [makesPoint_iff]
  exact ⟨by rw [a]; omega, ⟨b1.le, b2.le⟩, b3.le, b4⟩

/-- The last index gives a point before the end of the range, unless the number of steps is rounded from a half. -/
theorem middle_le {t A : ℝ} {i : ℤ} (h0 : 0 < t) (hi : 0 ≤ i) (hi2 : i < roundHalfEven (fl (A / t)))
    (hbig : fl (A / t) < 2 ^ 51) (hA : IsDouble A) (hf : Int.fract (fl (A / t)) ≠ 1 / 2) : fl (fl (i + 0.5) * t) ≤ A := by
  have hD : IsDouble ((i : ℝ) + 0.5) := by
    have e := (abs_le.mp (rhe_error (fl (A / t)))).2
    have b : (i : ℝ) + 1 ≤ roundHalfEven (fl (A / t)) := by exact_mod_cast hi2
    have c : (i : ℝ) < 2 ^ 51 := by
      norm_num at *
      linarith
    have c' : i < 2 ^ 51 := by exact_mod_cast c
    refine ⟨2 * i + 1, -1, ?_, by norm_num, ?_⟩
    · rw [abs_of_nonneg (by omega)]; norm_num at c' ⊢; omega
    · push_cast; norm_num; ring
  rw [fl_of_double hD]
  have key : (i : ℝ) + 0.5 ≤ A / t := by
    by_contra hlt
    push Not at hlt
    have h1 := fl_le hD hlt.le
    have h2 : roundHalfEven (fl (A / t)) ≤ i := by
      rcases h1.lt_or_eq with h | h
      · have := (abs_le.mp (rhe_error (fl (A / t)))).2
        have : (roundHalfEven (fl (A / t)) : ℝ) < (i : ℝ) + 1 := by norm_num at *; linarith
        have : roundHalfEven (fl (A / t)) < i + 1 := by exact_mod_cast this
        omega
      · exfalso
        apply hf
        rw [h, Int.fract_intCast_add, Int.fract_eq_self.mpr (by norm_num)]
        norm_num
    omega
  rw [le_div_iff₀ h0] at key
  exact fl_le hA key

theorem middle_nonneg {t : ℝ} {i : ℤ} (h0 : 0 < t) (hi : 0 ≤ i) : 0 ≤ fl (fl (i + 0.5) * t) := by
  have hi' : (0 : ℝ) ≤ i := by exact_mod_cast hi
  have z : IsDouble (0 : ℝ) := by exact_mod_cast double_int (n := 0) (by norm_num)
  exact le_fl z (mul_nonneg (le_fl z (by positivity)) h0.le)

/-- The two quotients and what they stand for. -/
theorem turns_close {d : ℝ} (h1 : 1 ≤ d) (h2 : d ≤ 20000000) :
    |turn (Ieee.gridStep d) - circumference / d| ≤ 1 / 10 ^ 7 ∧
    |fl (180 / Ieee.gridStep d) - circumference / (2 * d)| ≤ 2 / 10 ^ 7 ∧ circumference / d ≤ 40030240 := by
  obtain ⟨h0, h180, q1, q2⟩ := turn_close h1 h2
  have hC := circumference_lt
  have hC0 : 0 < circumference := by unfold circumference earthMeanRadius; have := Real.pi_pos; positivity
  have hd : circumference / d ≤ 40030240 := by
    rw [div_le_iff₀ (by linarith)]; nlinarith
  have hd0 : 0 < circumference / d := by positivity
  have big : ∀ A : ℝ, 90 ≤ A → 1 / 2 ^ 100 ≤ A / Ieee.gridStep d := by
    intro A hA
    rw [le_div_iff₀ h0]
    refine le_trans (mul_le_mul_of_nonneg_left h180 (by positivity)) (le_trans (by norm_num) hA)
  obtain ⟨p1, p2⟩ := fl_between (big 180 (by norm_num))
  obtain ⟨r1, r2⟩ := fl_between (big 360 (by norm_num))
  have r1' : 360 / Ieee.gridStep d * (1 - 1 / 2 ^ 52) ≤ turn (Ieee.gridStep d) := r1
  have r2' : turn (Ieee.gridStep d) ≤ 360 / Ieee.gridStep d * (1 + 1 / 2 ^ 52) := r2
  have e1 : 360 / Ieee.gridStep d = 2 * (180 / Ieee.gridStep d) := by ring
  have e2 : circumference / (2 * d) = circumference / d / 2 := by field_simp
  rw [e1] at r1' r2'
  rw [e2]
  generalize 180 / Ieee.gridStep d = x at *
  generalize turn (Ieee.gridStep d) = q at *
  generalize circumference / d = c at *
  have a1 : |q - c| ≤ 1 / 10 ^ 7 := by rw [abs_le]; norm_num at *; constructor <;> linarith
  refine ⟨a1, ?_, hd⟩
  rw [abs_le] at a1 ⊢
  norm_num at *
  constructor <;> linarith

theorem not_half {x y : ℝ} (h : |x - y| ≤ 2 / 10 ^ 7) (hy : ∀ n : ℤ, 1 / 10 ^ 6 ≤ |y - (n + 1 / 2)|) : Int.fract x ≠ 1 / 2 := by
  intro hf
  have h1 := hy ⌊x⌋
  have h2 : x = ⌊x⌋ + 1 / 2 := by rw [← hf]; exact (Int.floor_add_fract x).symm
  rw [← h2, abs_sub_comm] at h1
  have := h1.trans h
  norm_num at this

theorem grid_id_nonneg {t : ℝ} {i j : ℤ} (h0 : 0 < t) (h180 : t ≤ 180) (hj : 0 ≤ j) : 0 ≤ Ieee.pointId i j t := by
  have h := turn_ge h0 h180
  have hp : 2 ≤ pyInt (turn t) := by
    unfold pyInt
    rw [if_pos (by linarith), Int.le_floor]
    exact_mod_cast h
  unfold Ieee.pointId
  have := Int.emod_nonneg i (b := pyInt (turn t)) (by omega)
  have : 0 ≤ j * pyInt (turn t) := by positivity
  omega

/-- C152: every row of the equally spaced points makes a point, if the number of columns, and of rows, that fit on the globe
is not within a millionth of a half. Missing: these distances, for which it is false. -/
theorem C152_grid_partial (d el : ℝ) (h1 : 1 ≤ d) (h2 : d ≤ 20000000)
    (hc : ∀ n : ℤ, 1 / 10 ^ 6 ≤ |circumference / d - (n + 1 / 2)|)
    (hr : ∀ n : ℤ, 1 / 10 ^ 6 ≤ |circumference / (2 * d) - (n + 1 / 2)|) :
    ∀ p ∈ Ieee.gridPoints d el, MakesPoint p := by
  obtain ⟨h0, h180, -, -⟩ := turn_close h1 h2
  obtain ⟨k1, k2, k3⟩ := turns_close h1 h2
  have f1 := not_half (k1.trans (by norm_num)) hc
  have f2 := not_half k2 hr
  have e2 : circumference / (2 * d) = circumference / d / 2 := by field_simp
  rw [e2] at k2
  rw [abs_le] at k1 k2
  intro p hp
  unfold Ieee.gridPoints at hp
  simp only [List.mem_map] at hp
  obtain ⟨⟨i, j⟩, hm, rfl⟩ := hp
  obtain ⟨⟨i1, i2⟩, j1, j2⟩ := mem_ieee_indices.mp hm
  rw [makesPoint_iff]
  have D : ∀ n : ℤ, |n| < 2 ^ 53 → IsDouble ((n : ℝ)) := fun n h => double_int h
  have D1 : IsDouble (-180 : ℝ) := by have := D (-180) (by norm_num); push_cast at this; exact this
  have D2 : IsDouble (-90 : ℝ) := by have := D (-90) (by norm_num); push_cast at this; exact this
  have D3 : IsDouble (180 : ℝ) := by have := D 180 (by norm_num); push_cast at this; exact this
  have D4 : IsDouble (90 : ℝ) := by have := D 90 (by norm_num); push_cast at this; exact this
  have D5 : IsDouble (360 : ℝ) := by have := D 360 (by norm_num); push_cast at this; exact this
  have m1 := middle_le (A := 360) h0 i1 i2 (by
    have : turn (Ieee.gridStep d) < 2 ^ 51 := by norm_num at *; linarith
    exact this) D5 f1
  have m2 := middle_le (A := 180) h0 j1 j2 (by norm_num at *; linarith) D3 f2
  have n1 := middle_nonneg h0 i1
  have n2 := middle_nonneg h0 j1
  exact ⟨grid_id_nonneg h0 h180 j1, ⟨le_fl D2 (by linarith), fl_le D4 (by linarith)⟩, le_fl D1 (by linarith),
    fl_le D3 (by linarith)⟩

/-- Witness: points 100 km apart. -/
example : (∀ n : ℤ, 1 / 10 ^ 6 ≤ |circumference / 100000 - (n + 1 / 2)|) ∧
    ∀ n : ℤ, 1 / 10 ^ 6 ≤ |circumference / (2 * 100000) - (n + 1 / 2)| := by
  have h1 := circumference_lt
  have h2 : 40030000 < circumference := by
    unfold circumference earthMeanRadius
    have := Real.pi_gt_d6
    norm_num at *
    linarith
  have far : ∀ (x : ℝ) (m n : ℤ), (m : ℝ) - 1 / 2 + 1 / 10 ^ 6 ≤ x → x ≤ m + 1 / 2 - 1 / 10 ^ 6 → 1 / 10 ^ 6 ≤ |x - (n + 1 / 2)| := by
    intro x m n a b
    rw [le_abs]
    rcases le_or_gt m n with h | h
    · have : (m : ℝ) ≤ n := by exact_mod_cast h
      right; linarith
    · have : (n : ℝ) + 1 ≤ m := by exact_mod_cast h
      left; linarith
  constructor <;> intro n
  · exact far _ 400 n (by norm_num; linarith) (by norm_num; linarith)
  · exact far _ 200 n (by norm_num; linarith) (by norm_num; linarith)

/-- C152: with any distance the rows lie in the range of a point to 10⁻¹² degrees (a tenth of a micrometre). -/
theorem C152_close (d el : ℝ) (h1 : 1 ≤ d) (h2 : d ≤ 20000000) :
    ∀ p ∈ Ieee.gridPoints d el, 0 ≤ p.id ∧ -90 ≤ p.lat ∧ p.lat ≤ 90 + 1 / 10 ^ 12 ∧ -180 ≤ p.lon ∧ p.lon ≤ 180 + 1 / 10 ^ 12 := by
  obtain ⟨h0, h180, -, -⟩ := turn_close h1 h2
  intro p hp
  unfold Ieee.gridPoints at hp
  simp only [List.mem_map] at hp
  obtain ⟨⟨i, j⟩, hm, rfl⟩ := hp
  obtain ⟨⟨i1, i2⟩, j1, j2⟩ := mem_ieee_indices.mp hm
  have b1 := index_le (A := 360) (i := i + 1) h0 h180 (by norm_num) le_rfl i2
  have b2 := index_le (A := 180) (i := j + 1) h0 h180 (by norm_num) (by norm_num) j2
  have D : ∀ n : ℤ, |n| < 2 ^ 53 → IsDouble ((n : ℝ)) := fun n h => double_int h
  have D1 : IsDouble (-180 : ℝ) := by have := D (-180) (by norm_num); push_cast at this; exact this
  have D2 : IsDouble (-90 : ℝ) := by have := D (-90) (by norm_num); push_cast at this; exact this
  have n1 := middle_nonneg h0 i1
  have n2 := middle_nonneg h0 j1
  have tiny : (1 : ℝ) / 10 ^ 13 + 5 / 10 ^ 13 ≤ 1 / 10 ^ 12 := by norm_num
  have tiny' : (1 : ℝ) / 10 ^ 13 ≤ 1 := by norm_num
  push_cast at b1 b2
  have c1 := middle_close (o := -180) (i := i) (by norm_num) h0 h180 i1 (by nlinarith)
  have c2 := middle_close (o := -90) (i := j) (by norm_num) h0 h180 j1 (by nlinarith)
  rw [abs_le] at c1 c2
  exact ⟨grid_id_nonneg h0 h180 j1, le_fl D2 (by linarith), by simp only; linarith [c2.2], le_fl D1 (by linarith),
    by simp only; linarith [c1.2]⟩

/-- The double precision number nearest to the 571st part of the circumference. -/
noncomputable def part571 : ℝ := 4817611856731007 / 2 ^ 36

/-- Refuted: with the distance of the 571st part of the circumference the last row of points has latitude
90.00000000000003, and its rows do not make points. -/
theorem C152_grid_false (el : ℝ) : IsDouble part571 ∧ |571 * part571 - circumference| ≤ 1 / 10 ^ 7 ∧
    ∃ p ∈ Ieee.gridPoints part571 el, p.lat = 90 + 1 / 2 ^ 45 ∧ GeoPoint.make p.id p.lat p.lon p.elevation = .error .validationError := by
  have h1 : fl (part571 / earthMeanRadius) = (6343274481678742 : ℤ) * 2 ^ (-59 : ℤ) := by
    apply fl_eq_of (by norm_num) <;> unfold part571 earthMeanRadius
    · rw [abs_of_pos (by positivity)]; norm_num
    · rw [abs_of_pos (by positivity)]; norm_num
    · rw [abs_lt]; norm_num
  have h2 : fl ((6343274481678742 : ℤ) * 2 ^ (-59 : ℤ) * degreeFactor) = (5678794626456668 : ℤ) * 2 ^ (-53 : ℤ) := by
    apply fl_eq_of (by norm_num) <;> unfold degreeFactor
    · rw [abs_of_pos (by norm_num)]; norm_num
    · rw [abs_of_pos (by norm_num)]; norm_num
    · rw [abs_lt]; norm_num
  have h3 : fl (180 / ((5678794626456668 : ℤ) * 2 ^ (-53 : ℤ))) = (5022569115680768 : ℤ) * 2 ^ (-44 : ℤ) := by
    apply fl_eq_of (by norm_num)
    · rw [abs_of_pos (by norm_num)]; norm_num
    · rw [abs_of_pos (by norm_num)]; norm_num
    · rw [abs_lt]; norm_num
  have h4 : fl ((571 / 2 : ℝ) * ((5678794626456668 : ℤ) * 2 ^ (-53 : ℤ))) = (6333186975989761 : ℤ) * 2 ^ (-45 : ℤ) := by
    apply fl_eq_of (by norm_num)
    · rw [abs_of_pos (by norm_num)]; norm_num
    · rw [abs_of_pos (by norm_num)]; norm_num
    · rw [abs_lt]; norm_num
  have hs : Ieee.gridStep part571 = (5678794626456668 : ℤ) * 2 ^ (-53 : ℤ) := by unfold Ieee.gridStep; rw [h1, h2]
  have hr : roundHalfEven (fl (180 / Ieee.gridStep part571)) = 286 := by
    rw [hs, h3]
    exact rhe_tie (by norm_num) (by norm_num) (by norm_num)
  have hh : IsDouble (((285 : ℤ) : ℝ) + 0.5) := ⟨571, -1, by norm_num, by norm_num, by norm_num⟩
  have hlat : fl (-90 + fl (fl (((285 : ℤ) : ℝ) + 0.5) * Ieee.gridStep part571)) = 90 + 1 / 2 ^ 45 := by
    rw [fl_of_double hh, hs, show (((285 : ℤ) : ℝ) + 0.5) = 571 / 2 by norm_num, h4]
    have : (-90 + (6333186975989761 : ℤ) * 2 ^ (-45 : ℤ) : ℝ) = 90 + 1 / 2 ^ 45 := by norm_num
    rw [this]
    exact fl_of_double ⟨3166593487994881, -45, by norm_num, by norm_num, by norm_num⟩
  have h0 : 0 < Ieee.gridStep part571 := by rw [hs]; norm_num
  have h180 : Ieee.gridStep part571 ≤ 180 := by rw [hs]; norm_num
  refine ⟨⟨4817611856731007, -36, by norm_num, by norm_num, by unfold part571; norm_num⟩, ?_, ?_⟩
  · have h1 := Real.pi_gt_d20
    have h2 := Real.pi_lt_d20
    unfold part571 circumference earthMeanRadius
    rw [abs_le]
    norm_num at *
    constructor <;> linarith
  · have hc := le_rhe (n := 2) (x := turn (Ieee.gridStep part571)) (by exact_mod_cast turn_ge h0 h180)
    refine ⟨_, List.mem_map.mpr ⟨(0, 285), mem_ieee_indices.mpr ⟨⟨le_rfl, by omega⟩, by norm_num, by rw [hr]; norm_num⟩, rfl⟩, hlat, ?_⟩
    simp only
    rw [hlat]
    have hid := grid_id_nonneg (t := Ieee.gridStep part571) (i := 0) (j := 285) h0 h180 (by norm_num)
    unfold GeoPoint.make require
    rw [if_pos hid, if_neg (by norm_num)]
    rfl

end Tatc.Props
