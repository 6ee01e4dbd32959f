import Verif.Model.IeeeGrid
import Verif.Lemmas.Ieee
import Verif.Props.GridPoints
import Mathlib.Analysis.Real.Pi.Bounds

/-!
# C142: identifiers of equally spaced points, computed with double precision numbers
-/

namespace Tatc.Props
open Tatc.Num Tatc.Ieee Tatc.Generation
open scoped Classical

/-- The circumference of the Earth of the mean radius. -/
noncomputable def circumference : ℝ := 2 * Real.pi * earthMeanRadius

theorem pointId_eq {q t : ℝ} (hq : turn t = q) (i j : ℤ) : Ieee.pointId i j t = Generation.pointId i j (360 / q) (360 / q) := by
  unfold Ieee.pointId Generation.pointId
  rw [hq, div_div_cancel₀ (by norm_num : (360 : ℝ) ≠ 0)]

theorem mem_ieee_indices {t : ℝ} {i j : ℤ} : (i, j) ∈ Ieee.gridIndices t ↔
    (0 ≤ i ∧ i < roundHalfEven (turn t)) ∧ 0 ≤ j ∧ j < roundHalfEven (fl (180 / t)) := by
  unfold Ieee.gridIndices
  simp only [List.mem_flatMap, List.mem_map, Prod.mk.injEq, mem_pyRange]
  constructor
  · rintro ⟨j', hj, i', hi, rfl, rfl⟩; exact ⟨hi, hj⟩
  · rintro ⟨hi, hj⟩; exact ⟨j, hj, i, hi, rfl, rfl⟩

theorem nodup_ieee_indices (t : ℝ) : (Ieee.gridIndices t).Nodup :=
  nodup_product (nodup_pyRange _ _) (nodup_pyRange _ _)

theorem turn_ge {t : ℝ} (h0 : 0 < t) (h1 : t ≤ 180) : 2 ≤ turn t := by
  have : IsDouble (2 : ℝ) := by exact_mod_cast double_int (n := 2) (by norm_num)
  exact le_fl this (by rw [le_div_iff₀ h0]; linarith)

theorem half_turn_ge {t : ℝ} (h0 : 0 < t) (h1 : t ≤ 180) : 0 < roundHalfEven (fl (180 / t)) := by
  have : IsDouble (1 : ℝ) := by exact_mod_cast double_int (n := 1) (by norm_num)
  have h : 1 ≤ fl (180 / t) := le_fl this (by rw [le_div_iff₀ h0]; linarith)
  have := le_rhe (n := 1) (x := fl (180 / t)) (by exact_mod_cast h)
  omega

/-- The identifiers of the points are distinct exactly when the quotient of 360 degrees and the step, as rounded, is less than
one half above a whole number (or just one half above an even number). -/
theorem C142_unique_iff_partial (distance el : ℝ) (h0 : 0 < Ieee.gridStep distance) (h1 : Ieee.gridStep distance ≤ 180) :
    ((Ieee.gridPoints distance el).map (·.id)).Nodup ↔
      (Int.fract (turn (Ieee.gridStep distance)) < 1 / 2 ∨
        (Int.fract (turn (Ieee.gridStep distance)) = 1 / 2 ∧ Even ⌊turn (Ieee.gridStep distance)⌋)) := by
  set t := Ieee.gridStep distance with ht
  set q := turn t with hq
  have hq2 : 2 ≤ q := turn_ge h0 h1
  have hN : 2 ≤ ⌊q⌋ := Int.le_floor.mpr (by exact_mod_cast hq2)
  have hround := global_columns (360 / q)
  rw [div_div_cancel₀ (by norm_num : (360 : ℝ) ≠ 0)] at hround
  have hnarrow : NarrowEnough (360 / q) none ↔ (Int.fract q < 1 / 2 ∨ (Int.fract q = 1 / 2 ∧ Even ⌊q⌋)) := by
    show (Int.fract (360 / (360 / q)) < 1 / 2 ∨ (Int.fract (360 / (360 / q)) = 1 / 2 ∧ Even ⌊360 / (360 / q)⌋)) ↔ _
    rw [div_div_cancel₀ (by norm_num : (360 : ℝ) ≠ 0)]
  have hids : (Ieee.gridPoints distance el).map (·.id) =
      (Ieee.gridIndices t).map fun p => Generation.pointId p.1 p.2 (360 / q) (360 / q) := by
    unfold Ieee.gridPoints
    rw [List.map_map]
    refine List.map_congr_left fun p _ => ?_
    exact pointId_eq hq.symm p.1 p.2
  have hint : pyInt (360 / (360 / q)) = ⌊q⌋ := by
    rw [div_div_cancel₀ (by norm_num : (360 : ℝ) ≠ 0), pyInt_floor (by linarith)]
  rw [← hnarrow, hround, hids]
  constructor
  · intro hn
    by_contra hne
    have hlt : ⌊q⌋ < roundHalfEven q := by
      have : ⌊q⌋ ≤ roundHalfEven q := le_rhe (Int.floor_le q)
      omega
    have hr := half_turn_ge h0 h1
    have m1 : ((0 : ℤ), (0 : ℤ)) ∈ Ieee.gridIndices t := mem_ieee_indices.mpr ⟨⟨le_rfl, by rw [← hq]; omega⟩, le_rfl, hr⟩
    have m2 : (⌊q⌋, (0 : ℤ)) ∈ Ieee.gridIndices t := mem_ieee_indices.mpr ⟨⟨by omega, hlt⟩, le_rfl, hr⟩
    have := List.inj_on_of_nodup_map hn m1 m2 (by
      show Generation.pointId 0 0 _ _ = Generation.pointId ⌊q⌋ 0 _ _
      unfold Generation.pointId
      rw [hint]; simp)
    simp only [Prod.mk.injEq, and_true] at this
    omega
  · intro hr
    refine List.Nodup.map_on ?_ (nodup_ieee_indices t)
    rintro ⟨i, j⟩ hp ⟨i', j'⟩ hp' h
    rw [mem_ieee_indices] at hp hp'
    obtain ⟨e1, e2⟩ := pointId_inj ⌊q⌋ hint (by omega) (lo := 0) hp.1.1 (by rw [zero_add, ← hr]; exact hp.1.2)
      hp'.1.1 (by rw [zero_add, ← hr]; exact hp'.1.2) h
    exact Prod.ext e1 e2

/-! ## Distances -/

theorem fl_rel {x : ℝ} (h : (2 : ℝ) ^ (-1000 : ℤ) ≤ |x|) : |fl x - x| ≤ |x| / 2 ^ 52 := by
  refine (fl_close x).trans ?_
  have h1 : (2 : ℝ) ^ (-1075 : ℤ) ≤ |x| / 2 ^ 53 := by
    rw [le_div_iff₀ (by positivity)]
    refine le_trans ?_ h
    have : (2 : ℝ) ^ (-1075 : ℤ) * 2 ^ 53 = 2 ^ (-1022 : ℤ) := by
      rw [← zpow_natCast (2 : ℝ) 53, ← zpow_add₀ (by norm_num)]; norm_num
    rw [this]
    exact two_zpow_le (by norm_num)
  have h2 : |x| / 2 ^ 52 = |x| / 2 ^ 53 + |x| / 2 ^ 53 := by ring
  rw [h2]
  linarith

theorem fl_between {x : ℝ} (h : 1 / 2 ^ 100 ≤ x) : x * (1 - 1 / 2 ^ 52) ≤ fl x ∧ fl x ≤ x * (1 + 1 / 2 ^ 52) := by
  have hx : 0 < x := lt_of_lt_of_le (by positivity) h
  have := fl_rel (x := x) (by
    rw [abs_of_pos hx]
    refine le_trans ?_ h
    have : (1 : ℝ) / 2 ^ 100 = 2 ^ (-100 : ℤ) := by rw [zpow_neg]; norm_num
    rw [this]
    exact two_zpow_le (by norm_num))
  rw [abs_of_pos hx, abs_le] at this
  constructor <;> nlinarith [this.1, this.2]

theorem degreeFactor_between : 180 / Real.pi * (1 - 1 / 2 ^ 52) ≤ degreeFactor ∧ degreeFactor ≤ 180 / Real.pi * (1 + 1 / 2 ^ 52) := by
  have h1 := Real.pi_gt_d20
  have h2 := Real.pi_lt_d20
  have h0 := Real.pi_pos
  unfold degreeFactor
  constructor
  · rw [div_mul_eq_mul_div, div_le_iff₀ h0]
    norm_num at *
    linarith
  · rw [div_mul_eq_mul_div, le_div_iff₀ h0]
    norm_num at *
    linarith

theorem chain {a x y z q C e : ℝ} (ha : 0 < a) (hC : 0 < C) (he : e = 1 / 2 ^ 52) (hx1 : a * (1 - e) ≤ x) (hx2 : x ≤ a * (1 + e))
    (hy0 : 0 < y) (hz1 : x * y * (1 - e) ≤ z) (hz2 : z ≤ x * y * (1 + e)) (hy1 : C * (1 - e) ≤ y) (hy2 : y ≤ C * (1 + e))
    (hq1 : 360 / z * (1 - e) ≤ q) (hq2 : q ≤ 360 / z * (1 + e)) :
    360 / (a * C) * (1 - 8 * e) ≤ q ∧ q ≤ 360 / (a * C) * (1 + 8 * e) := by
  have e0 : 0 < e := by rw [he]; positivity
  have e1 : e < 1 / 100 := by rw [he]; norm_num
  have hx0 : 0 < x := lt_of_lt_of_le (mul_pos ha (by linarith)) hx1
  have hz0 : 0 < z := lt_of_lt_of_le (mul_pos (mul_pos hx0 hy0) (by linarith)) hz1
  have haC : 0 < a * C := mul_pos ha hC
  have l1 : a * C * (1 - e) ^ 3 ≤ z := by
    refine le_trans ?_ hz1
    have : a * (1 - e) * (C * (1 - e)) ≤ x * y := mul_le_mul hx1 hy1 (mul_nonneg hC.le (by linarith)) hx0.le
    nlinarith
  have l2 : z ≤ a * C * (1 + e) ^ 3 := by
    refine hz2.trans ?_
    have : x * y ≤ a * (1 + e) * (C * (1 + e)) := mul_le_mul hx2 hy2 hy0.le (mul_nonneg ha.le (by linarith))
    nlinarith
  have p1 : (1 - 8 * e) * (1 + e) ^ 3 ≤ 1 - e := by nlinarith [pow_pos e0 2, pow_pos e0 3, pow_pos e0 4]
  have p2 : 1 + e ≤ (1 + 8 * e) * (1 - e) ^ 3 := by nlinarith [pow_pos e0 2, pow_pos e0 3, pow_pos e0 4]
  constructor
  · refine le_trans ?_ hq1
    rw [div_mul_eq_mul_div, div_mul_eq_mul_div, div_le_div_iff₀ haC hz0]
    have : (1 - 8 * e) * z ≤ (1 - e) * (a * C) := by
      have : (1 - 8 * e) * z ≤ (1 - 8 * e) * (a * C * (1 + e) ^ 3) := mul_le_mul_of_nonneg_left l2 (by linarith)
      nlinarith
    nlinarith
  · refine hq2.trans ?_
    rw [div_mul_eq_mul_div, div_mul_eq_mul_div, div_le_div_iff₀ hz0 haC]
    have : (1 + e) * (a * C) ≤ (1 + 8 * e) * z := by
      have : (1 + 8 * e) * (a * C * (1 - e) ^ 3) ≤ (1 + 8 * e) * z := mul_le_mul_of_nonneg_left l1 (by linarith)
      nlinarith
    nlinarith

/-- The quotient is that of the circumference and the distance, to eight units in the last place. -/
theorem turn_close {d : ℝ} (h1 : 1 ≤ d) (h2 : d ≤ 20000000) :
    0 < Ieee.gridStep d ∧ Ieee.gridStep d ≤ 180 ∧
    circumference / d * (1 - 8 * (1 / 2 ^ 52)) ≤ turn (Ieee.gridStep d) ∧
    turn (Ieee.gridStep d) ≤ circumference / d * (1 + 8 * (1 / 2 ^ 52)) := by
  have hR : 0 < earthMeanRadius := by unfold earthMeanRadius; positivity
  have hR2 : earthMeanRadius ≤ 6371009 := by unfold earthMeanRadius; norm_num
  have hR3 : 6371008 ≤ earthMeanRadius := by unfold earthMeanRadius; norm_num
  have hd0 : 0 < d := by linarith
  have ha : 0 < d / earthMeanRadius := by positivity
  have ha1 : 1 / 10 ^ 7 ≤ d / earthMeanRadius := by
    rw [div_le_div_iff₀ (by positivity) hR]; norm_num; linarith
  have ha2 : d / earthMeanRadius ≤ 3.1393 := by
    rw [div_le_iff₀ hR]; norm_num; linarith
  obtain ⟨x1, x2⟩ := fl_between (x := d / earthMeanRadius) (le_trans (by norm_num) ha1)
  obtain ⟨y1, y2⟩ := degreeFactor_between
  have d0 : 50 ≤ degreeFactor := by unfold degreeFactor; norm_num
  have d1 : degreeFactor ≤ 57.2958 := by unfold degreeFactor; norm_num
  set x := fl (d / earthMeanRadius) with hx
  have hx0 : 1 / 10 ^ 8 ≤ x := by
    refine le_trans ?_ x1
    have : (1 : ℝ) / 10 ^ 7 * (1 - 1 / 2 ^ 52) ≤ d / earthMeanRadius * (1 - 1 / 2 ^ 52) :=
      mul_le_mul_of_nonneg_right ha1 (by norm_num)
    refine le_trans (by norm_num) this
  have hx3 : x ≤ 3.1394 := by
    refine x2.trans ?_
    have : d / earthMeanRadius * (1 + 1 / 2 ^ 52) ≤ 3.1393 * (1 + 1 / 2 ^ 52) := mul_le_mul_of_nonneg_right ha2 (by positivity)
    refine this.trans (by norm_num)
  have hxy : 1 / 10 ^ 8 ≤ x * degreeFactor := by nlinarith
  have hxy2 : x * degreeFactor ≤ 179.9 := by nlinarith
  obtain ⟨z1, z2⟩ := fl_between (x := x * degreeFactor) (le_trans (by norm_num) hxy)
  have hz : fl (x * degreeFactor) = Ieee.gridStep d := rfl
  rw [hz] at z1 z2
  set z := Ieee.gridStep d with hzd
  have hz0 : 0 < z := lt_of_lt_of_le (mul_pos (by linarith [show (0:ℝ) < 1 / 10 ^ 8 by positivity]) (by norm_num)) z1
  have hz180 : z ≤ 180 := by
    refine z2.trans ?_
    have : x * degreeFactor * (1 + 1 / 2 ^ 52) ≤ 179.9 * (1 + 1 / 2 ^ 52) := mul_le_mul_of_nonneg_right hxy2 (by positivity)
    refine this.trans (by norm_num)
  obtain ⟨q1, q2⟩ := fl_between (x := 360 / z) (by
    rw [le_div_iff₀ hz0]
    refine le_trans (mul_le_mul_of_nonneg_left hz180 (by positivity)) (by norm_num))
  have hC : 360 / (d / earthMeanRadius * (180 / Real.pi)) = circumference / d := by
    unfold circumference
    have := Real.pi_pos
    field_simp
    norm_num
  have := chain ha (div_pos (by norm_num) Real.pi_pos) rfl x1 x2 (by linarith) z1 z2 y1 y2 q1 q2
  rw [hC] at this
  exact ⟨hz0, hz180, this.1, this.2⟩

theorem circumference_lt : circumference < 40030240 := by
  unfold circumference earthMeanRadius
  have := Real.pi_lt_d6
  norm_num at *
  linarith

/-- Distances that fit at least a millionth and at most half but a millionth more often than `n` times into the circumference:
the identifiers are distinct; likewise with more than half: they are not. -/
theorem C142_unique_partial (d el : ℝ) (h1 : 1 ≤ d) (h2 : d ≤ 20000000) (n : ℕ) :
    ((n : ℝ) + 1 / 10 ^ 6 ≤ circumference / d → circumference / d ≤ n + 1 / 2 - 1 / 10 ^ 6 →
      ((Ieee.gridPoints d el).map (·.id)).Nodup) ∧
    ((n : ℝ) + 1 / 2 + 1 / 10 ^ 6 ≤ circumference / d → circumference / d ≤ n + 1 - 1 / 10 ^ 6 →
      ¬ ((Ieee.gridPoints d el).map (·.id)).Nodup) := by
  obtain ⟨h0, h180, q1, q2⟩ := turn_close h1 h2
  have hd0 : 0 < d := by linarith
  have hc0 : 0 < circumference := by
    unfold circumference earthMeanRadius
    have := Real.pi_pos
    positivity
  have hb : circumference / d ≤ 40030240 := by
    rw [div_le_iff₀ hd0]
    have := circumference_lt
    nlinarith
  have hp : 0 < circumference / d := by positivity
  rw [C142_unique_iff_partial d el h0 h180]
  set q := turn (Ieee.gridStep d)
  have w1 : circumference / d - 1 / 10 ^ 7 ≤ q := by
    refine le_trans ?_ q1
    norm_num
    linarith
  have w2 : q ≤ circumference / d + 1 / 10 ^ 7 := by
    refine q2.trans ?_
    norm_num
    linarith
  have hfl : (n : ℝ) + 1 / 10 ^ 6 ≤ circumference / d → circumference / d ≤ n + 1 - 1 / 10 ^ 6 → ⌊q⌋ = n := by
    intro a b
    rw [Int.floor_eq_iff]
    push_cast
    norm_num at a b w1 w2
    constructor <;> linarith
  constructor
  · intro a b
    have hf := hfl a (by linarith)
    left
    rw [Int.fract, hf]
    push_cast
    norm_num at b w2 ⊢
    linarith
  · intro a b
    have hf := hfl (by linarith) b
    rw [Int.fract, hf]
    push_cast
    norm_num at a w1 ⊢
    constructor
    · linarith
    · intro h; linarith

example : ∃ (d : ℝ) (n : ℕ), 1 ≤ d ∧ d ≤ 20000000 ∧ (n : ℝ) + 1 / 10 ^ 6 ≤ circumference / d ∧
    circumference / d ≤ n + 1 / 2 - 1 / 10 ^ 6 := by
  refine ⟨100000, 400, by norm_num, by norm_num, ?_, ?_⟩
  · unfold circumference earthMeanRadius
    have := Real.pi_gt_d4
    norm_num at *
    linarith
  · have := circumference_lt
    norm_num at *
    linarith

/-- The double precision number nearest to a hundred-fiftieth of the circumference. -/
noncomputable def part150 : ℝ := 4584760616989008 / 2 ^ 34

/-- Refuted: with the distance of a hundred-fiftieth of the circumference there are 150 columns, but only 149 identifiers in
a row. -/
theorem C142_part_false (el : ℝ) : IsDouble part150 ∧ |150 * part150 - circumference| ≤ 1 / 10 ^ 7 ∧
    roundHalfEven (turn (Ieee.gridStep part150)) = 150 ∧ ¬ ((Ieee.gridPoints part150 el).map (·.id)).Nodup := by
  have h1 : fl (part150 / earthMeanRadius) = (6036682881730936 : ℤ) * 2 ^ (-57 : ℤ) := by
    apply fl_eq_of (by norm_num) <;> unfold part150 earthMeanRadius
    · rw [abs_of_pos (by positivity)]; norm_num
    · rw [abs_of_pos (by positivity)]; norm_num
    · rw [abs_lt]; norm_num
  have h2 : fl ((6036682881730936 : ℤ) * 2 ^ (-57 : ℤ) * degreeFactor) = (5404319552844596 : ℤ) * 2 ^ (-51 : ℤ) := by
    apply fl_eq_of (by norm_num) <;> unfold degreeFactor
    · rw [abs_of_pos (by norm_num)]; norm_num
    · rw [abs_of_pos (by norm_num)]; norm_num
    · rw [abs_lt]; norm_num
  have h3 : fl (360 / ((5404319552844596 : ℤ) * 2 ^ (-51 : ℤ))) = (5277655813324799 : ℤ) * 2 ^ (-45 : ℤ) := by
    apply fl_eq_of (by norm_num)
    · rw [abs_of_pos (by norm_num)]; norm_num
    · rw [abs_of_pos (by norm_num)]; norm_num
    · rw [abs_lt]; norm_num
  have hs : Ieee.gridStep part150 = (5404319552844596 : ℤ) * 2 ^ (-51 : ℤ) := by unfold Ieee.gridStep; rw [h1, h2]
  have hq : turn (Ieee.gridStep part150) = (5277655813324799 : ℤ) * 2 ^ (-45 : ℤ) := by unfold turn; rw [hs, h3]
  have hfl : ⌊((5277655813324799 : ℤ) : ℝ) * 2 ^ (-45 : ℤ)⌋ = 149 := by rw [Int.floor_eq_iff]; norm_num
  refine ⟨⟨4584760616989008, -34, by norm_num, by norm_num, by unfold part150; norm_num⟩, ?_, ?_, ?_⟩
  · have h1 := Real.pi_gt_d20
    have h2 := Real.pi_lt_d20
    unfold part150 circumference earthMeanRadius
    rw [abs_le]
    norm_num at *
    constructor <;> linarith
  · rw [hq]
    exact rhe_eq (by rw [abs_lt]; norm_num)
  · rw [C142_unique_iff_partial part150 el (by rw [hs]; norm_num) (by rw [hs]; norm_num), hq, Int.fract, hfl]
    norm_num

end Tatc.Props
