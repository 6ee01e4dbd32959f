import Verif.Model.IeeeLattice
import Verif.Props.RoundedSamples
import Verif.Props.Lattice

/-!
# C146: the Fibonacci lattice, computed with double precision numbers
-/

namespace Tatc.Props
open Tatc.Num Tatc.Ieee Tatc.Generation Tatc.Spec
open scoped Classical

/-! ## Longitudes -/

theorem goldenRatio_eq : goldenRatio = 7286977268806824 / 2 ^ 52 := by
  have h1 : (5035177455121575.6 / 2 ^ 51 : ℝ) < Real.sqrt 5 := Real.lt_sqrt_of_sq_lt (by norm_num)
  have h2 : Real.sqrt 5 < 5035177455121576.4 / 2 ^ 51 := by rw [Real.sqrt_lt' (by norm_num)]; norm_num
  norm_num at h1 h2
  have e1 : fl (Real.sqrt 5) = 5035177455121576 / 2 ^ 51 := by
    rw [fl_eq_of (n := 5035177455121576) (e := -51) (by norm_num)
      (by rw [abs_of_nonneg (Real.sqrt_nonneg _)]; norm_num; linarith)
      (by rw [abs_of_nonneg (Real.sqrt_nonneg _)]; norm_num; linarith)
      (by rw [abs_lt]; norm_num; constructor <;> linarith)]
    norm_num
  have d1 : IsDouble (7286977268806824 / 2 ^ 51) := ⟨7286977268806824, -51, by norm_num, by norm_num, by rw [zpow_neg]; norm_num⟩
  have d2 : IsDouble (7286977268806824 / 2 ^ 52) := ⟨7286977268806824, -52, by norm_num, by norm_num, by rw [zpow_neg]; norm_num⟩
  unfold goldenRatio
  rw [e1, show (1 + 5035177455121576 / 2 ^ 51 : ℝ) = 7286977268806824 / 2 ^ 51 by norm_num, fl_of_double d1,
    show (7286977268806824 / 2 ^ 51 / 2 : ℝ) = 7286977268806824 / 2 ^ 52 by norm_num, fl_of_double d2]

/-- A remainder of a double precision number is one. -/
theorem double_mod {a : ℝ} (ha : IsDouble a) (h0 : 0 ≤ a) : IsDouble (npMod a 360) := by
  obtain ⟨r1, r2⟩ := npMod_inTurn a
  obtain ⟨q, hq⟩ := npMod_spec a 360
  obtain ⟨n, k, hn, hk, hnk⟩ := ha
  have hq0 : q ≤ 0 := by
    by_contra hc
    have : (1 : ℝ) ≤ q := by exact_mod_cast (by omega : 1 ≤ q)
    linarith
  have hq0' : (q : ℝ) ≤ 0 := by exact_mod_cast hq0
  by_cases hk0 : 0 ≤ k
  · obtain ⟨j, rfl⟩ := Int.eq_ofNat_of_zero_le hk0
    have e : npMod a 360 = ((n * 2 ^ j + 360 * q : ℤ) : ℝ) := by rw [hq, hnk]; push_cast; simp
    rw [e] at r1 r2 ⊢
    have a1 : 0 ≤ n * 2 ^ j + 360 * q := by exact_mod_cast r1
    have a2 : n * 2 ^ j + 360 * q < 360 := by exact_mod_cast r2
    exact double_int (by rw [abs_lt]; constructor <;> omega)
  · obtain ⟨j, rfl⟩ : ∃ j : ℕ, k = -(j : ℤ) := ⟨k.natAbs, by omega⟩
    have hp : (0 : ℝ) < 2 ^ j := by positivity
    have e : npMod a 360 = ((n + 360 * q * 2 ^ j : ℤ) : ℝ) * 2 ^ (-(j : ℤ)) := by
      rw [hq, hnk, zpow_neg, zpow_natCast]; push_cast; field_simp
    refine ⟨n + 360 * q * 2 ^ j, -(j : ℤ), ?_, hk, e⟩
    have hn2 := (abs_lt.1 hn).2
    have a1 : 0 ≤ n + 360 * q * 2 ^ j := by
      rw [e] at r1
      have : (0 : ℝ) ≤ ((n + 360 * q * 2 ^ j : ℤ) : ℝ) := by
        by_contra hc
        push Not at hc
        have := mul_neg_of_neg_of_pos hc (two_zpow_pos (-(j : ℤ)))
        linarith
      exact_mod_cast this
    have a2 : 360 * q * 2 ^ j ≤ 0 := mul_nonpos_of_nonpos_of_nonneg (by omega) (by positivity)
    rw [abs_lt]
    constructor <;> linarith

/-- The difference is exact. -/
theorem double_sub_360 {m : ℝ} (hm : IsDouble m) (h1 : 180 < m) (h2 : m < 360) : IsDouble (m - 360) := by
  obtain ⟨n, k, hn, hk, rfl⟩ := hm
  by_cases h45 : -45 ≤ k
  · obtain ⟨j, hj⟩ := Int.eq_ofNat_of_zero_le (show 0 ≤ k + 45 by omega)
    have e : (n : ℝ) * 2 ^ k = ((n * 2 ^ j : ℤ) : ℝ) * 2 ^ (-45 : ℤ) := by
      rw [show k = (j : ℤ) + -45 by omega, two_zpow_add, zpow_natCast]; push_cast; ring
    have e' : (n : ℝ) * 2 ^ k - 360 = ((n * 2 ^ j - 360 * 2 ^ 45 : ℤ) : ℝ) * 2 ^ (-45 : ℤ) := by
      rw [e, Int.cast_sub, sub_mul]; congr 1; rw [zpow_neg]; norm_num
    refine ⟨_, -45, ?_, by norm_num, e'⟩
    rw [e] at h1 h2
    rw [show (2 : ℝ) ^ (-45 : ℤ) = 1 / 2 ^ 45 by rw [zpow_neg]; norm_num, mul_one_div, lt_div_iff₀ (by positivity)] at h1
    rw [show (2 : ℝ) ^ (-45 : ℤ) = 1 / 2 ^ 45 by rw [zpow_neg]; norm_num, mul_one_div, div_lt_iff₀ (by positivity)] at h2
    have b1 : 180 * 2 ^ 45 < n * 2 ^ j := by exact_mod_cast h1
    have b2 : n * 2 ^ j < 360 * 2 ^ 45 := by exact_mod_cast h2
    rw [abs_lt]
    norm_num at b1 b2 ⊢
    constructor <;> linarith
  · exfalso
    have hn2 : (n : ℝ) < 2 ^ 53 := by exact_mod_cast (abs_lt.1 hn).2
    have : (2 : ℝ) ^ k ≤ 2 ^ (-46 : ℤ) := two_zpow_le (by omega)
    have hp := two_zpow_pos k
    rw [show (2 : ℝ) ^ (-46 : ℤ) = 1 / 2 ^ 46 by rw [zpow_neg]; norm_num] at this
    have : (n : ℝ) * 2 ^ k ≤ 2 ^ 53 * (1 / 2 ^ 46) := mul_le_mul hn2.le this hp.le (by positivity)
    norm_num at this
    linarith

/-- The multiple of the golden angle, before whole turns are removed. -/
noncomputable def spun (i : Nat) : ℝ := fl (fl (360 * (i : ℝ)) / goldenRatio)

theorem goldenRatio_pos : 0 < goldenRatio := by rw [goldenRatio_eq]; norm_num

theorem spun_nonneg (i : Nat) : 0 ≤ spun i := by
  have := goldenRatio_pos
  exact le_fl double_zero (div_nonneg (le_fl double_zero (by positivity)) this.le)

theorem lattice_mod (i : Nat) : mod360 (spun i) = npMod (spun i) 360 := by
  unfold mod360; rw [if_pos (spun_nonneg i)]

/-- The longitude is the multiple less whole turns, exactly. -/
theorem latticeLongitude_spec (i : Nat) : -180 < latticeLongitude i ∧ latticeLongitude i ≤ 180 ∧
    IsDouble (latticeLongitude i) ∧ SameAngle (latticeLongitude i) (spun i) := by
  obtain ⟨r1, r2⟩ := npMod_inTurn (spun i)
  obtain ⟨q, hq⟩ := npMod_spec (spun i) 360
  have hd : IsDouble (npMod (spun i) 360) := double_mod (fl_double _) (spun_nonneg i)
  have e : latticeLongitude i = if npMod (spun i) 360 > 180 then fl (npMod (spun i) 360 - 360) else npMod (spun i) 360 := by
    rw [← lattice_mod]; rfl
  rw [e]
  split_ifs with h
  · have d := double_sub_360 hd h r2
    rw [fl_of_double d]
    refine ⟨by linarith, by linarith, d, q - 1, ?_⟩
    rw [hq]; push_cast; ring
  · push Not at h
    exact ⟨by linarith, h, hd, q, hq⟩

theorem shifted_spec (M : ℝ) (i : Nat) : latticeShifted M i = if M > 180 ∧ latticeLongitude i < 0 then latticeLongitude i + 360
    else latticeLongitude i := by
  unfold latticeShifted
  split_ifs with h
  · have hd : IsDouble (npMod (spun i) 360) := double_mod (fl_double _) (spun_nonneg i)
    obtain ⟨r1, r2⟩ := npMod_inTurn (spun i)
    have e : latticeLongitude i = if npMod (spun i) 360 > 180 then fl (npMod (spun i) 360 - 360) else npMod (spun i) 360 := by
      rw [← lattice_mod]; rfl
    split_ifs at e with hc
    · rw [fl_of_double (double_sub_360 hd hc r2)] at e
      rw [e, sub_add_cancel, fl_of_double hd]
    · rw [e] at h; linarith [h.2]
  · rfl

theorem spun_close (i : Nat) : |spun i - 360 * i / ((1 + Real.sqrt 5) / 2)| ≤ i * (6 / 10 ^ 14) := by
  by_cases hi : i = 0
  · subst hi
    unfold spun
    simp [fl_zero]
  have hi1 : (1 : ℝ) ≤ i := by exact_mod_cast Nat.one_le_iff_ne_zero.2 hi
  have s1 : (2.23606797749978969 : ℝ) < Real.sqrt 5 := Real.lt_sqrt_of_sq_lt (by norm_num)
  have s2 : Real.sqrt 5 < 2.2360679774997897 := by rw [Real.sqrt_lt' (by norm_num)]; norm_num
  have a := fl_close' (360 * (i : ℝ))
  rw [abs_of_nonneg (by positivity : (0 : ℝ) ≤ 360 * i), abs_le] at a
  have b := fl_close' (fl (360 * (i : ℝ)) / goldenRatio)
  have hf : 0 ≤ fl (360 * (i : ℝ)) := le_fl double_zero (by positivity)
  rw [abs_of_nonneg (div_nonneg hf goldenRatio_pos.le), abs_le] at b
  show |fl (fl (360 * (i : ℝ)) / goldenRatio) - _| ≤ _
  rw [goldenRatio_eq] at b ⊢
  generalize fl (fl (360 * (i : ℝ)) / (7286977268806824 / 2 ^ 52)) = y at *
  generalize fl (360 * (i : ℝ)) = x at *
  have hphi : 360 * (i : ℝ) / ((1 + Real.sqrt 5) / 2) = 180 * i * (Real.sqrt 5 - 1) := by
    have h5 : Real.sqrt 5 * Real.sqrt 5 = 5 := Real.mul_self_sqrt (by norm_num)
    rw [div_eq_iff (by positivity)]
    nlinarith
  rw [hphi]
  have t1 : 180 * i * (1.23606797749978969 : ℝ) ≤ 180 * i * (Real.sqrt 5 - 1) :=
    mul_le_mul_of_nonneg_left (by linarith) (by positivity)
  have t2 : 180 * i * (Real.sqrt 5 - 1) ≤ 180 * i * (1.2360679774997897 : ℝ) :=
    mul_le_mul_of_nonneg_left (by linarith) (by positivity)
  generalize 180 * i * (Real.sqrt 5 - 1) = z at *
  rw [abs_le]
  norm_num at a b t1 t2 ⊢
  constructor <;> linarith [a.1, a.2, b.1, b.2]

/-! ## Latitudes -/

/-- The sine of the latitude with number `k` of `n + 2`, as computed. -/
noncomputable def sineAt (k n : Nat) : ℝ := fl (fl (2 * (k : ℝ) / ((n : ℝ) + 2)) - 1)

/-- The latitude with number `k`, as computed. -/
noncomputable def latAt (k n : Nat) : ℝ := fl (fl (Real.arcsin (sineAt k n)) * degreeFactor)

theorem latitude_latAt (i n : Nat) : latticeLatitude i n = latAt (i + 1) n := by
  unfold latticeLatitude latAt sineAt; push_cast; rfl

theorem double_two : IsDouble 2 := by exact_mod_cast double_int (n := 2) (by norm_num)

theorem ratio_range {k n : Nat} (hk : k ≤ n + 2) : 0 ≤ 2 * (k : ℝ) / ((n : ℝ) + 2) ∧ 2 * (k : ℝ) / ((n : ℝ) + 2) ≤ 2 := by
  have hk' : (k : ℝ) ≤ n + 2 := by exact_mod_cast hk
  constructor
  · positivity
  · rw [div_le_iff₀ (by positivity)]; linarith

theorem sineAt_range {k n : Nat} (hk : k ≤ n + 2) : -1 ≤ sineAt k n ∧ sineAt k n ≤ 1 := by
  obtain ⟨h0, h2⟩ := ratio_range hk
  have a := le_fl double_zero h0
  have b := fl_le double_two h2
  exact ⟨le_fl (double_neg double_one) (by linarith), fl_le double_one (by linarith)⟩

theorem sineAt_close {k n : Nat} (hk : k ≤ n + 2) : |sineAt k n - (2 * (k : ℝ) / ((n : ℝ) + 2) - 1)| ≤ 3 / 2 ^ 53 + 1 / 2 ^ 90 := by
  obtain ⟨h0, h2⟩ := ratio_range hk
  have a := le_fl double_zero h0
  have b := fl_le double_two h2
  have c := fl_close' (2 * (k : ℝ) / ((n : ℝ) + 2))
  have d := fl_close' (fl (2 * (k : ℝ) / ((n : ℝ) + 2)) - 1)
  rw [abs_of_nonneg h0] at c
  have e : |fl (2 * (k : ℝ) / ((n : ℝ) + 2)) - 1| ≤ 1 := by rw [abs_le]; constructor <;> linarith
  have t : |sineAt k n - (2 * (k : ℝ) / ((n : ℝ) + 2) - 1)| ≤
      |sineAt k n - (fl (2 * (k : ℝ) / ((n : ℝ) + 2)) - 1)| + |fl (2 * (k : ℝ) / ((n : ℝ) + 2)) - 2 * (k : ℝ) / ((n : ℝ) + 2)| := by
    have := abs_sub_le (sineAt k n) (fl (2 * (k : ℝ) / ((n : ℝ) + 2)) - 1) (2 * (k : ℝ) / ((n : ℝ) + 2) - 1)
    rwa [sub_sub_sub_cancel_right] at this
  refine t.trans ?_
  have d' : |sineAt k n - (fl (2 * (k : ℝ) / ((n : ℝ) + 2)) - 1)| ≤ |fl (2 * (k : ℝ) / ((n : ℝ) + 2)) - 1| / 2 ^ 53 + 1 / 2 ^ 100 := d
  generalize |sineAt k n - (fl (2 * (k : ℝ) / ((n : ℝ) + 2)) - 1)| = u at *
  generalize |fl (2 * (k : ℝ) / ((n : ℝ) + 2)) - 1| = v at *
  generalize 2 * (k : ℝ) / ((n : ℝ) + 2) = w at *
  norm_num at *
  linarith

theorem arcsin_gap {a b : ℝ} (ha : -1 ≤ a) (hb : b ≤ 1) (hab : a ≤ b) : b - a ≤ Real.arcsin b - Real.arcsin a := by
  have h := Real.abs_sin_sub_sin_le (Real.arcsin b) (Real.arcsin a)
  rw [Real.sin_arcsin (by linarith) hb, Real.sin_arcsin ha (by linarith)] at h
  have m := Real.arcsin_le_arcsin hab
  rwa [abs_of_nonneg (by linarith), abs_of_nonneg (by linarith)] at h

theorem abs_arcsin_le (u : ℝ) : |Real.arcsin u| ≤ 1.5708 := by
  have := Real.pi_lt_d4
  rw [abs_le]
  norm_num at *
  exact ⟨by linarith [Real.neg_pi_div_two_le_arcsin u], by linarith [Real.arcsin_le_pi_div_two u]⟩

theorem factor_num : 57.2957 < degreeFactor ∧ degreeFactor < 57.2958 := by
  unfold degreeFactor; constructor <;> norm_num

theorem lat_close (u : ℝ) : |fl (fl (Real.arcsin u) * degreeFactor) - Real.arcsin u * degreeFactor| ≤ 181 / 2 ^ 53 := by
  obtain ⟨d1, d2⟩ := factor_num
  have a := abs_arcsin_le u
  have c := fl_close' (Real.arcsin u)
  have c2 := fl_close' (fl (Real.arcsin u) * degreeFactor)
  have f : |fl (Real.arcsin u)| ≤ 1.57081 := by
    have := abs_add_le (fl (Real.arcsin u) - Real.arcsin u) (Real.arcsin u)
    rw [sub_add_cancel] at this
    norm_num at *
    linarith
  rw [abs_mul, abs_of_pos (by linarith : 0 < degreeFactor)] at c2
  have g : |fl (Real.arcsin u)| * degreeFactor ≤ 1.57081 * 57.2958 := mul_le_mul f d2.le (by linarith) (by norm_num)
  have h : |fl (Real.arcsin u) * degreeFactor - Real.arcsin u * degreeFactor| ≤ (1.5708 / 2 ^ 53 + 1 / 2 ^ 100) * 57.2958 := by
    rw [← sub_mul, abs_mul, abs_of_pos (by linarith : 0 < degreeFactor)]
    refine mul_le_mul (c.trans ?_) d2.le (by linarith) (by norm_num)
    have := div_le_div_of_nonneg_right a (by positivity : (0 : ℝ) ≤ 2 ^ 53)
    linarith
  have t := abs_sub_le (fl (fl (Real.arcsin u) * degreeFactor)) (fl (Real.arcsin u) * degreeFactor) (Real.arcsin u * degreeFactor)
  norm_num at *
  linarith

/-- Latitudes strictly increase with their numbers. -/
theorem latAt_mono {k l n : Nat} (hkl : k < l) (hl : l ≤ n + 2) (hn : n + 2 ≤ 2 ^ 50) : latAt k n < latAt l n := by
  obtain ⟨d1, d2⟩ := factor_num
  have a := abs_le.1 (sineAt_close (k := k) (n := n) (by omega))
  have b := abs_le.1 (sineAt_close hl)
  have g : 2 * (k : ℝ) / ((n : ℝ) + 2) + 1 / 2 ^ 49 ≤ 2 * (l : ℝ) / ((n : ℝ) + 2) := by
    have hn' : (n : ℝ) + 2 ≤ 2 ^ 50 := by exact_mod_cast hn
    have hkl' : (k : ℝ) + 1 ≤ l := by exact_mod_cast hkl
    have : (1 : ℝ) / 2 ^ 49 ≤ 2 / ((n : ℝ) + 2) := by
      rw [div_le_div_iff₀ (by positivity) (by positivity)]; norm_num at hn' ⊢; linarith
    have e : 2 * (k : ℝ) / ((n : ℝ) + 2) + 2 / ((n : ℝ) + 2) = 2 * ((k : ℝ) + 1) / ((n : ℝ) + 2) := by ring
    have : 2 * ((k : ℝ) + 1) / ((n : ℝ) + 2) ≤ 2 * (l : ℝ) / ((n : ℝ) + 2) :=
      div_le_div_of_nonneg_right (by linarith) (by positivity)
    linarith
  generalize 2 * (k : ℝ) / ((n : ℝ) + 2) = x at *
  generalize 2 * (l : ℝ) / ((n : ℝ) + 2) = y at *
  have gap : 9.9 / 2 ^ 53 ≤ sineAt l n - sineAt k n := by
    have := a.2; have := b.1
    norm_num at *
    linarith
  have m := arcsin_gap (sineAt_range (k := k) (n := n) (by omega)).1 (sineAt_range hl).2 (by
    have : (0 : ℝ) ≤ 9.9 / 2 ^ 53 := by positivity
    linarith)
  have p := mul_le_mul_of_nonneg_right (gap.trans m) (by linarith : 0 ≤ degreeFactor)
  have q : 9.9 / 2 ^ 53 * 57.2957 ≤ 9.9 / 2 ^ 53 * degreeFactor := mul_le_mul_of_nonneg_left d1.le (by positivity)
  have c1 := abs_le.1 (lat_close (sineAt k n))
  have c2 := abs_le.1 (lat_close (sineAt l n))
  unfold latAt
  rw [sub_mul] at p
  have := c1.2; have := c2.1
  norm_num at *
  linarith

theorem quarter_product : fl (884279719003555 / 2 ^ 49 * degreeFactor) = 90 := by
  rw [fl_eq_of (n := 90 * 2 ^ 46) (e := -46) (by norm_num)
      (by rw [abs_of_nonneg (by unfold degreeFactor; positivity)]; unfold degreeFactor; norm_num)
      (by rw [abs_of_nonneg (by unfold degreeFactor; positivity)]; unfold degreeFactor; norm_num)
      (by rw [abs_lt]; unfold degreeFactor; norm_num)]
  norm_num

theorem quarter_product_neg : fl (-(884279719003555 / 2 ^ 49) * degreeFactor) = -90 := by
  rw [fl_eq_of (n := -(90 * 2 ^ 46)) (e := -46) (by norm_num)
      (by rw [neg_mul, abs_neg, abs_of_nonneg (by unfold degreeFactor; positivity)]; unfold degreeFactor; norm_num)
      (by rw [neg_mul, abs_neg, abs_of_nonneg (by unfold degreeFactor; positivity)]; unfold degreeFactor; norm_num)
      (by rw [abs_lt]; unfold degreeFactor; norm_num)]
  norm_num

theorem fl_quarter : fl (Real.pi / 2) = 884279719003555 / 2 ^ 49 := by
  have h1 := Real.pi_gt_d20
  have h2 := Real.pi_lt_d20
  have hp := Real.pi_pos
  norm_num at h1 h2
  rw [fl_eq_of (n := 7074237752028440) (e := -52) (by norm_num)
      (by rw [abs_of_nonneg (by positivity)]; norm_num; linarith)
      (by rw [abs_of_nonneg (by positivity)]; norm_num; linarith)
      (by rw [abs_lt]; norm_num; constructor <;> linarith)]
  norm_num

theorem fl_quarter_neg : fl (-(Real.pi / 2)) = -(884279719003555 / 2 ^ 49) := by
  have h1 := Real.pi_gt_d20
  have h2 := Real.pi_lt_d20
  have hp := Real.pi_pos
  norm_num at h1 h2
  rw [fl_eq_of (n := -7074237752028440) (e := -52) (by norm_num)
      (by rw [abs_neg, abs_of_nonneg (by positivity)]; norm_num; linarith)
      (by rw [abs_neg, abs_of_nonneg (by positivity)]; norm_num; linarith)
      (by rw [abs_lt]; norm_num; constructor <;> linarith)]
  norm_num

theorem latAt_zero (n : Nat) : latAt 0 n = -90 := by
  have e : sineAt 0 n = -1 := by
    unfold sineAt
    simp only [Nat.cast_zero, mul_zero, zero_div, fl_zero, zero_sub]
    exact fl_of_double (double_neg double_one)
  unfold latAt
  rw [e, Real.arcsin_neg_one, fl_quarter_neg, quarter_product_neg]

theorem latAt_last (n : Nat) : latAt (n + 2) n = 90 := by
  have e : sineAt (n + 2) n = 1 := by
    unfold sineAt
    have : 2 * ((n + 2 : ℕ) : ℝ) / ((n : ℝ) + 2) = 2 := by push_cast; field_simp
    rw [this, fl_of_double double_two, show (2 - 1 : ℝ) = 1 by norm_num, fl_of_double double_one]
  unfold latAt
  rw [e, Real.arcsin_one, fl_quarter, quarter_product]

theorem latAt_sine {k n : Nat} (hk : k ≤ n + 2) : |sinDeg (latAt k n) - (2 * (k : ℝ) / ((n : ℝ) + 2) - 1)| ≤ 1 / 2 ^ 49 := by
  have a := sineAt_close hk
  obtain ⟨s1, s2⟩ := sineAt_range hk
  have c := lat_close (sineAt k n)
  have hp := Real.pi_pos
  have h1 := Real.pi_gt_d20
  have h2 := Real.pi_lt_d20
  obtain ⟨f1, f2⟩ := degreeFactor_between
  have hA := abs_arcsin_le (sineAt k n)
  have e1 : |degreeFactor * (Real.pi / 180) - 1| ≤ 1 / 2 ^ 52 := by
    have g1 := mul_le_mul_of_nonneg_right f1 (by positivity : 0 ≤ Real.pi / 180)
    have g2 := mul_le_mul_of_nonneg_right f2 (by positivity : 0 ≤ Real.pi / 180)
    have w1 : 180 / Real.pi * (1 - 1 / 2 ^ 52) * (Real.pi / 180) = 1 - 1 / 2 ^ 52 := by field_simp
    have w2 : 180 / Real.pi * (1 + 1 / 2 ^ 52) * (Real.pi / 180) = 1 + 1 / 2 ^ 52 := by field_simp
    rw [abs_le]; constructor <;> linarith
  have e2 : |latAt k n * Real.pi / 180 - Real.arcsin (sineAt k n)| ≤ 181 / 2 ^ 53 * 0.01746 + 1.5708 * (1 / 2 ^ 52) := by
    have : latAt k n * Real.pi / 180 - Real.arcsin (sineAt k n) =
        (latAt k n - Real.arcsin (sineAt k n) * degreeFactor) * (Real.pi / 180) +
          Real.arcsin (sineAt k n) * (degreeFactor * (Real.pi / 180) - 1) := by ring
    rw [this]
    refine (abs_add_le _ _).trans (add_le_add ?_ ?_)
    · rw [abs_mul, abs_of_pos (by positivity : 0 < Real.pi / 180)]
      exact mul_le_mul c (by norm_num at *; linarith) (by positivity) (by positivity)
    · rw [abs_mul]
      exact mul_le_mul hA e1 (abs_nonneg _) (by norm_num)
  have e3 := Real.abs_sin_sub_sin_le (latAt k n * Real.pi / 180) (Real.arcsin (sineAt k n))
  rw [Real.sin_arcsin s1 s2] at e3
  have t := abs_sub_le (Real.sin (latAt k n * Real.pi / 180)) (sineAt k n) (2 * (k : ℝ) / ((n : ℝ) + 2) - 1)
  unfold sinDeg
  refine t.trans ?_
  norm_num at *
  linarith

/-! ## The lattice -/

/-- Fewer than 2⁵⁰ points, for distances from a metre on. -/
theorem samples_few {surface d : ℝ} {n : Nat} (hs : 1 ≤ surface) (hs2 : surface ≤ 5.2e14) (h0 : 1 ≤ d) (h1 : d ≤ 20000000)
    (h : Ieee.numberSamples surface d = .ok n) : n + 2 ≤ 2 ^ 50 := by
  obtain ⟨m, n', hm, hn', hle⟩ := C145_monotone_partial surface 1 d (by linarith) (by norm_num) h0 (by linarith)
  rw [h] at hn'
  obtain rfl : n = n' := by simpa using hn'
  obtain ⟨m', hm', hc, -⟩ := C145_accuracy_partial surface 1 hs le_rfl (by norm_num)
  rw [hm] at hm'
  obtain rfl : m = m' := by simpa using hm'
  have hcap : 0.78 ≤ capArea earthMeanRadius 1 := by
    obtain ⟨r1, r2⟩ := radius_lt
    have hR := radius_pos
    have hp := Real.pi_gt_d2
    set z := 1 / 2 / earthMeanRadius with hz
    have z0 : 0 < z := by positivity
    have z1 : z ≤ 1 / 10 ^ 7 := by rw [hz, div_le_iff₀ hR]; norm_num at *; linarith
    have cb := (abs_le.1 (Real.cos_bound (x := z) (by rw [abs_of_pos z0]; exact z1.trans (by norm_num)))).2
    rw [abs_of_pos z0] at cb
    have z4 : z ^ 4 * (5 / 96) ≤ z ^ 2 * (1 / 10 ^ 14) := by
      have : z ^ 2 ≤ (1 / 10 ^ 7) ^ 2 := pow_le_pow_left₀ z0.le z1 2
      have e : z ^ 4 = z ^ 2 * z ^ 2 := by ring
      rw [e]
      have z2 : 0 ≤ z ^ 2 := sq_nonneg z
      have := mul_le_mul_of_nonneg_left this z2
      norm_num at this ⊢
      linarith
    have l : z ^ 2 * 0.4999 ≤ 1 - Real.cos z := by
      have z2 : 0 ≤ z ^ 2 := sq_nonneg z
      norm_num at *
      linarith
    have e : earthMeanRadius ^ 2 * z ^ 2 = 1 / 4 := by rw [hz]; field_simp; norm_num
    have f : earthMeanRadius ^ 2 * (z ^ 2 * 0.4999) ≤ earthMeanRadius ^ 2 * (1 - Real.cos z) :=
      mul_le_mul_of_nonneg_left l (sq_nonneg _)
    rw [← mul_assoc, e] at f
    have g : 2 * 3.14 * (1 / 4 * 0.4999) ≤ 2 * Real.pi * (earthMeanRadius ^ 2 * (1 - Real.cos z)) :=
      mul_le_mul (by linarith) f (by norm_num) (by linarith)
    have e2 : capArea earthMeanRadius 1 = 2 * Real.pi * (earthMeanRadius ^ 2 * (1 - Real.cos z)) := by
      unfold capArea; rw [← hz]; ring
    rw [e2]
    exact le_trans (by norm_num) g
  have hm0 : (0 : ℝ) ≤ m := Nat.cast_nonneg m
  have k1 : (m : ℝ) * 0.78 ≤ m * capArea earthMeanRadius 1 := mul_le_mul_of_nonneg_left hcap hm0
  have k2 : (m : ℝ) < 2 ^ 50 - 2 := by
    generalize (m : ℝ) = r at *
    norm_num at hs2 hc k1 ⊢
    linarith
  have k3 : ((m + 2 : ℕ) : ℝ) < ((2 ^ 50 : ℕ) : ℝ) := by push_cast; norm_num at k2 ⊢; linarith
  have := Nat.cast_lt.1 k3
  omega

theorem lattice_none (clip : Clip) {surface distance : ℝ} (elevation : ℝ) {n : Nat} (hn : Ieee.numberSamples surface distance = .ok n) :
    latticePoints clip surface distance elevation none = .ok ((List.range n).map fun (i : Nat) =>
      ⟨i, latticeLongitude i, latticeLatitude i n, elevation⟩) := by
  unfold latticePoints
  simp only [hn, getBounds, bind, Except.bind, pure, Except.pure]

theorem lattice_some (clip : Clip) {surface distance : ℝ} (elevation : ℝ) {n : Nat} (hn : Ieee.numberSamples surface distance = .ok n)
    (m : Mask) (hv : m.valid = true) :
    latticePoints clip surface distance elevation (some m) =
      .ok (clip.run m (((List.range n).filter fun (i : Nat) =>
        decide (m.minLat ≤ latticeLatitude i n ∧ latticeLatitude i n ≤ m.maxLat) &&
        decide (m.minLon ≤ latticeShifted (if m.maxLon = -180 then 180 else m.maxLon) i ∧
          latticeShifted (if m.maxLon = -180 then 180 else m.maxLon) i ≤
            (if m.maxLon = -180 then 180 else m.maxLon))).map fun (i : Nat) =>
        ⟨i, latticeShifted (if m.maxLon = -180 then 180 else m.maxLon) i, latticeLatitude i n, elevation⟩)) := by
  unfold latticePoints
  simp only [hn, getBounds, hv, bind, Except.bind, pure, Except.pure, if_true]

/-- C146: for every distance from a metre to half way round the Earth, computed with double precision numbers, there are as
many points as samples, numbered from zero; latitudes are strictly between the poles and strictly increase, so that no two
points coincide; longitudes are in `(-180, 180]`.  The sines of latitude are those of the lattice to `2⁻⁴⁹`, and longitudes to
`6·10⁻¹⁴` degrees for every point before. -/
theorem C146_lattice (clip : Clip) (surface d elevation : ℝ) (hs : 1 ≤ surface) (hs2 : surface ≤ 5.2e14) (h0 : 1 ≤ d)
    (h1 : d ≤ 20000000) :
    ∃ n pts, Ieee.numberSamples surface d = .ok n ∧ latticePoints clip surface d elevation none = .ok pts ∧ pts.length = n ∧
      (∀ i, (h : i < pts.length) → pts[i].id = i ∧ pts[i].elevation = elevation ∧
        -90 < pts[i].lat ∧ pts[i].lat < 90 ∧ -180 < pts[i].lon ∧ pts[i].lon ≤ 180 ∧
        |sinDeg pts[i].lat - (2 * ((i : ℝ) + 1) / ((n : ℝ) + 2) - 1)| ≤ 1 / 2 ^ 49 ∧
        ∃ x, SameAngle pts[i].lon x ∧ |x - 360 * i / ((1 + Real.sqrt 5) / 2)| ≤ i * (6 / 10 ^ 14)) ∧
      pts.Pairwise (fun a b => a.lat < b.lat) ∧
      (pts.map fun p => (p.lon, p.lat)).Nodup := by
  obtain ⟨n, hn, -⟩ := C145_accuracy_partial surface d hs h0 h1
  have hfew := samples_few hs hs2 h0 h1 hn
  have mono : ∀ {a b : Nat}, a < b → b < n → latticeLatitude a n < latticeLatitude b n := by
    intro a b hab hb
    rw [latitude_latAt, latitude_latAt]
    exact latAt_mono (by omega) (by omega) hfew
  refine ⟨n, _, hn, lattice_none clip elevation hn, by simp, ?_, ?_, ?_⟩
  · intro i h
    have hi : i < n := by simpa using h
    obtain ⟨m1, m2, -, m3⟩ := latticeLongitude_spec i
    simp only [List.getElem_map, List.getElem_range]
    refine ⟨trivial, trivial, ?_, ?_, m1, m2, ?_, spun i, m3, spun_close i⟩
    · rw [latitude_latAt, ← latAt_zero n]
      exact latAt_mono (by omega) (by omega) hfew
    · rw [latitude_latAt, ← latAt_last n]
      exact latAt_mono (by omega) (by omega) hfew
    · rw [latitude_latAt]
      have := latAt_sine (k := i + 1) (n := n) (by omega)
      push_cast at this
      exact this
  · rw [List.pairwise_map]
    refine List.Pairwise.imp_of_mem ?_ (List.pairwise_lt_range (n := n))
    intro a b _ hb hab
    exact mono hab (List.mem_range.mp hb)
  · rw [List.map_map]
    refine List.Nodup.map_on ?_ List.nodup_range
    intro a ha b hb hab
    simp only [Function.comp, Prod.mk.injEq] at hab
    have ha' := List.mem_range.mp ha
    have hb' := List.mem_range.mp hb
    rcases lt_trichotomy a b with h | h | h
    · exact absurd hab.2 (mono h hb').ne
    · exact h
    · exact absurd hab.2 (mono h ha').ne'

/-- C147, full statement: for every valid mask, computed with double precision numbers, the points returned are those of the
global lattice that lie in the mask, longitudes taken modulo 360.  Proved for masks within `[-180, 180]` that contain longitude
180 wherever they contain longitude -180, and for masks within `[0, 360)`; see C39 for wider masks. -/
theorem C147_mask_partial (clip : Clip) (surface distance elevation : ℝ) (n : Nat)
    (hn : Ieee.numberSamples surface distance = .ok n) (m : Mask) (hv : m.valid = true)
    (hm : (-180 ≤ m.minLon ∧ m.maxLon ≤ 180 ∧ ∀ y, m.contains (-180) y → m.contains 180 y) ∨ (0 ≤ m.minLon ∧ m.maxLon < 360)) :
    ∃ pts all, latticePoints clip surface distance elevation (some m) = .ok pts ∧
      latticePoints clip surface distance elevation none = .ok all ∧
      (pts.map (·.id)).Perm ((all.filter fun g => decide (∃ k : ℤ, m.contains (g.lon + 360 * k) g.lat)).map (·.id)) ∧
      ∀ p ∈ pts, m.contains p.lon p.lat ∧
        ∃ g ∈ all, g.id = p.id ∧ g.lat = p.lat ∧ g.elevation = p.elevation ∧ SameAngle p.lon g.lon := by
  refine ⟨_, _, lattice_some clip elevation hn m hv, lattice_none clip elevation hn, ?_, ?_⟩
  · set M := if m.maxLon = -180 then 180 else m.maxLon with hM
    refine ((clip.perm m _).map _).trans ?_
    rw [List.filter_map, List.filter_map, List.map_map, List.map_map, List.filter_filter]
    apply List.Perm.of_eq
    congr 1
    apply List.filter_congr
    intro i hi
    have hi' := List.mem_range.mp hi
    obtain ⟨a1, a2, -⟩ := latticeLongitude_spec i
    rw [Bool.eq_iff_iff]
    simp only [Function.comp, Bool.and_eq_true, decide_eq_true_eq, shifted_spec]
    generalize latticeLongitude i = L at *
    generalize latticeLatitude i n = y at *
    have cast_le : ∀ {a b : ℤ}, (a : ℝ) < b + 1 → a ≤ b := by
      intro a b h
      have : a < b + 1 := by exact_mod_cast h
      omega
    constructor
    · rintro ⟨h1, -⟩
      split_ifs at h1
      · exact ⟨1, by push_cast; rwa [mul_one]⟩
      · exact ⟨0, by push_cast; rwa [mul_zero, add_zero]⟩
    · rintro ⟨k, hk⟩
      -- the position the code tests is in the mask
      have key : m.contains (if M > 180 ∧ L < 0 then L + 360 else L) y := by
        obtain ⟨b1, b2, b3, b4⟩ := m.inBounds _ _ hk
        rcases hm with ⟨h1, h2, h3⟩ | ⟨h1, h2⟩
        · have hM180 : M ≤ 180 := by rw [hM]; split_ifs <;> linarith
          rw [if_neg (by rintro ⟨h, -⟩; linarith)]
          have hk1 : k ≤ 0 := cast_le (by push_cast; linarith)
          have hk2 : -1 ≤ k := cast_le (by push_cast; linarith)
          rcases (by omega : k = 0 ∨ k = -1) with rfl | rfl
          · simpa using hk
          · push_cast at b1 hk
            have hL : L = 180 := by linarith
            rw [hL] at hk ⊢
            apply h3
            convert hk using 1
            norm_num
        · by_cases h180 : m.maxLon ≤ 180
          · have hM180 : M ≤ 180 := by rw [hM]; split_ifs <;> linarith
            rw [if_neg (by rintro ⟨h, -⟩; linarith)]
            have hk1 : k ≤ 0 := cast_le (by push_cast; linarith)
            have hk2 : 0 ≤ k := cast_le (by push_cast; linarith)
            obtain rfl : k = 0 := by omega
            simpa using hk
          · push Not at h180
            have hMe : M = m.maxLon := by rw [hM, if_neg (by linarith)]
            split_ifs with hc
            · have hk1 : k ≤ 1 := cast_le (by push_cast; linarith)
              have hk2 : 1 ≤ k := by
                have : (0 : ℝ) < k := by linarith [hc.2]
                have : (0 : ℤ) < k := by exact_mod_cast this
                omega
              obtain rfl : k = 1 := by omega
              simpa using hk
            · have hpos : 0 ≤ L := by
                by_contra hneg
                exact hc ⟨by rw [hMe]; exact h180, not_le.mp hneg⟩
              have hk1 : k < 1 := by
                have : (k : ℝ) < 1 := by linarith
                exact_mod_cast this
              have hk2 : 0 ≤ k := cast_le (by push_cast; linarith)
              obtain rfl : k = 0 := by omega
              simpa using hk
      obtain ⟨c1, c2, c3, c4⟩ := m.inBounds _ _ key
      refine ⟨key, ⟨c3, c4⟩, c1, ?_⟩
      conv_rhs => rw [hM]
      split_ifs at c2 ⊢ <;> linarith
  · intro p hp
    rw [(clip.perm m _).mem_iff] at hp
    simp only [List.mem_filter, List.mem_map, decide_eq_true_eq, Bool.and_eq_true, List.mem_range] at hp
    obtain ⟨⟨i, ⟨hi, -⟩, rfl⟩, hc⟩ := hp
    refine ⟨hc, ⟨i, latticeLongitude i, latticeLatitude i n, elevation⟩, ?_, rfl, rfl, rfl, ?_⟩
    · simp only [List.mem_map, List.mem_range]
      exact ⟨i, hi, rfl⟩
    · show SameAngle (latticeShifted _ i) (latticeLongitude i)
      generalize (if m.maxLon = -180 then 180 else m.maxLon) = M
      rw [shifted_spec]
      split_ifs
      · exact ⟨1, by push_cast; ring⟩
      · exact ⟨0, by push_cast; ring⟩

/-- The hypotheses are met: a lattice with a distance of 100 km; a mask that is the whole globe. -/
example (clip : Clip) : ∃ n pts, Ieee.numberSamples 5.1e14 100000 = .ok n ∧ latticePoints clip 5.1e14 100000 0 none = .ok pts ∧
    pts.length = n := by
  obtain ⟨n, pts, a, b, c, -⟩ := C146_lattice clip 5.1e14 100000 0 (by norm_num) (by norm_num) (by norm_num) (by norm_num)
  exact ⟨n, pts, a, b, c⟩

/-- The whole globe. -/
def globeMask : Mask where
  minLon := -180
  minLat := -90
  maxLon := 180
  maxLat := 90
  valid := true
  contains x y := -180 ≤ x ∧ x ≤ 180 ∧ -90 ≤ y ∧ y ≤ 90
  inBounds _ _ h := h

example : globeMask.valid = true ∧ -180 ≤ globeMask.minLon ∧ globeMask.maxLon ≤ 180 ∧
    (∀ y, globeMask.contains (-180) y → globeMask.contains 180 y) ∧ Ieee.numberSamples 5.1e14 100000 ≠ .error .zeroDivisionError := by
  refine ⟨rfl, le_refl _, le_refl _, fun y h => ⟨by norm_num, by norm_num, h.2.2.1, h.2.2.2⟩, ?_⟩
  obtain ⟨n, h, -⟩ := C145_accuracy_partial 5.1e14 100000 (by norm_num) (by norm_num) (by norm_num)
  rw [h]; simp

end Tatc.Props
