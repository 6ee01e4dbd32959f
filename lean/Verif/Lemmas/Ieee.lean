import Verif.Model.Ieee
import Verif.Lemmas.Real

/-!
# Rounding to double precision
-/

namespace Tatc.Ieee
open Tatc.Num Tatc.Orbit
open scoped Classical

theorem le_rhe {n : ℤ} {x : ℝ} (h : (n : ℝ) ≤ x) : n ≤ roundHalfEven x := by
  have h1 : n ≤ ⌊x⌋ := Int.le_floor.mpr h
  unfold roundHalfEven
  simp only
  split_ifs <;> omega

theorem rhe_le {n : ℤ} {x : ℝ} (h : x ≤ (n : ℝ)) : roundHalfEven x ≤ n := by
  rcases h.lt_or_eq with h | h
  · have h1 : ⌊x⌋ < n := Int.floor_lt.mpr h
    unfold roundHalfEven
    simp only
    split_ifs <;> omega
  · subst h
    unfold roundHalfEven
    simp

theorem rhe_intCast (n : ℤ) : roundHalfEven (n : ℝ) = n := le_antisymm (rhe_le le_rfl) (le_rhe le_rfl)

theorem rhe_mono {x y : ℝ} (h : x ≤ y) : roundHalfEven x ≤ roundHalfEven y := by
  have a1 : (⌊x⌋ : ℝ) ≤ x := Int.floor_le x
  have a2 : x < ⌊x⌋ + 1 := Int.lt_floor_add_one x
  have b1 : (⌊y⌋ : ℝ) ≤ y := Int.floor_le y
  have b2 : y < ⌊y⌋ + 1 := Int.lt_floor_add_one y
  have hf : ⌊x⌋ ≤ ⌊y⌋ := Int.floor_le_floor h
  rcases hf.lt_or_eq with hf | hf
  · unfold roundHalfEven
    simp only
    split_ifs <;> omega
  · unfold roundHalfEven
    simp only
    rw [hf]
    rw [hf] at a1 a2
    split_ifs <;> first | omega | (exfalso; linarith)

theorem rhe_error (x : ℝ) : |(roundHalfEven x : ℝ) - x| ≤ 1 / 2 := by
  have a1 : (⌊x⌋ : ℝ) ≤ x := Int.floor_le x
  have a2 : x < ⌊x⌋ + 1 := Int.lt_floor_add_one x
  unfold roundHalfEven
  simp only
  rw [abs_le]
  split_ifs <;> push_cast <;> constructor <;> linarith

theorem rhe_eq {n : ℤ} {x : ℝ} (h : |x - n| < 1 / 2) : roundHalfEven x = n := by
  have h1 := abs_le.mp (rhe_error x)
  have h2 := abs_lt.mp h
  have h3 : (roundHalfEven x : ℝ) < n + 1 := by linarith
  have h4 : (n : ℝ) < roundHalfEven x + 1 := by linarith
  have h5 : roundHalfEven x < n + 1 := by exact_mod_cast h3
  have h6 : n < roundHalfEven x + 1 := by exact_mod_cast h4
  omega

/-- Half below an even number. -/
theorem rhe_tie {n : ℤ} {x : ℝ} (he : n % 2 = 0) (h1 : n - 1 / 2 ≤ x) (h2 : x ≤ n) : roundHalfEven x = n := by
  rcases h1.lt_or_eq with h1 | h1
  · rcases h2.lt_or_eq with h2 | h2
    · exact rhe_eq (by rw [abs_lt]; constructor <;> linarith)
    · rw [h2, rhe_intCast]
  · have hf : ⌊x⌋ = n - 1 := by rw [Int.floor_eq_iff]; push_cast; constructor <;> linarith
    unfold roundHalfEven
    simp only
    rw [hf]
    push_cast
    rw [if_neg (by linarith), if_neg (by linarith), if_neg (by omega)]
    ring

/-- A double precision number. -/
def IsDouble (x : ℝ) : Prop := ∃ m k : ℤ, |m| < 2 ^ 53 ∧ -1074 ≤ k ∧ x = m * 2 ^ k

theorem two_zpow_pos (k : ℤ) : (0 : ℝ) < 2 ^ k := zpow_pos (by norm_num) k

theorem two_zpow_le {j k : ℤ} (h : j ≤ k) : (2 : ℝ) ^ j ≤ 2 ^ k := zpow_le_zpow_right₀ (by norm_num) h

theorem two_zpow_add (j k : ℤ) : (2 : ℝ) ^ (j + k) = 2 ^ j * 2 ^ k := zpow_add₀ (by norm_num) j k

theorem lastPlace_ge (x : ℝ) : -1074 ≤ lastPlace x := by unfold lastPlace; omega

theorem lt_place (x : ℝ) : |x| < 2 ^ (lastPlace x + 53) := by
  have h := Int.lt_zpow_succ_log_self (b := 2) (by norm_num) |x|
  push_cast at h
  refine h.trans_le (two_zpow_le ?_)
  unfold lastPlace
  omega

theorem place_le {x : ℝ} (hx : x ≠ 0) (h : -1074 < lastPlace x) : (2 : ℝ) ^ (lastPlace x + 52) ≤ |x| := by
  have h1 := Int.zpow_log_le_self (b := 2) (by norm_num) (abs_pos.mpr hx)
  push_cast at h1
  have : lastPlace x + 52 = Int.log 2 |x| := by unfold lastPlace at h ⊢; omega
  rw [this]; exact h1

theorem lastPlace_eq {x : ℝ} {e : ℤ} (he : -1074 ≤ e) (h1 : (2 : ℝ) ^ (e + 52) ≤ |x|) (h2 : |x| < 2 ^ (e + 53)) :
    lastPlace x = e := by
  have hx : 0 < |x| := (two_zpow_pos _).trans_le h1
  have a := Int.zpow_log_le_self (b := 2) (by norm_num) hx
  have b := Int.lt_zpow_succ_log_self (b := 2) (by norm_num) |x|
  push_cast at a b
  have c1 : Int.log 2 |x| < e + 53 := (zpow_lt_zpow_iff_right₀ (by norm_num : (1 : ℝ) < 2)).mp (a.trans_lt h2)
  have c2 : e + 52 < Int.log 2 |x| + 1 := (zpow_lt_zpow_iff_right₀ (by norm_num : (1 : ℝ) < 2)).mp (h1.trans_lt b)
  unfold lastPlace
  omega

theorem fl_zero : fl 0 = 0 := by
  unfold fl
  have := rhe_intCast 0
  push_cast at this
  rw [zero_div, this]; simp

theorem fl_error (x : ℝ) : |fl x - x| ≤ 2 ^ lastPlace x / 2 := by
  have hp := two_zpow_pos (lastPlace x)
  have h := rhe_error (x / 2 ^ lastPlace x)
  have e : fl x - x = (roundHalfEven (x / 2 ^ lastPlace x) - x / 2 ^ lastPlace x) * 2 ^ lastPlace x := by
    unfold fl; field_simp
  rw [e, abs_mul, abs_of_pos hp]
  have := mul_le_mul_of_nonneg_right h hp.le
  linarith

/-- Rounding changes a number by at most one part in 2⁵³, or by half of the smallest positive number. -/
theorem fl_close (x : ℝ) : |fl x - x| ≤ |x| / 2 ^ 53 + 2 ^ (-1075 : ℤ) := by
  have h := fl_error x
  have h0 : (0 : ℝ) < 2 ^ (-1075 : ℤ) := two_zpow_pos _
  by_cases hx : x = 0
  · subst hx; rw [fl_zero]; simp
  by_cases hp : -1074 < lastPlace x
  · have h1 := place_le hx hp
    rw [two_zpow_add] at h1
    norm_num at h1
    have : (2 : ℝ) ^ lastPlace x / 2 ≤ |x| / 2 ^ 53 := by
      rw [le_div_iff₀ (by positivity)]
      norm_num
      linarith
    linarith
  · have e : lastPlace x = -1074 := le_antisymm (by omega) (lastPlace_ge x)
    rw [e] at h
    have : (2 : ℝ) ^ (-1074 : ℤ) / 2 = 2 ^ (-1075 : ℤ) := by
      rw [show (-1074 : ℤ) = -1075 + 1 by norm_num, two_zpow_add]; norm_num
    have : 0 ≤ |x| / 2 ^ 53 := by positivity
    linarith

/-- A double precision number is a multiple of the last place of another number, or smaller. -/
theorem grid {z y : ℝ} (hz : IsDouble z) (hy : y ≠ 0) :
    (∃ n : ℤ, z = n * 2 ^ lastPlace y) ∨ (|z| < 2 ^ (lastPlace y + 52) ∧ (2 : ℝ) ^ (lastPlace y + 52) ≤ |y|) := by
  obtain ⟨m, k, hm, hk, rfl⟩ := hz
  by_cases h : lastPlace y ≤ k
  · left
    refine ⟨m * 2 ^ (k - lastPlace y).toNat, ?_⟩
    push_cast
    rw [mul_assoc, ← zpow_natCast, Int.toNat_of_nonneg (by omega), ← two_zpow_add]
    congr 2; ring
  · right
    refine ⟨?_, place_le hy (by omega)⟩
    rw [abs_mul, abs_of_pos (two_zpow_pos k)]
    have hm' : |(m : ℝ)| < 2 ^ (53 : ℤ) := by
      have : ((|m| : ℤ) : ℝ) < ((2 ^ 53 : ℤ) : ℝ) := by exact_mod_cast hm
      rw [Int.cast_abs] at this
      refine this.trans_le ?_
      norm_num
    calc |(m : ℝ)| * 2 ^ k < 2 ^ (53 : ℤ) * 2 ^ k := mul_lt_mul_of_pos_right hm' (two_zpow_pos k)
      _ = 2 ^ (53 + k) := (two_zpow_add _ _).symm
      _ ≤ _ := two_zpow_le (by omega)

theorem le_fl {z y : ℝ} (hz : IsDouble z) (h : z ≤ y) : z ≤ fl y := by
  by_cases hy : y = 0
  · subst hy; rw [fl_zero]; exact h
  have hp := two_zpow_pos (lastPlace y)
  rcases grid hz hy with ⟨n, e⟩ | ⟨h1, h2⟩
  · rw [e]
    unfold fl
    apply mul_le_mul_of_nonneg_right _ hp.le
    have : (n : ℝ) ≤ y / 2 ^ lastPlace y := by rw [le_div_iff₀ hp, ← e]; exact h
    exact_mod_cast le_rhe this
  · have hy0 : 0 < y := by
      by_contra hneg
      push Not at hneg
      rw [abs_of_nonpos hneg] at h2
      have := (abs_lt.mp h1).1
      linarith
    rw [abs_of_pos hy0] at h2
    have h3 : ((2 ^ 52 : ℤ) : ℝ) ≤ y / 2 ^ lastPlace y := by
      rw [le_div_iff₀ hp]
      rw [add_comm, two_zpow_add] at h2
      push_cast
      refine le_trans (le_of_eq ?_) h2
      norm_num
    have h4 := le_rhe h3
    have h5 : ((2 ^ 52 : ℤ) : ℝ) * 2 ^ lastPlace y ≤ fl y := by
      unfold fl
      exact mul_le_mul_of_nonneg_right (by exact_mod_cast h4) hp.le
    have h6 : (2 : ℝ) ^ (lastPlace y + 52) = ((2 ^ 52 : ℤ) : ℝ) * 2 ^ lastPlace y := by
      rw [add_comm, two_zpow_add]; norm_num
    have := (abs_lt.mp h1).2
    linarith

theorem fl_le {z y : ℝ} (hz : IsDouble z) (h : y ≤ z) : fl y ≤ z := by
  by_cases hy : y = 0
  · subst hy; rw [fl_zero]; exact h
  have hp := two_zpow_pos (lastPlace y)
  rcases grid hz hy with ⟨n, e⟩ | ⟨h1, h2⟩
  · rw [e]
    unfold fl
    apply mul_le_mul_of_nonneg_right _ hp.le
    have : y / 2 ^ lastPlace y ≤ n := by rw [div_le_iff₀ hp, ← e]; exact h
    exact_mod_cast rhe_le this
  · have hy0 : y < 0 := by
      by_contra hneg
      push Not at hneg
      rw [abs_of_nonneg hneg] at h2
      have := (abs_lt.mp h1).2
      linarith
    rw [abs_of_neg hy0] at h2
    have h3 : y / 2 ^ lastPlace y ≤ ((-2 ^ 52 : ℤ) : ℝ) := by
      rw [div_le_iff₀ hp]
      rw [add_comm, two_zpow_add] at h2
      push_cast
      have : (2 : ℝ) ^ (52 : ℤ) = 2 ^ 52 := by norm_num
      rw [this] at h2
      linarith
    have h4 := rhe_le h3
    have h5 : fl y ≤ ((-2 ^ 52 : ℤ) : ℝ) * 2 ^ lastPlace y := by
      unfold fl
      exact mul_le_mul_of_nonneg_right (by exact_mod_cast h4) hp.le
    have h6 : (2 : ℝ) ^ (lastPlace y + 52) = -(((-2 ^ 52 : ℤ) : ℝ) * 2 ^ lastPlace y) := by
      rw [add_comm, two_zpow_add]; norm_num
    have := (abs_lt.mp h1).1
    linarith

/-- Double precision numbers are not rounded. -/
theorem fl_of_double {z : ℝ} (hz : IsDouble z) : fl z = z := le_antisymm (fl_le hz le_rfl) (le_fl hz le_rfl)

theorem double_zero : IsDouble 0 := ⟨0, 0, by norm_num, by norm_num, by simp⟩

theorem double_zpow {k : ℤ} (hk : -1074 ≤ k) : IsDouble (2 ^ k) := ⟨1, k, by norm_num, hk, by simp⟩

theorem double_neg {x : ℝ} (h : IsDouble x) : IsDouble (-x) := by
  obtain ⟨m, k, hm, hk, rfl⟩ := h
  exact ⟨-m, k, by rwa [abs_neg], hk, by push_cast; ring⟩

/-- Results of operations are double precision numbers. -/
theorem fl_double (x : ℝ) : IsDouble (fl x) := by
  have hp := two_zpow_pos (lastPlace x)
  have h1 : |x / 2 ^ lastPlace x| ≤ ((2 ^ 53 : ℤ) : ℝ) := by
    rw [abs_div, abs_of_pos hp, div_le_iff₀ hp]
    have := lt_place x
    rw [add_comm, two_zpow_add] at this
    push_cast
    have e : (2 : ℝ) ^ (53 : ℤ) = 2 ^ 53 := by norm_num
    rw [e] at this
    norm_num at this ⊢
    exact this.le
  have h2 := rhe_le (abs_le.mp h1).2
  have h3 : -(2 ^ 53 : ℤ) ≤ roundHalfEven (x / 2 ^ lastPlace x) := le_rhe (by push_cast; exact_mod_cast (abs_le.mp h1).1)
  have h4 : |roundHalfEven (x / 2 ^ lastPlace x)| ≤ 2 ^ 53 := abs_le.mpr ⟨h3, h2⟩
  rcases h4.lt_or_eq with h5 | h5
  · exact ⟨_, _, h5, lastPlace_ge x, rfl⟩
  · rcases (abs_eq (by norm_num)).mp h5 with e | e
    · refine ⟨2 ^ 52, lastPlace x + 1, by norm_num, by have := lastPlace_ge x; omega, ?_⟩
      unfold fl
      rw [e, two_zpow_add]; push_cast; ring
    · refine ⟨-2 ^ 52, lastPlace x + 1, by norm_num, by have := lastPlace_ge x; omega, ?_⟩
      unfold fl
      rw [e, two_zpow_add]; push_cast; ring

theorem fl_mono {x y : ℝ} (h : x ≤ y) : fl x ≤ fl y := by
  by_cases hx : x = 0
  · subst hx; rw [fl_zero]; exact le_fl double_zero h
  by_cases hy : y = 0
  · subst hy; rw [fl_zero]; exact fl_le double_zero h
  rcases lt_trichotomy (lastPlace x) (lastPlace y) with hlt | heq | hgt
  · have h1 := (lt_place x).trans_le (two_zpow_le (by omega : lastPlace x + 53 ≤ lastPlace y + 52))
    have h2 := place_le hy (by have := lastPlace_ge x; omega)
    have hy0 : 0 < y := by
      by_contra hneg
      push Not at hneg
      rw [abs_of_nonpos hneg] at h2
      have := (abs_lt.mp h1).1
      linarith
    rw [abs_of_pos hy0] at h2
    have hd := double_zpow (k := lastPlace y + 52) (by have := lastPlace_ge y; omega)
    exact (fl_le hd (abs_lt.mp h1).2.le).trans (le_fl hd h2)
  · unfold fl
    rw [heq]
    have hp := two_zpow_pos (lastPlace y)
    apply mul_le_mul_of_nonneg_right _ hp.le
    exact_mod_cast rhe_mono (div_le_div_of_nonneg_right h hp.le)
  · have h1 := (lt_place y).trans_le (two_zpow_le (by omega : lastPlace y + 53 ≤ lastPlace x + 52))
    have h2 := place_le hx (by have := lastPlace_ge y; omega)
    have hx0 : x < 0 := by
      by_contra hneg
      push Not at hneg
      rw [abs_of_nonneg hneg] at h2
      have := (abs_lt.mp h1).2
      linarith
    rw [abs_of_neg hx0] at h2
    have hd := double_neg (double_zpow (k := lastPlace x + 52) (by have := lastPlace_ge x; omega))
    exact (fl_le hd (by linarith)).trans (le_fl hd (abs_lt.mp h1).1.le)

/-- Integers below 2⁵³ are double precision numbers. -/
theorem double_int {n : ℤ} (h : |n| < 2 ^ 53) : IsDouble n := ⟨n, 0, h, by norm_num, by simp⟩

/-- The result of an operation near a number with last place `e`. -/
theorem fl_eq_of {x : ℝ} {n e : ℤ} (he : -1074 ≤ e) (h1 : (2 : ℝ) ^ (e + 52) ≤ |x|) (h2 : |x| < 2 ^ (e + 53))
    (h : |x / 2 ^ e - n| < 1 / 2) : fl x = n * 2 ^ e := by
  unfold fl
  rw [lastPlace_eq he h1 h2, rhe_eq h]

end Tatc.Ieee
