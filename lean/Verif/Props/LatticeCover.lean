import Verif.Props.LatticeSpread
import Mathlib.Data.Nat.Fib.Zeckendorf
import Mathlib.Data.ZMod.Basic

/-!
# C132: points of the lattice leave no gap
-/

namespace Tatc.Props
open Tatc.Num Tatc.Geometry Tatc.Generation Tatc.Spec
open scoped Classical

/-- A Fibonacci number `q` and the one before, `p`: `q |q g - p| ≤ g`. -/
theorem fib_approx (m : Nat) :
    (Nat.fib (m + 1) : ℝ) * |(Nat.fib (m + 1) : ℝ) / golden - Nat.fib m| ≤ 1 / golden := by
  have hg : golden = Real.goldenRatio := rfl
  rw [hg]
  have hp := Real.goldenRatio_pos
  have h1 := Real.fib_succ_sub_goldenRatio_mul_fib m
  have h2 := Real.fib_succ_sub_goldenConj_mul_fib m
  have hle : (Nat.fib (m + 1) : ℝ) ≤ Real.goldenRatio ^ m := by
    have : Real.goldenConj * Nat.fib m ≤ 0 := mul_nonpos_of_nonpos_of_nonneg Real.goldenConj_neg.le (Nat.cast_nonneg _)
    linarith
  have e : (Nat.fib (m + 1) : ℝ) / Real.goldenRatio - Nat.fib m = Real.goldenConj ^ m / Real.goldenRatio := by
    rw [← h1]; field_simp
  rw [e, abs_div, abs_of_pos hp, abs_pow, ← mul_div_assoc]
  apply div_le_div_of_nonneg_right _ hp.le
  have hc : |Real.goldenConj| = Real.goldenRatio⁻¹ := by
    rw [abs_of_neg Real.goldenConj_neg, Real.inv_goldenRatio]
  rw [hc, inv_pow]
  calc (Nat.fib (m + 1) : ℝ) * (Real.goldenRatio ^ m)⁻¹ ≤ Real.goldenRatio ^ m * (Real.goldenRatio ^ m)⁻¹ :=
        mul_le_mul_of_nonneg_right hle (by positivity)
    _ = 1 := mul_inv_cancel₀ (by positivity)

/-- Among as many consecutive multiples of the golden section as a Fibonacci number, one is near any number, modulo
whole numbers. -/
theorem golden_near (m s : Nat) (t : ℝ) : ∃ j, j < Nat.fib (m + 1) ∧ ∃ l : ℤ,
    |t - ((s + j : Nat) : ℝ) / golden - l| * Nat.fib (m + 1) ≤ 81 / 100 := by
  set q := Nat.fib (m + 1) with hq
  set p := Nat.fib m with hp
  have hq0 : 0 < q := Nat.fib_pos.mpr (by omega)
  have hqr : (0 : ℝ) < q := by exact_mod_cast hq0
  have hq1 : (1 : ℝ) ≤ q := by exact_mod_cast hq0
  have happ := fib_approx m
  rw [← hq, ← hp] at happ
  set eps := 1 / golden - (p : ℝ) / q with heps
  have hgold : 1 / golden ≤ 6181 / 10000 := by
    have h5 : (2.236 : ℝ) < Real.sqrt 5 := Real.lt_sqrt_of_sq_lt (by norm_num)
    unfold golden
    rw [div_le_iff₀ (by linarith)]; linarith
  have hee : (q : ℝ) ^ 2 * |eps| ≤ 6181 / 10000 := by
    have : (q : ℝ) / golden - p = q * eps := by rw [heps]; field_simp
    rw [this, abs_mul, abs_of_pos hqr] at happ
    nlinarith
  set t' := t - (s : ℝ) / golden - ((q : ℝ) - 1) / 2 * eps with ht'
  set y := round ((q : ℝ) * t') with hy
  have hround := abs_sub_round ((q : ℝ) * t')
  rw [← hy] at hround
  -- the multiple of `p` congruent to `y`
  obtain ⟨j, hj, l, hl⟩ : ∃ j, j < q ∧ ∃ l : ℤ, (j : ℤ) * p = y + q * l := by
    have hcop : Nat.Coprime p q := Nat.fib_coprime_fib_succ m
    have : NeZero q := ⟨hq0.ne'⟩
    let u := ZMod.unitOfCoprime p hcop
    let c : ZMod q := (y : ZMod q) * (u⁻¹ : (ZMod q)ˣ)
    refine ⟨c.val, ZMod.val_lt c, ?_⟩
    have hc : ((c.val : ℤ) * p : ℤ) ≡ y [ZMOD q] := by
      rw [← ZMod.intCast_eq_intCast_iff]
      push_cast
      rw [ZMod.natCast_zmod_val]
      have hu : (p : ZMod q) = (u : ZMod q) := (ZMod.coe_unitOfCoprime p hcop).symm
      rw [hu]
      show (y : ZMod q) * (u⁻¹ : (ZMod q)ˣ) * u = y
      rw [mul_assoc, Units.inv_mul, mul_one]
    obtain ⟨l, hl⟩ := (Int.modEq_iff_dvd.mp hc.symm)
    exact ⟨l, by linarith⟩
  refine ⟨j, hj, -l, ?_⟩
  have hjr : (j : ℝ) ≤ q - 1 := by
    have : j + 1 ≤ q := hj
    have : ((j + 1 : ℕ) : ℝ) ≤ q := by exact_mod_cast this
    push_cast at this; linarith
  have hl' : (j : ℝ) * p = y + q * l := by exact_mod_cast hl
  have e : (t - ((s + j : Nat) : ℝ) / golden - ((-l : ℤ) : ℝ)) * q = (q * t' - y) + (((q : ℝ) - 1) / 2 - j) * (q * eps) := by
    have h1 : (1 : ℝ) / golden = eps + p / q := by rw [heps]; ring
    have h2 : ((s + j : Nat) : ℝ) / golden = (s : ℝ) / golden + j * (eps + p / q) := by rw [← h1]; push_cast; ring
    have h3 : (y : ℝ) = j * p - q * l := by linarith
    rw [h2, h3, ht']
    push_cast
    field_simp
    ring
  have hb : |(((q : ℝ) - 1) / 2 - j) * (q * eps)| ≤ 31 / 100 := by
    rw [abs_mul, abs_mul, abs_of_pos hqr]
    have h1 : |((q : ℝ) - 1) / 2 - j| ≤ q / 2 := by
      rw [abs_le]; constructor <;> linarith [(Nat.cast_nonneg j : (0 : ℝ) ≤ j)]
    calc |((q : ℝ) - 1) / 2 - j| * (q * |eps|) ≤ q / 2 * (q * |eps|) := mul_le_mul_of_nonneg_right h1 (by positivity)
      _ = q ^ 2 * |eps| / 2 := by ring
      _ ≤ 31 / 100 := by linarith
  calc |t - ((s + j : Nat) : ℝ) / golden - ((-l : ℤ) : ℝ)| * q
      = |(t - ((s + j : Nat) : ℝ) / golden - ((-l : ℤ) : ℝ)) * q| := by rw [abs_mul, abs_of_pos hqr]
    _ ≤ |q * t' - y| + |(((q : ℝ) - 1) / 2 - j) * (q * eps)| := by rw [e]; exact abs_add_le _ _
    _ ≤ 81 / 100 := by linarith

/-- A Fibonacci number that is at most `x` and more than half of it (or 1, below 1). -/
theorem fib_size {x : ℝ} (h0 : 0 ≤ x) : ∃ m, x < 2 * Nat.fib (m + 1) ∧
    (Nat.fib (m + 1) = 1 ∨ (Nat.fib (m + 1) : ℝ) ≤ x) := by
  by_cases h1 : x < 1
  · exact ⟨0, by simp; linarith, Or.inl rfl⟩
  push Not at h1
  have hf : 1 ≤ ⌊x⌋₊ := Nat.le_floor (by simpa using h1)
  set k := Nat.greatestFib ⌊x⌋₊ with hk
  have hk1 : Nat.fib k ≤ ⌊x⌋₊ := Nat.fib_greatestFib_le _
  have hk2 : ⌊x⌋₊ < Nat.fib (k + 1) := Nat.lt_fib_greatestFib_add_one _
  have hk0 : 0 < k := Nat.greatestFib_pos.mpr (by omega)
  obtain ⟨m, hm⟩ : ∃ m, k = m + 1 := ⟨k - 1, by omega⟩
  refine ⟨m, ?_, Or.inr ?_⟩
  · rw [← hm]
    have h3 : Nat.fib (k + 1) ≤ 2 * Nat.fib k := by
      rw [hm, Nat.fib_add_two]
      have := Nat.fib_le_fib_succ (n := m)
      omega
    have h4 : x < (⌊x⌋₊ : ℝ) + 1 := Nat.lt_floor_add_one x
    have h5 : ((⌊x⌋₊ + 1 : ℕ) : ℝ) ≤ ((2 * Nat.fib k : ℕ) : ℝ) := by exact_mod_cast (by omega : ⌊x⌋₊ + 1 ≤ 2 * Nat.fib k)
    push_cast at h5
    linarith
  · rw [← hm]
    exact le_trans (by exact_mod_cast hk1) (Nat.floor_le h0)

/-- The inequality behind `cover`, in units in which the surface has area `N`. -/
theorem cover_scaled {a b t w : ℝ} {q : Nat} (hq : 1 ≤ q) (ha : 0 ≤ a) (hb : 0 ≤ b) (ht0 : 0 ≤ t)
    (hw : 0 ≤ w) (hab : a * (a + 2 * b) ≤ (2 * q + 2) ^ 2) (hbu : b ≤ w + 2 * q + 2) (hbl : 9 / 10 * w ≤ b) (ht : t ≤ 1)
    (htq : t * (q : ℝ) ^ 2 ≤ 648 / 100) (hwu : 5 * w < 4 * (q : ℝ) ^ 2) (hwl : q = 1 ∨ (q : ℝ) ^ 2 ≤ 5 * w) :
    a + 2 * b * t ≤ 30 := by
  have hq' : (1 : ℝ) ≤ q := by exact_mod_cast hq
  have ha2 : a ≤ 2 * q + 2 := by
    by_contra h
    push Not at h
    nlinarith [mul_nonneg ha hb]
  have hbt : 2 * b * t ≤ 2 * (w + 2 * q + 2) * t := by
    apply mul_le_mul_of_nonneg_right _ ht0; linarith
  have hbt' : 2 * (w + 2 * q + 2) * t ≤ 2 * (w + 2 * q + 2) := by
    have : 0 ≤ 2 * (w + 2 * q + 2) := by positivity
    nlinarith
  by_cases h7 : 7 ≤ q
  · have h7' : (7 : ℝ) ≤ q := by exact_mod_cast h7
    have hwl' : (q : ℝ) ^ 2 ≤ 5 * w := by
      rcases hwl with h | h
      · omega
      · exact h
    have h1 : a * (36 / 100 * (q : ℝ) ^ 2) ≤ (2 * q + 2) ^ 2 := by
      have : a * (36 / 100 * (q : ℝ) ^ 2) ≤ a * (a + 2 * b) := mul_le_mul_of_nonneg_left (by linarith) ha
      linarith
    have h2 : (2 * (w + 2 * q + 2) * t) * q ^ 2 ≤ 2 * (4 / 5 * q ^ 2 + 2 * q + 2) * (648 / 100) := by
      calc (2 * (w + 2 * q + 2) * t) * (q : ℝ) ^ 2 = 2 * (w + 2 * q + 2) * (t * q ^ 2) := by ring
        _ ≤ 2 * (w + 2 * q + 2) * (648 / 100) := mul_le_mul_of_nonneg_left htq (by positivity)
        _ ≤ 2 * (4 / 5 * q ^ 2 + 2 * q + 2) * (648 / 100) := by apply mul_le_mul_of_nonneg_right _ (by norm_num); linarith
    have hq2 : (0 : ℝ) < (q : ℝ) ^ 2 := by positivity
    have h49 : (7 : ℝ) * q ≤ (q : ℝ) ^ 2 := by nlinarith
    have h3 : (a + 2 * (w + 2 * q + 2) * t) * (q : ℝ) ^ 2 ≤ 30 * (q : ℝ) ^ 2 := by nlinarith
    have := le_of_mul_le_mul_right h3 hq2
    linarith
  · by_cases h3 : 3 ≤ q
    · have h2 : (2 * (w + 2 * q + 2) * t) * q ^ 2 ≤ 2 * (4 / 5 * q ^ 2 + 2 * q + 2) * (648 / 100) := by
        calc (2 * (w + 2 * q + 2) * t) * (q : ℝ) ^ 2 = 2 * (w + 2 * q + 2) * (t * q ^ 2) := by ring
          _ ≤ 2 * (w + 2 * q + 2) * (648 / 100) := mul_le_mul_of_nonneg_left htq (by positivity)
          _ ≤ 2 * (4 / 5 * q ^ 2 + 2 * q + 2) * (648 / 100) := by apply mul_le_mul_of_nonneg_right _ (by norm_num); linarith
      rcases (by omega : q = 3 ∨ q = 4 ∨ q = 5 ∨ q = 6) with rfl | rfl | rfl | rfl <;> norm_num at * <;> linarith
    · rcases (by omega : q = 1 ∨ q = 2) with rfl | rfl <;> norm_num at * <;> linarith


/-- As many consecutive points as `q`, on the side of the equator of a height `z`, are at heights near it. -/
theorem lattice_window {n q : Nat} {z : ℝ} (hq : 1 ≤ q) (hqn : 2 * q + 6 ≤ n + 2) (h0 : -1 ≤ z) (h1 : z ≤ 1) :
    ∃ s, s + q ≤ n ∧ ∀ j, j < q →
      (2 * (((s + j : Nat) : ℝ) + 1) / ((n : ℝ) + 2) - 1 - z) ^ 2 ≤ ((2 * q + 2) / ((n : ℝ) + 2)) ^ 2 ∧
      ((2 * (((s + j : Nat) : ℝ) + 1) / ((n : ℝ) + 2) - 1) ^ 2 ≤ z ^ 2 ∨
        (2 * (((s + j : Nat) : ℝ) + 1) / ((n : ℝ) + 2) - 1) ^ 2 ≤ ((2 * q + 2) / ((n : ℝ) + 2)) ^ 2) := by
  have hN : (0 : ℝ) < (n : ℝ) + 2 := by positivity
  have hqn' : (2 : ℝ) * q + 6 ≤ n + 2 := by exact_mod_cast hqn
  have hq' : (1 : ℝ) ≤ q := by exact_mod_cast hq
  set N := (n : ℝ) + 2 with hNd
  set H := N * (z + 1) / 2 with hH
  have hH0 : 0 ≤ H := by apply div_nonneg _ (by norm_num); exact mul_nonneg hN.le (by linarith)
  have hzH : z = 2 * H / N - 1 := by rw [hH]; field_simp; ring
  -- from bounds on the number of the point to bounds on its height
  have fin : ∀ i : ℝ, (z < 0 ∧ H ≤ i ∧ i ≤ H + q) ∨ (0 ≤ z ∧ H - (q + 1) ≤ i ∧ i ≤ H) →
      (2 * i / N - 1 - z) ^ 2 ≤ ((2 * q + 2) / N) ^ 2 ∧
        ((2 * i / N - 1) ^ 2 ≤ z ^ 2 ∨ (2 * i / N - 1) ^ 2 ≤ ((2 * q + 2) / N) ^ 2) := by
    intro i hi
    have hd : 2 * i / N - 1 - z = 2 * (i - H) / N := by rw [hzH]; ring
    set x := 2 * i / N - 1 with hx
    set D := (2 * (q : ℝ) + 2) / N with hD
    have hD0 : 0 < D := by positivity
    have hxz : x = z + 2 * (i - H) / N := by linarith
    rcases hi with ⟨hz, a1, a2⟩ | ⟨hz, a1, a2⟩
    · have b1 : 0 ≤ x - z := by rw [hd]; apply div_nonneg _ hN.le; linarith
      have b2 : x - z ≤ D := by rw [hd, hD]; apply div_le_div_of_nonneg_right _ hN.le; linarith
      refine ⟨by apply sq_le_sq'; linarith; exact b2, ?_⟩
      rcases le_total x 0 with hx0 | hx0
      · left; rw [← neg_sq x, ← neg_sq z]; exact pow_le_pow_left₀ (by linarith) (by linarith) 2
      · right; exact pow_le_pow_left₀ hx0 (by linarith) 2
    · have b1 : x - z ≤ 0 := by rw [hd]; apply div_nonpos_of_nonpos_of_nonneg _ hN.le; linarith
      have b2 : -D ≤ x - z := by
        rw [hd, hD, ← neg_div]; apply div_le_div_of_nonneg_right _ hN.le; linarith
      refine ⟨by apply sq_le_sq' b2; linarith, ?_⟩
      rcases le_total 0 x with hx0 | hx0
      · left; exact pow_le_pow_left₀ hx0 (by linarith) 2
      · right; rw [← neg_sq x]; exact pow_le_pow_left₀ (by linarith) (by linarith) 2
  have hHN : H ≤ N := by rw [hH, div_le_iff₀ (by norm_num)]; nlinarith
  by_cases hz : z < 0
  · have hHh : H ≤ N / 2 := by rw [hH]; apply div_le_div_of_nonneg_right _ (by norm_num); nlinarith
    have hc1 := Nat.le_ceil H
    have hc2 := Nat.ceil_lt_add_one hH0
    rcases Nat.eq_zero_or_pos ⌈H⌉₊ with hc | hc
    · refine ⟨0, by omega, fun j hj => fin _ (Or.inl ⟨hz, ?_, ?_⟩)⟩
      · rw [hc] at hc1; push_cast at hc1 ⊢; linarith [(Nat.cast_nonneg j : (0 : ℝ) ≤ j)]
      · have : ((0 + j + 1 : ℕ) : ℝ) ≤ q := by exact_mod_cast (by omega : 0 + j + 1 ≤ q)
        push_cast at this ⊢; linarith
    · have hs : ((⌈H⌉₊ - 1 : ℕ) : ℝ) = ⌈H⌉₊ - 1 := by rw [Nat.cast_sub hc]; simp
      refine ⟨⌈H⌉₊ - 1, ?_, fun j hj => fin _ (Or.inl ⟨hz, ?_, ?_⟩)⟩
      · have : ((⌈H⌉₊ - 1 + q : ℕ) : ℝ) ≤ n := by push_cast; rw [hs]; linarith
        exact_mod_cast this
      · push_cast; rw [hs]; linarith [(Nat.cast_nonneg j : (0 : ℝ) ≤ j)]
      · have : ((j + 1 : ℕ) : ℝ) ≤ q := by exact_mod_cast (by omega : j + 1 ≤ q)
        push_cast at this ⊢; rw [hs]; linarith
  · push Not at hz
    have hHh : N / 2 ≤ H := by rw [hH]; apply div_le_div_of_nonneg_right _ (by norm_num); nlinarith
    have hf1 := Nat.floor_le hH0
    have hf2 := Nat.lt_floor_add_one H
    set e := min ⌊H⌋₊ n with he
    have hen : e ≤ n := min_le_right _ _
    have heH : (e : ℝ) ≤ H := le_trans (by exact_mod_cast min_le_left _ _) hf1
    have hel : H - 2 ≤ e := by
      rcases min_cases ⌊H⌋₊ n with ⟨h, -⟩ | ⟨h, -⟩
      · rw [he, h]; linarith
      · rw [he, h]; linarith
    have hqe : q ≤ e := by
      have : (q : ℝ) ≤ e := by linarith
      exact_mod_cast this
    have hs : ((e - q : ℕ) : ℝ) = e - q := by rw [Nat.cast_sub hqe]
    refine ⟨e - q, by omega, fun j hj => fin _ (Or.inr ⟨hz, ?_, ?_⟩)⟩
    · push_cast; rw [hs]; linarith [(Nat.cast_nonneg j : (0 : ℝ) ≤ j)]
    · have : ((j + 1 : ℕ) : ℝ) ≤ q := by exact_mod_cast (by omega : j + 1 ≤ q)
      push_cast at this ⊢; rw [hs]; linarith

/-- From the heights of two points of the unit sphere and the square `t` of the sine of half their difference of
longitude: the points are near. -/
theorem cover {z w cz cw t N : ℝ} {q : Nat} (hz : z ^ 2 + cz ^ 2 = 1) (hw : w ^ 2 + cw ^ 2 = 1) (h0 : 0 ≤ cz) (h1 : 0 ≤ cw)
    (hN : 0 < N) (hq : 1 ≤ q) (hd : (w - z) ^ 2 ≤ ((2 * q + 2) / N) ^ 2)
    (hside : w ^ 2 ≤ z ^ 2 ∨ w ^ 2 ≤ ((2 * q + 2) / N) ^ 2) (hsmall : (2 * q + 2) / N ≤ 43 / 100)
    (ht0 : 0 ≤ t) (ht : t ≤ 1) (htq : t * (q : ℝ) ^ 2 ≤ 648 / 100)
    (hwu : 5 * (cz ^ 2 * N) < 4 * (q : ℝ) ^ 2) (hwl : q = 1 ∨ (q : ℝ) ^ 2 ≤ 5 * (cz ^ 2 * N)) :
    1 - (z * w + cz * cw * (1 - 2 * t)) ≤ 30 / N := by
  set B := cz * cw with hB
  set A := 1 - z * w - B with hA
  set D := (2 * (q : ℝ) + 2) / N with hD
  have hD0 : 0 < D := by positivity
  have hB0 : 0 ≤ B := mul_nonneg h0 h1
  have hBs : B ^ 2 = (1 - z ^ 2) * (1 - w ^ 2) := by
    rw [hB, mul_pow, show cz ^ 2 = 1 - z ^ 2 by linarith, show cw ^ 2 = 1 - w ^ 2 by linarith]
  have hAB : A * (A + 2 * B) = (w - z) ^ 2 := by rw [hA]; linear_combination -hBs
  have hA0 : 0 ≤ A := by
    have : (z * w + B) ≤ 1 := by nlinarith [sq_nonneg (z - w), sq_nonneg (cz - cw)]
    linarith
  have hgoal : 1 - (z * w + B * (1 - 2 * t)) = A + 2 * B * t := by rw [hA]; ring
  rw [hgoal, le_div_iff₀ hN]
  have hcz1 : cz ^ 2 ≤ 1 := by linarith [sq_nonneg z]
  -- the difference of height
  have habs : |w - z| ≤ D := by rw [← abs_of_pos hD0]; exact sq_le_sq.mp hd
  have hwz := abs_le.mp habs
  have hzz : z ^ 2 ≤ 1 := by linarith [sq_nonneg cz]
  have hz1 := abs_le.mp ((sq_le_one_iff_abs_le_one z).mp hzz)
  have hww : w ^ 2 ≤ 1 := by linarith [sq_nonneg cw]
  have hw1 := abs_le.mp ((sq_le_one_iff_abs_le_one w).mp hww)
  have hcwu : cw ^ 2 ≤ cz ^ 2 + 2 * D := by
    have e : cw ^ 2 = cz ^ 2 + (z - w) * (z + w) := by linear_combination hw - hz
    have h2 : (z - w) * (z + w) ≤ |z - w| * |z + w| := by rw [← abs_mul]; exact le_abs_self _
    have h3 : |z + w| ≤ 2 := by rw [abs_le]; constructor <;> linarith
    have h4 : |z - w| ≤ D := by rw [abs_sub_comm]; exact habs
    have h5 : |z - w| * |z + w| ≤ D * 2 := mul_le_mul h4 h3 (abs_nonneg _) hD0.le
    linarith
  have hcwl : 81 / 100 * cz ^ 2 ≤ cw ^ 2 := by
    rcases hside with h | h
    · linarith [sq_nonneg cz]
    · have : D ^ 2 ≤ (43 / 100) ^ 2 := pow_le_pow_left₀ hD0.le hsmall 2
      linarith
  have hBu : B * N ≤ cz ^ 2 * N + 2 * q + 2 := by
    have h2 : B ^ 2 ≤ cz ^ 2 * (cz ^ 2 + 2 * D) := by
      rw [hB, mul_pow]; exact mul_le_mul_of_nonneg_left hcwu (sq_nonneg _)
    have h3 : B ≤ cz ^ 2 + D := by
      refine (pow_le_pow_iff_left₀ hB0 (by positivity) two_ne_zero).mp (h2.trans ?_)
      linarith [sq_nonneg D]
    have h4 : B * N ≤ (cz ^ 2 + D) * N := mul_le_mul_of_nonneg_right h3 hN.le
    have h5 : D * N = 2 * q + 2 := by rw [hD]; field_simp
    linarith
  have hBl : 9 / 10 * (cz ^ 2 * N) ≤ B * N := by
    have h2 : (9 / 10 * cz ^ 2) ^ 2 ≤ B ^ 2 := by
      rw [hB, mul_pow cz cw]
      have := mul_le_mul_of_nonneg_left hcwl (sq_nonneg cz)
      linarith
    have h3 : 9 / 10 * cz ^ 2 ≤ B := (pow_le_pow_iff_left₀ (by positivity) hB0 two_ne_zero).mp h2
    have := mul_le_mul_of_nonneg_right h3 hN.le
    linarith
  have hab : (A * N) * (A * N + 2 * (B * N)) ≤ (2 * q + 2) ^ 2 := by
    have e1 : (A * N) * (A * N + 2 * (B * N)) = (w - z) ^ 2 * N ^ 2 := by rw [← hAB]; ring
    have e2 : (2 * (q : ℝ) + 2) ^ 2 = D ^ 2 * N ^ 2 := by rw [hD]; field_simp
    rw [e1, e2]
    exact mul_le_mul_of_nonneg_right hd (by positivity)
  have := cover_scaled hq (mul_nonneg hA0 hN.le) (mul_nonneg hB0 hN.le) ht0 (by positivity) hab hBu hBl ht htq hwu hwl
  linarith

/-- The surface of the ellipsoid is, within one per cent, at least that of the sphere of the mean radius. -/
theorem surface_lower_mean : 99 / 100 * (4 * Real.pi * meanRadius ^ 2) ≤ surfaceArea := by
  obtain ⟨h0, h1⟩ := ecc_range
  have hpi := Real.pi_pos
  have hlog : 2 * eccentricity ≤ Real.log ((1 + eccentricity) / (1 - eccentricity)) := by
    have h2 := Real.le_log_one_add_of_nonneg (x := 2 * eccentricity / (1 - eccentricity))
      (div_nonneg (by linarith) (by linarith))
    have h3 : (0 : ℝ) < 1 - eccentricity := by linarith
    have e1 : 1 + 2 * eccentricity / (1 - eccentricity) = (1 + eccentricity) / (1 - eccentricity) := by field_simp; ring
    have e2 : 2 * (2 * eccentricity / (1 - eccentricity)) / (2 * eccentricity / (1 - eccentricity) + 2) = 2 * eccentricity := by
      field_simp; ring
    rwa [e1, e2] at h2
  have h2 : Real.pi * polarRadius ^ 2 / eccentricity * (2 * eccentricity) = 2 * Real.pi * polarRadius ^ 2 := by field_simp
  have h3 := mul_le_mul_of_nonneg_left hlog (by positivity : 0 ≤ Real.pi * polarRadius ^ 2 / eccentricity)
  rw [h2] at h3
  have h4 : 99 / 100 * (4 * meanRadius ^ 2) ≤ 2 * equatorialRadius ^ 2 + 2 * polarRadius ^ 2 := by
    unfold meanRadius equatorialRadius polarRadius; norm_num
  unfold surfaceArea
  nlinarith

/-- Every place has a point of the lattice of `n` points, at least 140, near it. -/
theorem lattice_near {n : Nat} (hn : 140 ≤ n) (lon lat : ℝ) (h0 : -90 ≤ lat) (h1 : lat ≤ 90) :
    ∃ i, i < n ∧ 1 - Real.cos (centralAngle (lon, lat) (fibLongitude i, fibLatitude i n)) ≤ 30 / ((n : ℝ) + 2) := by
  have hpi := Real.pi_pos
  have hN : (0 : ℝ) < (n : ℝ) + 2 := by positivity
  have hn' : (140 : ℝ) ≤ n := by exact_mod_cast hn
  set N := (n : ℝ) + 2 with hNd
  have cpos : ∀ t : ℝ, -90 ≤ t → t ≤ 90 → 0 ≤ Real.cos (t * Real.pi / 180) := by
    intro t h1 h2
    apply Real.cos_nonneg_of_mem_Icc
    constructor <;> nlinarith
  set z := Real.sin (lat * Real.pi / 180) with hz
  set cz := Real.cos (lat * Real.pi / 180) with hcz
  have hzz : z ^ 2 + cz ^ 2 = 1 := Real.sin_sq_add_cos_sq _
  have hcz0 : 0 ≤ cz := cpos lat h0 h1
  have hcz1 : cz ≤ 1 := Real.cos_le_one _
  -- the number of points to choose from
  set x := Real.sqrt (5 * (cz ^ 2 * N)) with hx
  have hx2 : x ^ 2 = 5 * (cz ^ 2 * N) := Real.sq_sqrt (by positivity)
  have hx0 : 0 ≤ x := Real.sqrt_nonneg _
  obtain ⟨m, hm1, hm2⟩ := fib_size hx0
  set q := Nat.fib (m + 1) with hq
  have hq1 : 1 ≤ q := Nat.fib_pos.mpr (by omega)
  have hq1' : (1 : ℝ) ≤ q := by exact_mod_cast hq1
  have hwu : 5 * (cz ^ 2 * N) < 4 * (q : ℝ) ^ 2 := by
    rw [← hx2]
    have := pow_lt_pow_left₀ hm1 hx0 two_ne_zero
    linarith
  have hwl : q = 1 ∨ (q : ℝ) ^ 2 ≤ 5 * (cz ^ 2 * N) := by
    rcases hm2 with h | h
    · exact Or.inl h
    · right; rw [← hx2]; exact pow_le_pow_left₀ (by positivity) h 2
  have hqN : (q : ℝ) ^ 2 ≤ 5 * N := by
    rcases hwl with h | h
    · rw [h]; push_cast; linarith
    · refine h.trans ?_
      have : cz ^ 2 ≤ 1 := by nlinarith
      nlinarith
  have hq5 : 5 * (2 * (q : ℝ) + 2) ≤ 215 / 100 * N := by
    -- `q² ≤ 5 N` and `N ≥ 142`
    by_contra hlt
    push Not at hlt
    have h2 : 215 / 1000 * N - 1 < q := by linarith
    have h3 : (215 / 1000 * N - 1) ^ 2 < (q : ℝ) ^ 2 := pow_lt_pow_left₀ h2 (by linarith) two_ne_zero
    nlinarith
  have hsmall : (2 * (q : ℝ) + 2) / N ≤ 43 / 100 := by rw [div_le_iff₀ hN]; linarith
  have hqn : 2 * q + 6 ≤ n + 2 := by
    have : (2 : ℝ) * q + 6 ≤ n + 2 := by linarith
    exact_mod_cast this
  obtain ⟨s, hsn, hwin⟩ := lattice_window hq1 hqn (Real.neg_one_le_sin (lat * Real.pi / 180)) (Real.sin_le_one _)
  obtain ⟨j, hj, l, hl⟩ := golden_near m s (lon / 360)
  rw [← hq] at hj hl
  obtain ⟨hd, hside⟩ := hwin j hj
  have hi : s + j < n := by omega
  refine ⟨s + j, hi, ?_⟩
  obtain ⟨b1, b2⟩ := fibLat_range hi
  have hsf := sinDeg_fib hi
  unfold sinDeg at hsf
  rw [← hsf] at hd hside
  -- the difference of longitude
  set v := lon / 360 - ((s + j : Nat) : ℝ) / golden - l with hv
  have hcos : Real.cos ((lon - fibLongitude (s + j)) * Real.pi / 180) = 1 - 2 * Real.sin (Real.pi * v) ^ 2 := by
    obtain ⟨-, -, r, hr⟩ := fibLon_spec (s + j)
    have : (lon - fibLongitude (s + j)) * Real.pi / 180 = 2 * (Real.pi * v) + (l - r : ℤ) * (2 * Real.pi) := by
      rw [hr, hv]; push_cast; ring
    rw [this, Real.cos_add_int_mul_two_pi, Real.cos_two_mul]
    linear_combination 2 * Real.sin_sq_add_cos_sq (Real.pi * v)
  have ht1 : Real.sin (Real.pi * v) ^ 2 ≤ 1 := Real.sin_sq_le_one _
  have htq : Real.sin (Real.pi * v) ^ 2 * (q : ℝ) ^ 2 ≤ 648 / 100 := by
    have h2 : |Real.sin (Real.pi * v)| ≤ Real.pi * |v| := by
      have := Real.abs_sin_le_abs (x := Real.pi * v)
      rwa [abs_mul, abs_of_pos hpi] at this
    have h3 : |Real.sin (Real.pi * v)| * q ≤ 3.1416 * (81 / 100) := by
      calc |Real.sin (Real.pi * v)| * (q : ℝ) ≤ Real.pi * |v| * q := mul_le_mul_of_nonneg_right h2 (by positivity)
        _ = Real.pi * (|v| * q) := by ring
        _ ≤ 3.1416 * (81 / 100) := mul_le_mul Real.pi_lt_d4.le hl (by positivity) (by norm_num)
    have h4 := pow_le_pow_left₀ (by positivity) h3 2
    rw [mul_pow, sq_abs] at h4
    linarith
  have hfin := cover hzz (Real.sin_sq_add_cos_sq (fibLatitude (s + j) n * Real.pi / 180)) hcz0 (cpos _ b1.le b2.le) hN hq1 hd hside
    hsmall (sq_nonneg (Real.sin (Real.pi * v))) ht1 htq hwu hwl
  rw [← hcos] at hfin
  have hce : Real.cos (centralAngle (lon, lat) (fibLongitude (s + j), fibLatitude (s + j) n)) =
      z * Real.sin (fibLatitude (s + j) n * Real.pi / 180) + cz * Real.cos (fibLatitude (s + j) n * Real.pi / 180) *
        Real.cos ((lon - fibLongitude (s + j)) * Real.pi / 180) := by
    have hB := Real.sin_sq_add_cos_sq (fibLatitude (s + j) n * Real.pi / 180)
    have hcc := mul_nonneg hcz0 (cpos _ b1.le b2.le)
    have hl' := mul_le_mul_of_nonneg_left (Real.neg_one_le_cos ((lon - fibLongitude (s + j)) * Real.pi / 180)) hcc
    have hu' := mul_le_mul_of_nonneg_left (Real.cos_le_one ((lon - fibLongitude (s + j)) * Real.pi / 180)) hcc
    unfold centralAngle
    apply Real.cos_arccos
    · simp only [← hz, ← hcz]
      nlinarith [sq_nonneg (z + Real.sin (fibLatitude (s + j) n * Real.pi / 180)),
        sq_nonneg (cz - Real.cos (fibLatitude (s + j) n * Real.pi / 180))]
    · simp only [← hz, ← hcz]
      nlinarith [sq_nonneg (z - Real.sin (fibLatitude (s + j) n * Real.pi / 180)),
        sq_nonneg (cz - Real.cos (fibLatitude (s + j) n * Real.pi / 180))]
  rw [hce]
  exact hfin

/-- C132: every place on the Earth has a point of the lattice within twice the distance that is asked for (up to a
third of the radius of the Earth). -/
theorem C132_cover (clip : Clip) (distance elevation : ℝ) (h0 : 0 < distance) (h1 : distance ≤ meanRadius / 3) :
    ∃ pts, fibonacciPoints clip distance elevation none = .ok pts ∧
      ∀ lon lat : ℝ, -90 ≤ lat → lat ≤ 90 →
        ∃ p ∈ pts, meanRadius * centralAngle (lon, lat) (p.lon, p.lat) ≤ 2 * distance := by
  have hR := meanRadius_gt
  have hR0 : 0 < meanRadius := by linarith
  have hpi := Real.pi_gt_three
  obtain ⟨n, hn, -, hcap⟩ := C44_area distance h0 (by nlinarith)
  refine ⟨_, fibonacci_none clip distance elevation n hn, ?_⟩
  intro lon lat hl1 hl2
  set u := distance / 2 / meanRadius with hu
  have hu0 : 0 < u := by positivity
  have hu1 : u ≤ 1 / 6 := by rw [hu, div_div, div_le_iff₀ (by positivity)]; linarith
  have hu2 : u ^ 2 ≤ 1 / 36 := by nlinarith
  -- the number of points
  have hcnt : 198 / 100 < ((n : ℝ) + 1) * (1 - Real.cos u) := by
    have := lt_of_le_of_lt surface_lower_mean hcap
    unfold capArea at this
    rw [← hu] at this
    have h2 : 2 * Real.pi * meanRadius ^ 2 * (198 / 100) < 2 * Real.pi * meanRadius ^ 2 * ((n + 1) * (1 - Real.cos u)) := by linarith
    exact lt_of_mul_lt_mul_left h2 (by positivity)
  have hv : 1 - Real.cos u ≤ u ^ 2 / 2 := by have := Real.one_sub_sq_div_two_le_cos (x := u); linarith
  have hn1 : (0 : ℝ) < (n : ℝ) + 1 := by positivity
  have hcnt' : 198 / 100 < ((n : ℝ) + 1) * (u ^ 2 / 2) := lt_of_lt_of_le hcnt (mul_le_mul_of_nonneg_left hv hn1.le)
  have h140 : 140 ≤ n := by
    have : (140 : ℝ) < n := by nlinarith
    exact_mod_cast this.le
  obtain ⟨i, hi, hcos⟩ := lattice_near h140 lon lat hl1 hl2
  refine ⟨⟨i, fibLongitude i, fibLatitude i n, elevation⟩, ?_, ?_⟩
  · simp only [List.mem_map, List.mem_range]
    exact ⟨i, hi, rfl⟩
  show meanRadius * centralAngle (lon, lat) (fibLongitude i, fibLatitude i n) ≤ 2 * distance
  set g := centralAngle (lon, lat) (fibLongitude i, fibLatitude i n) with hg
  have hgpi : g ≤ Real.pi := Real.arccos_le_pi _
  have hd : 2 * distance = meanRadius * (4 * u) := by rw [hu]; field_simp; norm_num
  rw [hd]
  apply mul_le_mul_of_nonneg_left _ hR0.le
  by_contra hlt
  push Not at hlt
  have hc := Real.cos_lt_cos_of_nonneg_of_le_pi (by positivity : 0 ≤ 4 * u) hgpi hlt
  have h4u := Real.cos_bound (x := 4 * u) (by rw [abs_of_pos (by positivity)]; linarith)
  rw [abs_of_pos (by positivity : 0 < 4 * u)] at h4u
  have h5 := (abs_le.mp h4u).2
  have h6 : u ^ 4 ≤ 1 / 36 * u ^ 2 := by
    have : u ^ 4 = u ^ 2 * u ^ 2 := by ring
    rw [this]; exact mul_le_mul_of_nonneg_right hu2 (by positivity)
  have h7 : (4 * u) ^ 4 = 256 * u ^ 4 := by ring
  have h8 : (4 * u) ^ 2 = 16 * u ^ 2 := by ring
  rw [h7, h8] at h5
  have hup : 76 / 10 * u ^ 2 ≤ 1 - Real.cos g := by linarith [sq_nonneg u]
  have hN : (0 : ℝ) < (n : ℝ) + 2 := by positivity
  rw [le_div_iff₀ hN] at hcos
  have h9 : 76 / 10 * u ^ 2 * ((n : ℝ) + 2) ≤ 30 := le_trans (mul_le_mul_of_nonneg_right hup hN.le) hcos
  linarith [sq_nonneg u]

/-- The hypotheses are met: with points a thousand kilometres apart the South Pole is within two thousand of one. -/
example (clip : Clip) : ∃ pts, fibonacciPoints clip 1000000 0 none = .ok pts ∧
    ∃ p ∈ pts, meanRadius * centralAngle (0, -90) (p.lon, p.lat) ≤ 2000000 := by
  have hR := meanRadius_gt
  obtain ⟨pts, h, hc⟩ := C132_cover clip 1000000 0 (by norm_num) (by linarith)
  obtain ⟨p, hp, hd⟩ := hc 0 (-90) (by norm_num) (by norm_num)
  exact ⟨pts, h, p, hp, by linarith⟩

end Tatc.Props
