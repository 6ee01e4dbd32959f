import Verif.Props.Streets
import Mathlib.Analysis.Calculus.MeanValue
import Mathlib.Analysis.Convex.SpecificFunctions.Deriv

/-!
# C133: with every packing distance above √(4/7) there are streets of coverage with gaps
-/

namespace Tatc.Props
open Tatc.Num Tatc.Geometry Tatc.Spec Tatc.Orbit Tatc.Constellation
open scoped Classical

theorem sin_scale {c x : ℝ} (hc0 : 0 ≤ c) (hc1 : c ≤ 1) (hx0 : 0 ≤ x) (hx1 : x ≤ Real.pi) : c * Real.sin x ≤ Real.sin (c * x) := by
  have h1 : x ∈ Set.Icc 0 Real.pi := ⟨hx0, hx1⟩
  have h2 : (0 : ℝ) ∈ Set.Icc 0 Real.pi := ⟨le_rfl, Real.pi_pos.le⟩
  have h := strictConcaveOn_sin_Icc.concaveOn.2 h1 h2 hc0 (by linarith : 0 ≤ 1 - c) (by ring)
  simpa using h

theorem sin_lip_le {x y : ℝ} (h : x ≤ y) : Real.sin y - Real.sin x ≤ y - x := by
  rcases h.eq_or_lt with rfl | h
  · simp
  obtain ⟨z, -, hz⟩ := exists_deriv_eq_slope Real.sin h Real.continuous_sin.continuousOn Real.differentiable_sin.differentiableOn
  rw [Real.deriv_sin, eq_div_iff (by linarith)] at hz
  rw [← hz]
  nlinarith [Real.cos_le_one z]

theorem sin_slope_ge {x y : ℝ} (h0 : 0 ≤ x) (h : x < y) (h1 : y ≤ Real.pi) : Real.cos y * (y - x) ≤ Real.sin y - Real.sin x := by
  obtain ⟨z, ⟨hz1, hz2⟩, hz⟩ := exists_deriv_eq_slope Real.sin h Real.continuous_sin.continuousOn Real.differentiable_sin.differentiableOn
  rw [Real.deriv_sin, eq_div_iff (by linarith)] at hz
  rw [← hz]
  have := Real.cos_le_cos_of_nonneg_of_le_pi (by linarith) h1 hz2.le
  nlinarith

/-- The half angle between planes for the half angle between satellites. -/
noncomputable def planeAngle (x : ℝ) : ℝ := Real.arcsin (Real.sqrt 3 / 2 * Real.sin x)

theorem root_range : 0 < Real.sqrt 3 / 2 ∧ Real.sqrt 3 / 2 < 1 ∧ (Real.sqrt 3 / 2) ^ 2 = 3 / 4 := by
  have h3 : Real.sqrt 3 ^ 2 = 3 := Real.sq_sqrt (by norm_num)
  have h30 : 0 < Real.sqrt 3 := Real.sqrt_pos.mpr (by norm_num)
  refine ⟨by positivity, by nlinarith, by rw [div_pow, h3]; norm_num⟩

theorem planeAngle_range {x : ℝ} (h0 : 0 < x) (h1 : x ≤ Real.pi / 2) :
    0 < planeAngle x ∧ planeAngle x ≤ Real.sqrt 3 / 2 * x ∧ Real.sin (planeAngle x) = Real.sqrt 3 / 2 * Real.sin x := by
  obtain ⟨c0, c1, -⟩ := root_range
  have hpi := Real.pi_pos
  have hs : 0 < Real.sin x := Real.sin_pos_of_pos_of_lt_pi h0 (by linarith)
  have hs1 := Real.sin_le_one x
  refine ⟨Real.arcsin_pos.mpr (by positivity), ?_, Real.sin_arcsin (by nlinarith) (by nlinarith)⟩
  unfold planeAngle
  rw [← Real.arcsin_sin (x := Real.sqrt 3 / 2 * x) (by nlinarith) (by nlinarith)]
  exact Real.monotone_arcsin (sin_scale c0.le c1.le h0.le (by linarith))

/-- One satellite more in a plane needs more than one plane more. -/
theorem plane_step {x y : ℝ} (h0 : 0 < x) (hxy : x < y) (h1 : y < Real.pi / 6) :
    1 / planeAngle y + (1 / x - 1 / y) < 1 / planeAngle x := by
  have hpi := Real.pi_pos
  obtain ⟨c0, c1, -⟩ := root_range
  obtain ⟨a0, a1, a2⟩ := planeAngle_range h0 (by linarith)
  obtain ⟨b0, b1, b2⟩ := planeAngle_range (h0.trans hxy) (by linarith)
  have hlt : planeAngle x ≤ planeAngle y := by
    unfold planeAngle
    apply Real.monotone_arcsin
    exact mul_le_mul_of_nonneg_left (Real.sin_le_sin_of_le_of_le_pi_div_two (by linarith) (by linarith) hxy.le) c0.le
  have h2 := sin_lip_le hlt
  rw [a2, b2, ← mul_sub] at h2
  have h3 := sin_slope_ge h0.le hxy (by linarith)
  have hcos : Real.sqrt 3 / 2 < Real.cos y := by
    rw [← Real.cos_pi_div_six]
    exact Real.cos_lt_cos_of_nonneg_of_le_pi (by linarith) (by linarith) h1
  set c := Real.sqrt 3 / 2 with hc
  set X := planeAngle x
  set Y := planeAngle y
  have h4 : c * c * (y - x) < Y - X := by
    have : c * (c * (y - x)) < c * (Real.cos y * (y - x)) :=
      mul_lt_mul_of_pos_left (mul_lt_mul_of_pos_right hcos (by linarith)) c0
    have := mul_le_mul_of_nonneg_left h3 c0.le
    linarith
  have h5 : X * Y ≤ c * c * (x * y) := by
    have := mul_le_mul a1 b1 b0.le (by positivity)
    linarith
  have hy0 : 0 < y := h0.trans hxy
  have e1 : 1 / x - 1 / y = (y - x) / (x * y) := by field_simp
  have e2 : 1 / X - 1 / Y = (Y - X) / (X * Y) := by field_simp
  have : (y - x) / (x * y) < (Y - X) / (X * Y) := by
    rw [div_lt_div_iff₀ (by positivity) (by positivity)]
    calc (y - x) * (X * Y) ≤ (y - x) * (c * c * (x * y)) := mul_le_mul_of_nonneg_left h5 (by linarith)
      _ = c * c * (y - x) * (x * y) := by ring
      _ < (Y - X) * (x * y) := mul_lt_mul_of_pos_right h4 (by positivity)
  linarith

/-- `π / n` is at most `x` exactly when `n` is at least `π / x`. -/
theorem leastParts_of {n : Nat} {x : ℝ} (hn : 2 ≤ n) (h1 : Real.pi / n ≤ x) (h2 : x < Real.pi / ((n : ℝ) - 1)) :
    LeastParts n (2 * x) := by
  have hpi := Real.pi_pos
  have hnR : (2 : ℝ) ≤ n := by exact_mod_cast hn
  refine ⟨by omega, ?_, ?_⟩
  · rw [mul_div_assoc]; linarith
  · intro m hm h
    have hm0 : (0 : ℝ) < m := by exact_mod_cast hm
    by_contra hlt
    push Not at hlt
    have : (m : ℝ) ≤ n - 1 := by
      have : ((m + 1 : ℕ) : ℝ) ≤ n := by exact_mod_cast hlt
      push_cast at this
      linarith
    have h3 : Real.pi / ((n : ℝ) - 1) ≤ Real.pi / m := div_le_div_of_nonneg_left hpi.le hm0 this
    rw [mul_div_assoc] at h
    linarith

/-- For every even number of satellites in a plane there is a footprint with an even number of planes. -/
theorem exists_even (S : Nat) (hS : 8 ≤ S) (he : 2 ∣ S) : ∃ (t : ℝ) (P : Nat), 2 ∣ P ∧ S ≤ P ∧
    Real.sin (Real.pi / S) ≤ t ∧ t < Real.sin (Real.pi / ((S : ℝ) - 1)) ∧
    Real.sin (Real.pi / P) ≤ Real.sqrt 3 / 2 * t ∧ Real.sqrt 3 / 2 * t < Real.sin (Real.pi / ((P : ℝ) - 1)) := by
  have hpi := Real.pi_pos
  obtain ⟨c0, c1, -⟩ := root_range
  have hSR : (8 : ℝ) ≤ S := by exact_mod_cast hS
  set x := Real.pi / S with hx
  set y := Real.pi / ((S : ℝ) - 1) with hy
  have hx0 : 0 < x := by positivity
  have hxy : x < y := div_lt_div_of_pos_left hpi (by linarith) (by linarith)
  have hy6 : y < Real.pi / 6 := div_lt_div_of_pos_left hpi (by norm_num) (by linarith)
  obtain ⟨a0, a1, a2⟩ := planeAngle_range hx0 (by linarith)
  obtain ⟨b0, b1, b2⟩ := planeAngle_range (hx0.trans hxy) (by linarith)
  have hstep := plane_step hx0 hxy hy6
  set X := planeAngle x with hX
  set Y := planeAngle y with hY
  have hXpi : X < Real.pi / 6 := by
    have : Real.sqrt 3 / 2 * x ≤ x := by nlinarith
    linarith
  have hYpi : Y < Real.pi / 6 := by
    have : Real.sqrt 3 / 2 * y ≤ y := by nlinarith
    linarith
  set Q := ⌈Real.pi / X⌉₊ with hQ
  have hQ1 : Real.pi / X ≤ Q := Nat.le_ceil _
  have hQ2 : (Q : ℝ) < Real.pi / X + 1 := Nat.ceil_lt_add_one (by positivity)
  have hSX : (S : ℝ) ≤ Real.pi / X := by
    rw [le_div_iff₀ a0]
    have h1 : X ≤ x := by nlinarith
    have h2 : (S : ℝ) * x = Real.pi := by rw [hx]; field_simp
    nlinarith
  have hSQ : S ≤ Q := by exact_mod_cast hSX.trans hQ1
  have hsx : Real.sin x < Real.sin y := Real.sin_lt_sin_of_lt_of_le_pi_div_two (by linarith) (by linarith) hxy
  by_cases hev : 2 ∣ Q
  · refine ⟨Real.sin x, Q, hev, hSQ, le_rfl, hsx, ?_, ?_⟩
    · rw [← a2]
      apply Real.sin_le_sin_of_le_of_le_pi_div_two _ (by linarith)
      · rw [div_le_iff₀ (by linarith)]
        rw [div_le_iff₀ a0] at hQ1
        linarith
      · have : 0 ≤ Real.pi / (Q : ℝ) := by positivity
        linarith
    · rw [← a2]
      have hq7 : (7 : ℝ) ≤ (Q : ℝ) - 1 := by
        have : (8 : ℝ) ≤ Q := by exact_mod_cast hS.trans hSQ
        linarith
      apply Real.sin_lt_sin_of_lt_of_le_pi_div_two (by linarith)
      · rw [div_le_div_iff₀ (by linarith) (by norm_num)]; nlinarith
      · rw [lt_div_iff₀ (by linarith)]
        have : (Q : ℝ) - 1 < Real.pi / X := by linarith
        rw [lt_div_iff₀ a0] at this
        linarith
  · -- one plane less, exactly
    have hSQ' : S ≤ Q - 1 := by omega
    have hP : ((Q - 1 : ℕ) : ℝ) = (Q : ℝ) - 1 := by rw [Nat.cast_sub (by omega)]; simp
    have hq8 : (8 : ℝ) ≤ (Q : ℝ) - 1 := by rw [← hP]; exact_mod_cast hS.trans hSQ'
    have hz : Real.pi / ((Q : ℝ) - 1) ≤ Real.pi / 8 := div_le_div_of_nonneg_left hpi.le (by norm_num) hq8
    have hz0 : 0 < Real.pi / ((Q : ℝ) - 1) := by apply div_pos hpi; linarith
    refine ⟨Real.sin (Real.pi / ((Q : ℝ) - 1)) / (Real.sqrt 3 / 2), Q - 1, by omega, hSQ', ?_, ?_, ?_, ?_⟩
    · rw [le_div_iff₀ c0, mul_comm, ← a2]
      apply Real.sin_le_sin_of_le_of_le_pi_div_two (by linarith) (by linarith)
      rw [le_div_iff₀ (by linarith)]
      have : (Q : ℝ) - 1 ≤ Real.pi / X := by linarith
      rw [le_div_iff₀ a0] at this
      linarith
    · rw [div_lt_iff₀ c0, mul_comm, ← b2]
      apply Real.sin_lt_sin_of_lt_of_le_pi_div_two (by linarith) (by linarith)
      rw [div_lt_iff₀ (by linarith)]
      have h1 : Real.pi / Y < (Q : ℝ) - 1 := by
        have e1 : 1 / x - 1 / y = 1 / Real.pi := by
          rw [hx, hy]; field_simp; ring
        rw [e1] at hstep
        have h2 := mul_lt_mul_of_pos_left hstep hpi
        rw [mul_add, mul_one_div, mul_one_div, mul_one_div, div_self hpi.ne'] at h2
        linarith
      rw [div_lt_iff₀ b0] at h1
      linarith
    · rw [hP, mul_div_cancel₀ _ c0.ne']
    · rw [hP, mul_div_cancel₀ _ c0.ne']
      apply Real.sin_lt_sin_of_lt_of_le_pi_div_two (by linarith)
      · rw [div_le_div_iff₀ (by linarith) (by norm_num)]; nlinarith
      · exact div_lt_div_of_pos_left hpi (by linarith) (by linarith)

/-- Odd multiples of an even part of a half turn are away from the axis. -/
theorem odd_part {n : Nat} (hn : 2 ≤ n) (he : 2 ∣ n) (m : ℤ) : |Real.cos ((2 * m + 1) * (Real.pi / n))| ≤ Real.cos (Real.pi / n) := by
  have hpi := Real.pi_pos
  have hnR : (2 : ℝ) ≤ n := by exact_mod_cast hn
  have hc0 : 0 ≤ Real.cos (Real.pi / n) := by
    apply Real.cos_nonneg_of_mem_Icc
    have : 0 ≤ Real.pi / n := by positivity
    exact ⟨by linarith, by rw [div_le_div_iff₀ (by linarith) (by norm_num)]; nlinarith⟩
  obtain ⟨h, rfl⟩ := he
  have hh : 1 ≤ h := by omega
  have hhR : (1 : ℝ) ≤ h := by exact_mod_cast hh
  have key : Real.cos ((2 * m + 1 : ℤ) * (Real.pi / h)) ≤ Real.cos (Real.pi / h) := by
    set r := (2 * m + 1) % (2 * h) with hr
    have r0 : 0 ≤ r := Int.emod_nonneg _ (by omega)
    have r1 : r < 2 * h := Int.emod_lt_of_pos _ (by omega)
    have hdm := Int.mul_ediv_add_emod (2 * m + 1) (2 * h)
    rw [← hr] at hdm
    set q := (2 * m + 1) / (2 * h : ℤ) with hq
    have rodd : 1 ≤ r ∧ r ≤ 2 * h - 1 := by
      have : (2 * (h : ℤ) * q) = 2 * (h * q) := by ring
      omega
    have e : Real.cos ((2 * m + 1 : ℤ) * (Real.pi / h)) = Real.cos (r * (Real.pi / h)) := by
      have : ((2 * m + 1 : ℤ) : ℝ) = 2 * h * q + r := by exact_mod_cast hdm.symm
      rw [this, show (2 * (h : ℝ) * q + r) * (Real.pi / h) = r * (Real.pi / h) + q * (2 * Real.pi) by field_simp; ring,
        Real.cos_add_int_mul_two_pi]
    rw [e]
    have rR1 : (1 : ℝ) ≤ r := by exact_mod_cast rodd.1
    have rR2 : (r : ℝ) ≤ 2 * h - 1 := by exact_mod_cast rodd.2
    have hz : Real.pi / h * h = Real.pi := by field_simp
    have hz0 : 0 < Real.pi / h := by positivity
    by_cases hle : (r : ℝ) ≤ h
    · apply Real.cos_le_cos_of_nonneg_of_le_pi (by positivity) _ (by nlinarith)
      nlinarith
    · push Not at hle
      rw [← Real.cos_two_pi_sub (r * (Real.pi / h))]
      apply Real.cos_le_cos_of_nonneg_of_le_pi (by positivity)
      · nlinarith
      · nlinarith
  apply abs_le_of_sq_le_sq _ hc0
  rw [Real.cos_sq, Real.cos_sq (Real.pi / _)]
  push_cast at key ⊢
  have e1 : 2 * ((2 * (m : ℝ) + 1) * (Real.pi / (2 * h))) = (2 * m + 1) * (Real.pi / h) := by field_simp
  have e2 : 2 * (Real.pi / (2 * (h : ℝ))) = Real.pi / h := by field_simp
  rw [e1, e2]
  linarith

/-- Squares leave room. -/
theorem gap_arith {S k t e : ℝ} (hSR : 8 ≤ S) (hk : k = 1 - 1 / S) (ht0 : 0 < t) (hT : t < 4 / (S - 1)) (hSe : 6 < e * S) :
    (1 - k ^ 2 * t ^ 2) * (1 - 3 / 4 * (k ^ 2 * t ^ 2)) < 1 - t ^ 2 * (7 / 4 - e) := by
  have hS' : 0 < 1 / S := by positivity
  have hS'' : 1 / S ≤ 1 / 8 := one_div_le_one_div_of_le (by norm_num) hSR
  have hk1 : 1 - 2 * (1 / S) ≤ k ^ 2 := by rw [hk]; nlinarith
  have hk2 : k ^ 2 ≤ 1 := by rw [hk]; nlinarith
  have hk0 : 0 ≤ k ^ 2 := sq_nonneg _
  have ht2 : t ^ 2 ≤ 3 * (1 / S) := by
    have h7 : t * (S - 1) < 4 := by rwa [lt_div_iff₀ (by linarith)] at hT
    have h8 : t * (7 * S) < 32 := by nlinarith
    have h9 : t * S ≤ 32 / 7 := by linarith
    rw [mul_one_div, le_div_iff₀ (by linarith)]
    have h10 : (t * S) * (t * S) ≤ 32 / 7 * (32 / 7) := mul_le_mul h9 h9 (by positivity) (by norm_num)
    have h11 : t ^ 2 * S * S ≤ 3 * S := by nlinarith
    exact le_of_mul_le_mul_right h11 (by linarith)
  have he6 : 6 * (1 / S) < e := by rw [mul_one_div, div_lt_iff₀ (by linarith)]; exact hSe
  have hmain : 7 / 4 - e < 7 / 4 * k ^ 2 - 3 / 4 * (k ^ 2 * (k ^ 2 * t ^ 2)) := by
    have : k ^ 2 * (k ^ 2 * t ^ 2) ≤ t ^ 2 := by
      have a : k ^ 2 * t ^ 2 ≤ t ^ 2 := by nlinarith [sq_nonneg t]
      have b : k ^ 2 * (k ^ 2 * t ^ 2) ≤ 1 * (k ^ 2 * t ^ 2) := mul_le_mul_of_nonneg_right hk2 (by positivity)
      linarith
    linarith
  have := mul_lt_mul_of_pos_left hmain (by positivity : 0 < t ^ 2)
  nlinarith

/-- The middle between four satellites is outside the footprint. -/
theorem gap_cos {packing t : ℝ} {S P : Nat} (h0 : 0 < packing) (h1 : packing ≤ 1) (ht0 : 0 < t) (hSR : (8 : ℝ) ≤ S)
    (hPR : (S : ℝ) ≤ P) (hT : t < 4 / ((S : ℝ) - 1)) (htp : t / packing ≤ 6 / 10)
    (hcl : Real.cos (Real.arcsin (t / packing)) = Real.sqrt (1 - (t / packing) ^ 2))
    (hSe : 6 < (7 / 4 - 1 / packing ^ 2) * S) (t2 : t < Real.sin (Real.pi / ((S : ℝ) - 1)))
    (y2 : Real.sqrt 3 / 2 * t < Real.sin (Real.pi / ((P : ℝ) - 1))) :
    Real.cos (Real.pi / S) * Real.cos (Real.pi / P) < Real.cos (Real.arcsin (t / packing)) := by
  have hpi := Real.pi_pos
  obtain ⟨c0, c1, c2⟩ := root_range
  have htp0 : 0 < t / packing := by positivity
  set k := 1 - 1 / (S : ℝ) with hk
  have hS' : 0 < 1 / (S : ℝ) := by positivity
  have hS'' : 1 / (S : ℝ) ≤ 1 / 8 := one_div_le_one_div_of_le (by norm_num) hSR
  have hX : k * t ≤ Real.sin (Real.pi / S) := by
    have h2 := sin_scale (c := k) (x := Real.pi / ((S : ℝ) - 1)) (by linarith) (by linarith)
      (by apply div_nonneg hpi.le; linarith) (by rw [div_le_iff₀ (by linarith)]; nlinarith)
    have h3 : k * (Real.pi / ((S : ℝ) - 1)) = Real.pi / S := by
      have : (S : ℝ) - 1 ≠ 0 := by linarith
      rw [hk]; field_simp
    rw [h3] at h2
    have := mul_le_mul_of_nonneg_left t2.le (by linarith : 0 ≤ k)
    linarith
  have hY : k * (Real.sqrt 3 / 2 * t) ≤ Real.sin (Real.pi / P) := by
    have hP' : 1 / (P : ℝ) ≤ 1 / S := one_div_le_one_div_of_le (by linarith) hPR
    have hP'' : 0 < 1 / (P : ℝ) := by apply one_div_pos.mpr; linarith
    have h2 := sin_scale (c := 1 - 1 / (P : ℝ)) (x := Real.pi / ((P : ℝ) - 1)) (by linarith) (by linarith)
      (by apply div_nonneg hpi.le; linarith) (by rw [div_le_iff₀ (by linarith)]; nlinarith)
    have h3 : (1 - 1 / (P : ℝ)) * (Real.pi / ((P : ℝ) - 1)) = Real.pi / P := by
      have : (P : ℝ) - 1 ≠ 0 := by linarith
      have : (P : ℝ) ≠ 0 := by linarith
      field_simp
    rw [h3] at h2
    have h4 := mul_le_mul_of_nonneg_left y2.le (by linarith : 0 ≤ 1 - 1 / (P : ℝ))
    have h5 : k * (Real.sqrt 3 / 2 * t) ≤ (1 - 1 / (P : ℝ)) * (Real.sqrt 3 / 2 * t) :=
      mul_le_mul_of_nonneg_right (by linarith) (by positivity)
    linarith
  have hX2 : k ^ 2 * t ^ 2 ≤ Real.sin (Real.pi / S) ^ 2 := by
    rw [← mul_pow]; exact pow_le_pow_left₀ (mul_nonneg (by linarith) ht0.le) hX 2
  have hY2 : 3 / 4 * (k ^ 2 * t ^ 2) ≤ Real.sin (Real.pi / P) ^ 2 := by
    have := pow_le_pow_left₀ (mul_nonneg (by linarith) (by positivity)) hY 2
    rw [mul_pow, mul_pow, c2] at this
    linarith
  have hfin : (1 - k ^ 2 * t ^ 2) * (1 - 3 / 4 * (k ^ 2 * t ^ 2)) < 1 - (t / packing) ^ 2 := by
    have := gap_arith hSR hk ht0 hT hSe
    have hq : (t / packing) ^ 2 = t ^ 2 * (7 / 4 - (7 / 4 - 1 / packing ^ 2)) := by rw [div_pow]; ring
    rw [hq]; exact this
  have hsq : (Real.cos (Real.pi / S) * Real.cos (Real.pi / P)) ^ 2 < Real.cos (Real.arcsin (t / packing)) ^ 2 := by
    rw [hcl, Real.sq_sqrt (by nlinarith), mul_pow, Real.cos_sq', Real.cos_sq']
    refine lt_of_le_of_lt ?_ hfin
    apply mul_le_mul (by linarith) (by linarith)
    · have := Real.sin_sq_le_one (Real.pi / P); linarith
    · have := Real.sin_sq_le_one (Real.pi / S); linarith
  exact lt_of_pow_lt_pow_left₀ 2 (by rw [hcl]; exact Real.sqrt_nonneg _) hsq

theorem part_le {n : ℝ} (hn : 2 ≤ n) : Real.pi / n ≤ Real.pi / 2 := div_le_div_of_nonneg_left Real.pi_pos.le (by norm_num) hn

/-- The design that leaves gaps. -/
theorem exists_gap {packing : ℝ} (h0 : 0 < packing) (h1 : packing ≤ 1) (hp : 4 / 7 < packing ^ 2) :
    ∃ (l : ℝ) (S P : Nat) (x y : ℝ), 2 ≤ S ∧ 2 ≤ P ∧ 2 ∣ S ∧ 2 ∣ P ∧ 0 < l ∧ l < Real.pi / 2 ∧ 4 / 5 ≤ Real.cos l ∧
      0 < x ∧ x ≤ Real.pi / 2 ∧ 0 < y ∧ y ≤ Real.pi / 2 ∧
      Real.sin x = packing * Real.sin l ∧ Real.sin y = Real.sqrt 3 / 2 * (packing * Real.sin l) ∧
      LeastParts S (2 * x) ∧ LeastParts P (2 * y) ∧ Real.cos (Real.pi / S) * Real.cos (Real.pi / P) < Real.cos l := by
  have hpi := Real.pi_pos
  have hpi4 := Real.pi_lt_d2
  obtain ⟨c0, c1, c2⟩ := root_range
  have hp2 : 0 < packing ^ 2 := by positivity
  set e := 7 / 4 - 1 / packing ^ 2 with he
  have he0 : 0 < e := by
    have : 1 / packing ^ 2 < 7 / 4 := by rw [div_lt_iff₀ hp2]; linarith
    rw [he]; linarith
  obtain ⟨N, hN⟩ := exists_nat_gt (6 / e)
  set S := 2 * (N + 4) with hSdef
  have hS8 : 8 ≤ S := by omega
  have hSR : (8 : ℝ) ≤ S := by exact_mod_cast hS8
  have hSe : 6 < e * S := by
    have : (N : ℝ) ≤ S := by rw [hSdef]; push_cast; linarith [Nat.cast_nonneg (α := ℝ) N]
    rw [div_lt_iff₀ he0] at hN
    nlinarith
  obtain ⟨t, P, hP2, hSP, t1, t2, y1, y2⟩ := exists_even S hS8 ⟨N + 4, hSdef⟩
  have hPR : (S : ℝ) ≤ P := by exact_mod_cast hSP
  have hS1 : 0 < Real.pi / S := by positivity
  have ht0 : 0 < t := lt_of_lt_of_le (Real.sin_pos_of_pos_of_lt_pi hS1 (by rw [div_lt_iff₀ (by linarith)]; nlinarith)) t1
  -- the footprint is small
  have hT : t < 4 / ((S : ℝ) - 1) := by
    have h2 : Real.sin (Real.pi / ((S : ℝ) - 1)) ≤ Real.pi / ((S : ℝ) - 1) := Real.sin_le (by apply div_nonneg hpi.le; linarith)
    have h3 : Real.pi / ((S : ℝ) - 1) ≤ 4 / ((S : ℝ) - 1) := div_le_div_of_nonneg_right (by linarith) (by linarith)
    linarith
  have ht45 : t < 45 / 100 := by
    have h2 : Real.sin (Real.pi / ((S : ℝ) - 1)) ≤ Real.pi / ((S : ℝ) - 1) := Real.sin_le (by apply div_nonneg hpi.le; linarith)
    have h3 : Real.pi / ((S : ℝ) - 1) ≤ Real.pi / 7 := div_le_div_of_nonneg_left hpi.le (by norm_num) (by linarith)
    linarith
  have hpk : 75 / 100 < packing := by nlinarith
  have htp : t / packing ≤ 6 / 10 := by rw [div_le_iff₀ h0]; linarith
  have htp0 : 0 < t / packing := by positivity
  have hsl : Real.sin (Real.arcsin (t / packing)) = t / packing := Real.sin_arcsin (by linarith) (by linarith)
  have hpt : packing * (t / packing) = t := mul_div_cancel₀ _ h0.ne'
  have hcl : Real.cos (Real.arcsin (t / packing)) = Real.sqrt (1 - (t / packing) ^ 2) := Real.cos_arcsin _
  have hct : Real.sqrt 3 / 2 * t < 1 := (mul_lt_mul'' c1 (by linarith : t < 1) c0.le ht0.le).trans_le (by norm_num)
  refine ⟨Real.arcsin (t / packing), S, P, Real.arcsin t, Real.arcsin (Real.sqrt 3 / 2 * t), by omega, by omega,
    ⟨N + 4, hSdef⟩, hP2, Real.arcsin_pos.mpr htp0, Real.arcsin_lt_pi_div_two.mpr (by linarith), ?_,
    Real.arcsin_pos.mpr ht0, Real.arcsin_le_pi_div_two _, Real.arcsin_pos.mpr (by positivity), Real.arcsin_le_pi_div_two _,
    ?_, ?_, ?_, ?_, ?_⟩
  · rw [hcl]; apply Real.le_sqrt_of_sq_le; nlinarith
  · rw [hsl, hpt, Real.sin_arcsin (by linarith) (by linarith)]
  · rw [hsl, hpt, Real.sin_arcsin (by linarith [mul_pos c0 ht0]) hct.le]
  · refine leastParts_of (by omega) ?_ ?_
    · rw [Real.le_arcsin_iff_sin_le ⟨by linarith, ?_⟩ ⟨by linarith, by linarith⟩]
      · exact t1
      · exact part_le (by linarith)
    · rw [Real.arcsin_lt_iff_lt_sin ⟨by linarith, by linarith⟩ ⟨?_, ?_⟩]
      · exact t2
      · have : 0 ≤ Real.pi / ((S : ℝ) - 1) := by apply div_nonneg hpi.le; linarith
        linarith
      · exact part_le (by linarith)
  · have hP1 : 0 < Real.pi / P := by apply div_pos hpi; linarith
    refine leastParts_of (by omega) ?_ ?_
    · rw [Real.le_arcsin_iff_sin_le ⟨by linarith, ?_⟩ ⟨by linarith [mul_pos c0 ht0], hct.le⟩]
      · exact y1
      · exact part_le (by linarith)
    · rw [Real.arcsin_lt_iff_lt_sin ⟨by linarith [mul_pos c0 ht0], hct.le⟩ ⟨?_, ?_⟩]
      · exact y2
      · have : 0 ≤ Real.pi / ((P : ℝ) - 1) := by apply div_nonneg hpi.le; linarith
        linarith
      · exact part_le (by linarith)
  · exact gap_cos h0 h1 ht0 hSR hPR hT htp hcl hSe t2 y2

/-- The satellites of a polar constellation with even numbers of planes and of satellites in a plane, halfway between. -/
theorem middle_dot {S P : Nat} (hS : 2 ≤ S) (hP : 2 ≤ P) (eS : 2 ∣ S) (eP : 2 ∣ P) (k j : ℕ) (n1 n2 : ℤ) :
    (perigeeDirection 90 ((k : ℝ) * (360 / P) + 360 * n2) ((j : ℝ) * (360 / S) + 360 * n1 + 180 / S)).dot
      (placeAt (180 / P) 0) ≤ Real.cos (Real.pi / S) * Real.cos (Real.pi / P) := by
  have hSR : (2 : ℝ) ≤ S := by exact_mod_cast hS
  have hPR : (2 : ℝ) ≤ P := by exact_mod_cast hP
  have hdot : (perigeeDirection 90 ((k : ℝ) * (360 / P) + 360 * n2) ((j : ℝ) * (360 / S) + 360 * n1 + 180 / S)).dot
      (placeAt (180 / P) 0) = cosDeg ((j : ℝ) * (360 / S) + 180 / S) * cosDeg ((k : ℝ) * (360 / P) - 180 / P) := by
    rw [show (j : ℝ) * (360 / S) + 360 * (n1 : ℝ) + 180 / S = (j : ℝ) * (360 / S) + 180 / S + 360 * n1 by ring,
      perigeeDirection_turns]
    have c90 : cosDeg 90 = 0 := by
      unfold cosDeg; rw [show (90 : ℝ) * Real.pi / 180 = Real.pi / 2 by ring, Real.cos_pi_div_two]
    have c0 : cosDeg 0 = 1 := by unfold cosDeg; simp
    have s0 : sinDeg 0 = 0 := by unfold sinDeg; simp
    have cs : cosDeg ((k : ℝ) * (360 / P) - 180 / P) =
        cosDeg ((k : ℝ) * (360 / P)) * cosDeg (180 / P) + sinDeg ((k : ℝ) * (360 / P)) * sinDeg (180 / P) := by
      unfold cosDeg sinDeg
      rw [← Real.cos_sub]; congr 1; ring
    unfold perigeeDirection placeAt V3.dot
    simp only [c90, c0, s0, cs]
    ring
  have e1 : cosDeg ((j : ℝ) * (360 / S) + 180 / S) = Real.cos ((2 * (j : ℤ) + 1) * (Real.pi / S)) := by
    unfold cosDeg; congr 1; push_cast; field_simp; ring
  have e2 : cosDeg ((k : ℝ) * (360 / P) - 180 / P) = Real.cos ((2 * ((k : ℤ) - 1 : ℤ) + 1) * (Real.pi / P)) := by
    unfold cosDeg; congr 1; push_cast; field_simp; ring
  rw [hdot, e1, e2]
  have h1 := odd_part hS eS (j : ℤ)
  have h2 := odd_part hP eP ((k : ℤ) - 1)
  refine (le_abs_self _).trans ?_
  rw [abs_mul]
  exact mul_le_mul h1 h2 (abs_nonneg _) ((abs_nonneg _).trans h1)

/-- Refuted for every packing distance above `√(4 / 7)` (which is less than 0.756): for each of them there are a swath
width and a polar orbit, at 2 000 km, whose streets of coverage leave a gap.  A place on the equator is, when the satellites
have moved on by half of the angle between them, farther than half the swath width from the points below all satellites. -/
theorem C133_streets_false {I : Type} (sun : Int → ℝ) (name : List Char) (instruments : I) (packing : ℝ) (h0 : 0 < packing)
    (h1 : packing ≤ 1) (hp : 4 / 7 < packing ^ 2) :
    ∃ (swathWidth angle rightAscension : ℝ) (c : Soc I) (ms : List (Satellite I)), 0 < swathWidth ∧
      Soc.make name ⟨2000000, 0, 0, 90, 0⟩ instruments swathWidth packing = .ok c ∧
      Circular.Valid ⟨2000000, 0, 0, 90, 0⟩ ∧ swathWidth / 2 / meanRadius < Real.pi / 2 ∧
      meanRadius / (meanRadius + 2000000) ≤ Real.cos (swathWidth / 2 / meanRadius) ∧
      c.members sun = .ok ms ∧
      ∀ m ∈ ms, ∃ b : Circular, m.orbit = .circular b ∧ b.inclination = 90 ∧
        swathWidth / 2 < meanRadius * angleFromPlace b.inclination b.raan (b.trueAnomaly + angle) rightAscension 0 := by
  have hR := meanRadius_gt
  have hR2 : meanRadius < 6400000 := by unfold meanRadius equatorialRadius polarRadius; norm_num
  have hR0 : 0 < meanRadius := by linarith
  have hpi := Real.pi_pos
  obtain ⟨l, S, P, x, y, hS, hP, eS, eP, l0, l1, lc, x0, x1, y0, y1, hsx, hsy, lS, lP, hgap⟩ := exists_gap h0 h1 hp
  have hval : Circular.Valid ⟨2000000, 0, 0, 90, 0⟩ := by unfold Circular.Valid InTurn; norm_num
  have hl : 2 * meanRadius * l / 2 / meanRadius = l := by field_simp
  have hmake : Soc.make name ⟨2000000, 0, 0, 90, 0⟩ instruments (2 * meanRadius * l) packing =
      .ok ⟨name, ⟨2000000, 0, 0, 90, 0⟩, instruments, 2 * meanRadius * l, packing⟩ := by
    unfold Soc.make
    simp only [bind_eq_ok, require_eq_ok, pure, Except.pure]
    exact ⟨(), by positivity, (), by assumption, (), by assumption, trivial⟩
  have hhor : meanRadius / (meanRadius + 2000000) ≤ Real.cos (2 * meanRadius * l / 2 / meanRadius) := by
    rw [hl]
    refine le_trans ?_ lc
    rw [div_le_iff₀ (by positivity)]
    linarith
  obtain ⟨w, s, p, ms, f, g, hw, -, horb, -, hstar, hspa, hpl, hsat, hms, hlen, -, ⟨s1, s2, s3⟩, ⟨p1, p2, p3⟩, ef, eg, g0, gf, fsw⟩ :=
    C37_streets sun name ⟨2000000, 0, 0, 90, 0⟩ instruments (2 * meanRadius * l) packing _ hmake hval (by positivity)
      (by rw [hl]; exact l1.le) hhor
  rw [hl] at ef eg
  have hfl : f ≤ 2 * l := by
    have : 2 * meanRadius * l / meanRadius = 2 * l := by field_simp
    linarith
  have hf : f = 2 * x := by
    have h1 : Real.sin (f / 2) = Real.sin x := by
      have : 2 * meanRadius * Real.sin (f / 2) = 2 * meanRadius * Real.sin x := by rw [ef, hsx]; ring
      exact mul_left_cancel₀ (by positivity) this
    have h2 := Real.injOn_sin ⟨by linarith, by linarith⟩ ⟨by linarith, by linarith⟩ h1
    linarith
  have hg : g = 2 * y := by
    have h1 : Real.sin (g / 2) = Real.sin y := by
      have : 2 * meanRadius * Real.sin (g / 2) = 2 * meanRadius * Real.sin y := by rw [eg, hsy]; ring
      exact mul_left_cancel₀ (by positivity) this
    have h2 := Real.injOn_sin ⟨by linarith, by linarith⟩ ⟨by linarith, by linarith⟩ h1
    linarith
  subst hf hg
  obtain rfl : s = S := le_antisymm (s3 S lS.1 lS.2.1) (lS.2.2 s s1 s2)
  obtain rfl : p = P := le_antisymm (p3 P lP.1 lP.2.1) (lP.2.2 p p1 p2)
  refine ⟨2 * meanRadius * l, 180 / s, 180 / p, _, ms, by positivity, hmake, hval, by rw [hl]; exact l1, hhor, hms, ?_⟩
  have hmw : w.members sun = .ok ms := by
    unfold Soc.members at hms
    rw [hw] at hms
    exact hms
  rw [circular_members sun w _ horb hval] at hmw
  obtain rfl := Except.ok.inj hmw
  intro m hm
  obtain ⟨i, -, rfl⟩ := List.mem_map.mp hm
  refine ⟨_, rfl, rfl, ?_⟩
  have hper : w.satellitesPerPlane = s := by
    unfold Walker.satellitesPerPlane
    have : (p : ℚ) ≠ 0 := by exact_mod_cast (by omega : p ≠ 0)
    rw [hsat, hpl, show (((s * p : ℕ) : ℚ) / (p : ℚ)) = ((s : ℤ) : ℚ) by push_cast; field_simp, Int.ceil_intCast]
    rfl
  have hinc : w.increments i = (((i % s : ℕ) : ℝ) * (360 / s), ((i / s : ℕ) : ℝ) * (360 / p)) := by
    unfold Walker.increments Walker.deltaWithin Walker.deltaRaan Walker.deltaBetween
    simp only [hper, hstar, hspa, hpl]
    simp
  simp only [hinc]
  obtain ⟨n1, e1⟩ := npMod_turns (0 + ((i % s : ℕ) : ℝ) * (360 / s))
  obtain ⟨n2, e2⟩ := npMod_turns (0 + ((i / s : ℕ) : ℝ) * (360 / p))
  have hlt := middle_dot hS hP eS eP (i / s) (i % s) n1 n2
  rw [zero_add] at e1 e2
  rw [zero_add, zero_add, e1, e2]
  have hang : l < angleFromPlace 90 (((i / s : ℕ) : ℝ) * (360 / p) + 360 * n2)
      (((i % s : ℕ) : ℝ) * (360 / s) + 360 * n1 + 180 / s) (180 / p) 0 := by
    unfold angleFromPlace
    set d := (perigeeDirection 90 (((i / s : ℕ) : ℝ) * (360 / p) + 360 * n2)
      (((i % s : ℕ) : ℝ) * (360 / s) + 360 * n1 + 180 / s)).dot (placeAt (180 / p) 0) with hd
    rw [← Real.arccos_cos l0.le (by linarith : l ≤ Real.pi)]
    by_cases hm1 : -1 ≤ d
    · exact Real.strictAntiOn_arccos ⟨hm1, by linarith [Real.cos_le_one l]⟩ ⟨by linarith, Real.cos_le_one _⟩ (by linarith)
    · rw [Real.arccos_cos l0.le (by linarith : l ≤ Real.pi), Real.arccos_of_le_neg_one (not_le.mp hm1).le]
      linarith
  have := mul_lt_mul_of_pos_left hang hR0
  show 2 * meanRadius * l / 2 < meanRadius * angleFromPlace 90 _ _ _ 0
  linarith

/-- The hypotheses are met. -/
example (sun : Int → ℝ) : ∃ (swathWidth : ℝ) (c : Soc Unit), 0 < swathWidth ∧
    Soc.make ['S'] ⟨2000000, 0, 0, 90, 0⟩ () swathWidth (76 / 100) = .ok c := by
  obtain ⟨w, -, -, c, -, h, hc, -⟩ := C133_streets_false sun ['S'] () (76 / 100) (by norm_num) (by norm_num) (by norm_num)
  exact ⟨w, c, h, hc⟩

end Tatc.Props
