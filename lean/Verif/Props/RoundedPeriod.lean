import Verif.Model.IeeePeriod
import Verif.Model.Geometry
import Verif.Props.RoundedViewing
import Verif.Props.Access

/-! C168: periods and access times survive rounding. -/

namespace Tatc.Props
open Tatc.Num Tatc.Ieee

/-! ## Relative errors -/

/-- The factor of one rounding. -/
noncomputable def rounding : ℝ := 1 + 1 / 2 ^ 52

theorem rounding_one : 1 ≤ rounding := by unfold rounding; norm_num

theorem rounding_pow (k : ℕ) : 1 ≤ rounding ^ k := one_le_pow₀ rounding_one

/-- A number that is another one, after at most `k` roundings. -/
structure Rel (k : ℕ) (x y : ℝ) : Prop where
  pos : 0 < y
  low : y ≤ x * rounding ^ k
  high : x ≤ y * rounding ^ k

theorem Rel.pos' {k : ℕ} {x y : ℝ} (h : Rel k x y) : 0 < x := by
  have := h.pos.trans_le h.low
  exact pos_of_mul_pos_left this (zero_le_one.trans (rounding_pow k))

theorem Rel.refl {x : ℝ} (h : 0 < x) : Rel 0 x x := ⟨h, by simp, by simp⟩

theorem Rel.mul {j k : ℕ} {a b x y : ℝ} (h : Rel j a x) (h' : Rel k b y) : Rel (j + k) (a * b) (x * y) := by
  refine ⟨mul_pos h.pos h'.pos, ?_, ?_⟩
  · calc x * y ≤ (a * rounding ^ j) * (b * rounding ^ k) := mul_le_mul h.low h'.low h'.pos.le (h.pos.le.trans h.low)
      _ = a * b * rounding ^ (j + k) := by rw [pow_add]; ring
  · calc a * b ≤ (x * rounding ^ j) * (y * rounding ^ k) := mul_le_mul h.high h'.high h'.pos'.le (h.pos'.le.trans h.high)
      _ = x * y * rounding ^ (j + k) := by rw [pow_add]; ring

theorem Rel.inv {k : ℕ} {b y : ℝ} (h : Rel k b y) : Rel k b⁻¹ y⁻¹ := by
  have hb := h.pos'
  refine ⟨inv_pos.mpr h.pos, ?_, ?_⟩
  · rw [inv_mul_eq_div, inv_eq_one_div, div_le_div_iff₀ h.pos hb]
    linarith [h.high]
  · rw [inv_mul_eq_div, inv_eq_one_div, div_le_div_iff₀ hb h.pos]
    linarith [h.low]

theorem Rel.div {j k : ℕ} {a b x y : ℝ} (h : Rel j a x) (h' : Rel k b y) : Rel (j + k) (a / b) (x / y) := by
  rw [div_eq_mul_inv, div_eq_mul_inv]
  exact h.mul h'.inv

theorem Rel.sqrt {k : ℕ} {a x : ℝ} (h : Rel k a x) : Rel k (Real.sqrt a) (Real.sqrt x) := by
  have hr := rounding_pow k
  have hs : Real.sqrt (rounding ^ k) ≤ rounding ^ k := by
    rw [Real.sqrt_le_left (by linarith)]
    nlinarith
  refine ⟨Real.sqrt_pos.mpr h.pos, ?_, ?_⟩
  · calc Real.sqrt x ≤ Real.sqrt (a * rounding ^ k) := Real.sqrt_le_sqrt h.low
      _ = Real.sqrt a * Real.sqrt (rounding ^ k) := Real.sqrt_mul h.pos'.le _
      _ ≤ _ := mul_le_mul_of_nonneg_left hs (Real.sqrt_nonneg _)
  · calc Real.sqrt a ≤ Real.sqrt (x * rounding ^ k) := Real.sqrt_le_sqrt h.high
      _ = Real.sqrt x * Real.sqrt (rounding ^ k) := Real.sqrt_mul h.pos.le _
      _ ≤ _ := mul_le_mul_of_nonneg_left hs (Real.sqrt_nonneg _)

set_option exponentiation.threshold 1000 in
theorem rel_fl {x : ℝ} (h : 1 / 2 ^ 100 ≤ x) : Rel 1 (fl x) x := by
  have hx : 0 < x := lt_of_lt_of_le (by norm_num) h
  have hc := fl_close x
  have ht' : (2 : ℝ) ^ (-1075 : ℤ) ≤ x / 2 ^ 900 := by
    have e : (2 : ℝ) ^ (-1075 : ℤ) = 2 ^ (-175 : ℤ) / 2 ^ 900 := by
      rw [← zpow_natCast, ← zpow_sub₀ (by norm_num)]; norm_num
    rw [e]
    refine div_le_div_of_nonneg_right (le_trans ?_ h) (by positivity)
    rw [zpow_neg, one_div]
    exact inv_anti₀ (by positivity) (by norm_num)
  have ht'' : x / 2 ^ 900 ≤ x / 2 ^ 60 :=
    div_le_div_of_nonneg_left hx.le (by positivity) (pow_le_pow_right₀ (by norm_num) (by norm_num))
  rw [abs_of_pos hx, abs_le] at hc
  refine ⟨hx, ?_, ?_⟩
  · rw [pow_one]; unfold rounding
    have : x * (1 - 1 / 2 ^ 53 - 1 / 2 ^ 60) ≤ fl x := by linarith [hc.1]
    have h1 : (0 : ℝ) ≤ 1 + 1 / 2 ^ 52 := by norm_num
    have := mul_le_mul_of_nonneg_right this h1
    refine le_trans ?_ this
    have : (1 : ℝ) ≤ (1 - 1 / 2 ^ 53 - 1 / 2 ^ 60) * (1 + 1 / 2 ^ 52) := by norm_num
    nlinarith
  · rw [pow_one]; unfold rounding
    have : fl x ≤ x * (1 + 1 / 2 ^ 53 + 1 / 2 ^ 60) := by linarith [hc.2]
    refine this.trans (mul_le_mul_of_nonneg_left (by norm_num) hx.le)

theorem Rel.trans {j k : ℕ} {x y z : ℝ} (h : Rel j x y) (h' : Rel k y z) : Rel (j + k) x z := by
  have hr := rounding_pow k
  have hj := rounding_pow j
  refine ⟨h'.pos, ?_, ?_⟩
  · calc z ≤ y * rounding ^ k := h'.low
      _ ≤ x * rounding ^ j * rounding ^ k := mul_le_mul_of_nonneg_right h.low (by linarith)
      _ = _ := by rw [pow_add]; ring
  · calc x ≤ y * rounding ^ j := h.high
      _ ≤ z * rounding ^ k * rounding ^ j := mul_le_mul_of_nonneg_right h'.high (by linarith)
      _ = _ := by rw [pow_add]; ring

/-- One more rounding. -/
theorem Rel.fl {k : ℕ} {x y : ℝ} (h : Rel k x y) (hx : 1 / 2 ^ 100 ≤ x) : Rel (1 + k) (Ieee.fl x) y := (rel_fl hx).trans h

theorem rounding_few : rounding ^ 13 ≤ 1 + 3e-15 := by unfold rounding; norm_num

theorem Rel.close {k : ℕ} {x y : ℝ} (h : Rel k x y) (hk : k ≤ 13) : |x - y| ≤ y * 4e-15 := by
  have h1 : rounding ^ k ≤ 1 + 3e-15 := (pow_le_pow_right₀ rounding_one hk).trans rounding_few
  have hx := h.pos'
  have hy := h.pos
  have a := h.low.trans (mul_le_mul_of_nonneg_left h1 hx.le)
  have b := h.high.trans (mul_le_mul_of_nonneg_left h1 hy.le)
  rw [abs_le]
  constructor
  · norm_num at *; linarith
  · norm_num at *; linarith

/-! ## The constants -/

theorem rel_axis {h : ℝ} (h0 : -10000 ≤ h) : Rel 2 (fl (earthMeanRadius + h)) (meanRadius + h) := by
  obtain ⟨a, b⟩ := radius_near
  rw [abs_le] at a
  have a1 := a.1; have a2 := a.2
  refine Rel.fl (k := 1) ⟨by linarith, ?_, ?_⟩ (le_trans (by norm_num) (show (1 : ℝ) ≤ _ by norm_num at *; linarith))
  · rw [pow_one]; unfold rounding
    norm_num at *; nlinarith
  · rw [pow_one]; unfold rounding
    norm_num at *; nlinarith

theorem pi_approx : |Ieee.pi - Real.pi| ≤ 2e-16 := by
  unfold Ieee.pi
  have := Real.pi_gt_d20
  have := Real.pi_lt_d20
  rw [abs_le]; constructor <;> norm_num at * <;> linarith

theorem double_pi : IsDouble Ieee.pi := ⟨884279719003555, -48, by norm_num, by norm_num, by unfold Ieee.pi; norm_num⟩

theorem fl_two_pi : fl (2 * Ieee.pi) = 2 * Ieee.pi :=
  fl_of_double ⟨884279719003555, -47, by norm_num, by norm_num, by unfold Ieee.pi; norm_num⟩

theorem rel_two_pi : Rel 1 (fl (2 * Ieee.pi)) (2 * Real.pi) := by
  rw [fl_two_pi]
  have h := abs_le.mp pi_approx
  have h1 := h.1; have h2 := h.2
  have := Real.pi_gt_three
  refine ⟨by linarith, ?_, ?_⟩ <;> rw [pow_one] <;> unfold rounding <;> norm_num at * <;> nlinarith

theorem earthMu_eq : earthMu = mu := by unfold earthMu mu; norm_num

/-! ## Conversion to a time difference -/

theorem microseconds_close (x : ℝ) : |(microseconds x : ℝ) - x * 1000000| ≤ 1 / 2 + 1e-9 := by
  have h0 := Int.fract_nonneg x
  have h1 := (Int.fract_lt_one x).le
  have hf := fl_close' (1000000 * Int.fract x)
  rw [abs_of_nonneg (show 0 ≤ 1000000 * Int.fract x by linarith)] at hf
  have hr := rhe_error (fl (1000000 * Int.fract x))
  have hx : (⌊x⌋ : ℝ) = x - Int.fract x := (Int.self_sub_fract x).symm
  unfold microseconds
  push_cast
  rw [hx]
  rw [abs_le] at hf hr ⊢
  have a := hf.1; have b := hf.2; have c := hr.1; have d := hr.2
  norm_num at a b c d
  constructor
  · norm_num; linarith
  · norm_num; linarith

theorem microseconds_mono {x y : ℝ} (h : x ≤ y) : microseconds x ≤ microseconds y := by
  have hm : IsDouble 1000000 := by exact_mod_cast double_int (n := 1000000) (by norm_num)
  have top : ∀ z : ℝ, roundHalfEven (fl (1000000 * Int.fract z)) ≤ 1000000 := by
    intro z
    refine rhe_le ?_
    have := (Int.fract_lt_one z).le
    exact_mod_cast fl_le hm (by linarith)
  have bottom : ∀ z : ℝ, 0 ≤ roundHalfEven (fl (1000000 * Int.fract z)) := by
    intro z
    refine le_rhe ?_
    have := Int.fract_nonneg z
    exact_mod_cast le_fl double_zero (by positivity)
  unfold microseconds
  rcases (Int.floor_mono h).lt_or_eq with hlt | heq
  · have := top x
    have := bottom y
    omega
  · rw [heq]
    have : Int.fract x ≤ Int.fract y := by
      have hx : (⌊x⌋ : ℝ) = x - Int.fract x := (Int.self_sub_fract x).symm
      have hy : (⌊y⌋ : ℝ) = y - Int.fract y := (Int.self_sub_fract y).symm
      rw [heq] at hx
      linarith
    have := rhe_mono (fl_mono (mul_le_mul_of_nonneg_left this (by norm_num : (0 : ℝ) ≤ 1000000)))
    omega

/-! ## Periods -/

/-- The altitudes in question: not deep in the Earth, and up to a million kilometres. -/
structure Flying (altitude : ℝ) : Prop where
  low : -10000 ≤ altitude
  high : altitude ≤ 1000000000

theorem axis_bounds {h : ℝ} (hf : Flying h) : 6361008 ≤ meanRadius + h ∧ meanRadius + h ≤ 1006400000 ∧
    6361000 ≤ fl (earthMeanRadius + h) ∧ fl (earthMeanRadius + h) ≤ 1006400001 := by
  obtain ⟨a, b⟩ := radius_near
  have h0 := hf.low
  have h1 := hf.high
  have hm : meanRadius ≤ 6371009 := by
    unfold meanRadius equatorialRadius polarRadius; norm_num
  have hr := (rel_axis h0).close (by norm_num)
  rw [abs_le] at hr
  have c := hr.1; have d := hr.2
  refine ⟨by linarith, by linarith, ?_, ?_⟩ <;> norm_num at * <;> linarith

theorem rel_cube {h : ℝ} (hf : Flying h) : Rel 8 (cube (fl (earthMeanRadius + h))) ((meanRadius + h) ^ 3) ∧
    1 ≤ cube (fl (earthMeanRadius + h)) := by
  obtain ⟨-, -, a, -⟩ := axis_bounds hf
  have r := rel_axis hf.low
  generalize fl (earthMeanRadius + h) = x at *
  have h1 : (1 : ℝ) ≤ x * x := by nlinarith
  have h2 : (1 : ℝ) ≤ fl (x * x) := le_fl double_one h1
  have h3 : (1 : ℝ) ≤ fl (x * x) * x := by nlinarith
  have tiny : (1 : ℝ) / 2 ^ 100 ≤ 1 := by norm_num
  have := (((r.mul r).fl (tiny.trans h1)).mul r).fl (tiny.trans h3)
  refine ⟨?_, le_fl double_one h3⟩
  unfold cube
  convert this using 1
  ring

/-- The mean motion, in radians per second. -/
theorem rel_motion {h : ℝ} (hf : Flying h) :
    Rel 10 (fl (Real.sqrt (fl (earthMu / cube (fl (earthMeanRadius + h)))))) (Real.sqrt (mu / (meanRadius + h) ^ 3)) ∧
    fl (Real.sqrt (fl (earthMu / cube (fl (earthMeanRadius + h))))) ≤ 2 ^ (25 : ℤ) := by
  obtain ⟨r, one⟩ := rel_cube hf
  obtain ⟨-, b, -, -⟩ := axis_bounds hf
  obtain ⟨b0, -, -, -⟩ := axis_bounds hf
  have hc : cube (fl (earthMeanRadius + h)) ≤ 2e27 := by
    have h1 : rounding ^ 8 ≤ 1 + 3e-15 := (pow_le_pow_right₀ rounding_one (by norm_num)).trans rounding_few
    have h2 : (meanRadius + h) ^ 3 ≤ 1006400000 ^ 3 := pow_le_pow_left₀ (by linarith) b 3
    have h3 := r.high
    have h4 : (meanRadius + h) ^ 3 * rounding ^ 8 ≤ 1006400000 ^ 3 * (1 + 3e-15) :=
      mul_le_mul h2 h1 (by have := rounding_pow 8; linarith) (by norm_num)
    refine (h3.trans h4).trans (by norm_num)
  generalize cube (fl (earthMeanRadius + h)) = c at *
  have hc0 : 0 < c := by linarith
  have hq : (2 : ℝ) ^ (-60 : ℤ) ≤ earthMu / c := by
    rw [le_div_iff₀ hc0]
    unfold earthMu
    norm_num at *; linarith
  have hq' : earthMu / c ≤ 2 ^ (50 : ℤ) := by
    rw [div_le_iff₀ hc0]
    unfold earthMu
    norm_num at *; linarith
  have d60 : IsDouble ((2 : ℝ) ^ (-60 : ℤ)) := double_zpow (by norm_num)
  have hs : (2 : ℝ) ^ (-60 : ℤ) ≤ fl (earthMu / c) := le_fl d60 hq
  have hs' : fl (earthMu / c) ≤ 2 ^ (50 : ℤ) := fl_le (double_zpow (by norm_num)) hq'
  have t : (2 : ℝ) ^ (-30 : ℤ) ≤ Real.sqrt (fl (earthMu / c)) := by
    refine Real.le_sqrt_of_sq_le (le_trans (le_of_eq ?_) hs)
    norm_num
  have t' : Real.sqrt (fl (earthMu / c)) ≤ 2 ^ (25 : ℤ) := by
    rw [Real.sqrt_le_left (by norm_num)]
    refine hs'.trans (le_of_eq ?_)
    norm_num
  have rm : Rel 0 earthMu mu := by rw [earthMu_eq]; exact Rel.refl mu_pos
  refine ⟨(((rm.div r).fl (le_trans ?_ hq)).sqrt.fl (le_trans ?_ t)), fl_le (double_zpow (by norm_num)) t'⟩ <;> norm_num

theorem rel_period {h : ℝ} (hf : Flying h) : Rel 12 (periodSeconds h) (Orbit.orbitPeriodSeconds h) := by
  obtain ⟨r, top⟩ := rel_motion hf
  unfold periodSeconds Orbit.orbitPeriodSeconds
  refine (rel_two_pi.div r).fl ?_
  rw [fl_two_pi]
  have : (6 : ℝ) ≤ 2 * Ieee.pi := by unfold Ieee.pi; norm_num
  rw [le_div_iff₀ r.pos']
  norm_num at *; linarith

theorem period_bounds {h : ℝ} (hf : Flying h) : 5000 ≤ Orbit.orbitPeriodSeconds h ∧ Orbit.orbitPeriodSeconds h ≤ 11000000 := by
  obtain ⟨a, b, -, -⟩ := axis_bounds hf
  unfold Orbit.orbitPeriodSeconds
  simp only
  have p1 := Real.pi_gt_d2
  have p2 := Real.pi_lt_d2
  have hA : 0 < (meanRadius + h) ^ 3 := by positivity
  have l : (6361008 : ℝ) ^ 3 ≤ (meanRadius + h) ^ 3 := pow_le_pow_left₀ (by norm_num) a 3
  have u : (meanRadius + h) ^ 3 ≤ 1006400000 ^ 3 := pow_le_pow_left₀ (by linarith) b 3
  have hs : 0 < Real.sqrt (mu / (meanRadius + h) ^ 3) := Real.sqrt_pos.mpr (div_pos mu_pos hA)
  have s1 : Real.sqrt (mu / (meanRadius + h) ^ 3) ≤ 1.25e-3 := by
    rw [Real.sqrt_le_left (by norm_num), div_le_iff₀ hA]
    unfold mu
    norm_num at *; linarith
  have s2 : 6e-7 ≤ Real.sqrt (mu / (meanRadius + h) ^ 3) := by
    refine Real.le_sqrt_of_sq_le ?_
    rw [le_div_iff₀ hA]
    unfold mu
    norm_num at *; linarith
  rw [le_div_iff₀ hs, div_le_iff₀ hs]
  constructor <;> norm_num at * <;> linarith

/-- **C168**: the period in whole microseconds, computed with double precision numbers, is hardly more than half a
microsecond off the exact period, and at most one off the exact period in whole microseconds. -/
theorem C168_period (altitude : ℝ) (h : Flying altitude) :
    0 < Ieee.orbitPeriod altitude ∧ |Ieee.orbitPeriod altitude - Orbit.orbitPeriod altitude| ≤ 1 ∧
    |(Ieee.orbitPeriod altitude : ℝ) - Orbit.orbitPeriodSeconds altitude * 1000000| ≤ 0.55 := by
  have r := (rel_period h).close (by norm_num)
  obtain ⟨l, u⟩ := period_bounds h
  have c := microseconds_close (periodSeconds altitude)
  have d := rhe_error (Orbit.orbitPeriodSeconds altitude * 1000000)
  rw [abs_le] at r c d
  have r1 := r.1; have r2 := r.2; have c1 := c.1; have c2 := c.2; have d1 := d.1; have d2 := d.2
  refine ⟨?_, ?_, ?_⟩
  · have : (0 : ℝ) < (Ieee.orbitPeriod altitude : ℝ) := by
      unfold Ieee.orbitPeriod
      norm_num at r1 r2 c1 c2
      linarith
    exact_mod_cast this
  · have : |((Ieee.orbitPeriod altitude - Orbit.orbitPeriod altitude : ℤ) : ℝ)| < 2 := by
      unfold Ieee.orbitPeriod Orbit.orbitPeriod
      push_cast
      rw [abs_lt]
      constructor <;> norm_num at * <;> linarith
    rw [← Int.cast_abs] at this
    have : |Ieee.orbitPeriod altitude - Orbit.orbitPeriod altitude| < 2 := by exact_mod_cast this
    omega
  · unfold Ieee.orbitPeriod
    rw [abs_le]
    constructor <;> norm_num at * <;> linarith

/-- **C168**: rounding never makes the period of a higher orbit shorter. -/
theorem C168_period_mono (altitude higher : ℝ) (h : Flying altitude) (h' : Flying higher) (hle : altitude ≤ higher) :
    Ieee.orbitPeriod altitude ≤ Ieee.orbitPeriod higher := by
  refine microseconds_mono ?_
  obtain ⟨-, -, a, -⟩ := axis_bounds h
  have ax : fl (earthMeanRadius + altitude) ≤ fl (earthMeanRadius + higher) := fl_mono (by linarith)
  have hc : cube (fl (earthMeanRadius + altitude)) ≤ cube (fl (earthMeanRadius + higher)) := by
    unfold cube
    have h0 : 0 ≤ fl (earthMeanRadius + altitude) := by linarith
    have h1 := fl_mono (mul_le_mul ax ax h0 (h0.trans ax))
    exact fl_mono (mul_le_mul h1 ax h0 ((le_fl double_zero (mul_nonneg h0 h0)).trans h1))
  have c0 := (rel_cube h).1.pos'
  have hmu : 0 ≤ earthMu := by unfold earthMu; norm_num
  have hm := fl_mono (Real.sqrt_le_sqrt (fl_mono (div_le_div_of_nonneg_left hmu c0 hc)))
  have m0 := (rel_motion h').1.pos'
  unfold periodSeconds
  refine fl_mono (div_le_div_of_nonneg_left ?_ m0 hm)
  rw [fl_two_pi]; unfold Ieee.pi; norm_num

/-- **C168**: the mean motion, computed with double precision numbers from the rounded period, is that computed exactly
but for three parts in ten billions. -/
theorem C168_mean_motion (altitude : ℝ) (h : Flying altitude) :
    ∃ n, Orbit.meanMotion altitude = .ok n ∧ |Ieee.meanMotion altitude - n| ≤ n * 3e-10 := by
  obtain ⟨l, u⟩ := period_bounds h
  obtain ⟨p0, p1, -⟩ := C168_period altitude h
  obtain ⟨a, -, -, -⟩ := axis_bounds h
  have d := rhe_error (Orbit.orbitPeriodSeconds altitude * 1000000)
  have e : (Orbit.orbitPeriod altitude : ℝ) = (roundHalfEven (Orbit.orbitPeriodSeconds altitude * 1000000) : ℝ) := rfl
  rw [← e, abs_le] at d
  have d1 := d.1; have d2 := d.2
  have hP : (4999999999 : ℝ) ≤ Orbit.orbitPeriod altitude := by norm_num at *; linarith
  have hP' : (Orbit.orbitPeriod altitude : ℝ) ≤ 11000000000001 := by norm_num at *; linarith
  have q : |(Ieee.orbitPeriod altitude : ℝ) - Orbit.orbitPeriod altitude| ≤ 1 := by
    rw [← Int.cast_sub, ← Int.cast_abs]; exact_mod_cast p1
  rw [abs_le] at q
  have q1 := q.1; have q2 := q.2
  refine ⟨1 / ((Orbit.orbitPeriod altitude : ℝ) / 86400000000), ?_, ?_⟩
  · unfold Orbit.meanMotion require
    have hne : Orbit.orbitPeriod altitude ≠ 0 := by
      intro h0
      rw [h0] at hP; norm_num at hP
    rw [if_pos (by linarith), if_pos hne]
    rfl
  unfold Ieee.meanMotion
  generalize (Ieee.orbitPeriod altitude : ℝ) = P' at *
  generalize (Orbit.orbitPeriod altitude : ℝ) = P at *
  have hx : (1 : ℝ) / 2 ^ 100 ≤ P' / 86400000000 := by norm_num at *; linarith
  have r1 := rel_fl hx
  have hy : (1 : ℝ) / 2 ^ 100 ≤ 1 / fl (P' / 86400000000) := by
    rw [le_div_iff₀ r1.pos']
    have := r1.high
    rw [pow_one] at this
    unfold rounding at this
    norm_num at *; linarith
  have r2 := ((Rel.refl (x := 1) one_pos).div r1).fl hy
  have r3 := r2.close (by norm_num)
  have hP0 : 0 < P := by linarith
  have hP1 : 0 < P' := by linarith
  rw [one_div_div] at r3 ⊢
  generalize fl (1 / fl (P' / 86400000000)) = n' at *
  have k1 : (86400000000 : ℝ) / P' ≤ 86400000000 / P * (1 + 2.1e-10) := by
    rw [div_mul_eq_mul_div, div_le_div_iff₀ hP1 hP0]
    norm_num at *; nlinarith
  have k2 : (86400000000 : ℝ) / P * (1 - 2.1e-10) ≤ 86400000000 / P' := by
    rw [div_mul_eq_mul_div, div_le_div_iff₀ hP0 hP1]
    norm_num at *; nlinarith
  have k0 : 0 < (86400000000 : ℝ) / P := by positivity
  generalize (86400000000 : ℝ) / P = n at *
  generalize (86400000000 : ℝ) / P' = m at *
  rw [abs_le] at r3 ⊢
  have a1 := r3.1; have a2 := r3.2
  constructor <;> norm_num at * <;> linarith

/-! ## Access times -/

/-- The central angle, as computed. -/
noncomputable def centralAngle (e : ℝ) : ℝ := fl (Ieee.pi - fl (2 * rad e))

theorem central_bounds {e : ℝ} (h0 : 0 ≤ e) (h1 : e ≤ 90) : 0 ≤ centralAngle e ∧ centralAngle e ≤ 4 ∧
    |centralAngle e - (Real.pi - 2 * radians e)| ≤ 1e-14 := by
  have hr0 := rad_nonneg h0
  have hr1 := rad_mono h1
  rw [rad_90] at hr1
  have hp := abs_le.mp pi_approx
  have p1 := Real.pi_gt_d2
  have p2 := Real.pi_lt_d2
  have hc := abs_le.mp (rad_close h0)
  have hre : radians e ≤ 1.58 := by
    have : radians e ≤ radians 90 := by unfold radians; gcongr
    have h90 : radians 90 = Real.pi / 2 := by unfold radians; ring
    rw [h90] at this
    norm_num at *; linarith
  have hre0 : 0 ≤ radians e := by unfold radians; have := Real.pi_pos; positivity
  have h2 : 2 * rad e ≤ Ieee.pi := by unfold Ieee.pi; norm_num at *; linarith
  have d1 : fl (2 * rad e) ≤ Ieee.pi := fl_le double_pi h2
  have d0 : 0 ≤ fl (2 * rad e) := le_fl double_zero (by linarith)
  have c1 := fl_close' (2 * rad e)
  have c2 := fl_close' (Ieee.pi - fl (2 * rad e))
  rw [abs_of_nonneg (show 0 ≤ 2 * rad e by linarith)] at c1
  rw [abs_of_nonneg (show 0 ≤ Ieee.pi - fl (2 * rad e) by linarith)] at c2
  have pi4 : Ieee.pi ≤ 3.15 := by unfold Ieee.pi; norm_num
  unfold centralAngle
  rw [abs_le] at c1 c2
  obtain ⟨c11, c12⟩ := c1
  obtain ⟨c21, c22⟩ := c2
  obtain ⟨hp1, hp2⟩ := hp
  obtain ⟨hc1, hc2⟩ := hc
  refine ⟨le_fl double_zero (by linarith), ?_, ?_⟩
  · norm_num at *; linarith
  · rw [abs_le]
    constructor <;> norm_num at * <;> linarith

theorem rel_velocity {h : ℝ} (hf : Flying h) :
    Rel 4 (fl (Real.sqrt (fl (earthMu / fl (earthMeanRadius + h))))) (Real.sqrt (mu / (meanRadius + h))) ∧
    600 ≤ fl (Real.sqrt (fl (earthMu / fl (earthMeanRadius + h)))) := by
  have r := rel_axis hf.low
  obtain ⟨-, -, a, b⟩ := axis_bounds hf
  generalize fl (earthMeanRadius + h) = x at *
  have hx : 0 < x := by linarith
  have d : IsDouble 360000 := by exact_mod_cast double_int (n := 360000) (by norm_num)
  have d' : IsDouble 600 := by exact_mod_cast double_int (n := 600) (by norm_num)
  have hq : (360000 : ℝ) ≤ earthMu / x := by
    rw [le_div_iff₀ hx]; unfold earthMu; linarith
  have hs := le_fl d hq
  have t : (600 : ℝ) ≤ Real.sqrt (fl (earthMu / x)) := by
    refine Real.le_sqrt_of_sq_le (le_trans (le_of_eq ?_) hs)
    norm_num
  have rm : Rel 0 earthMu mu := by rw [earthMu_eq]; exact Rel.refl mu_pos
  refine ⟨((rm.div r).fl (le_trans ?_ hq)).sqrt.fl (le_trans ?_ t), le_fl d' t⟩ <;> norm_num

/-- **C168**: the longest access in whole microseconds, computed with double precision numbers, is hardly more than half
a microsecond off that computed exactly, at most one off that in whole microseconds, and not negative. -/
theorem C168_access (altitude minElevation : ℝ) (h : Flying altitude) (h0 : 0 ≤ minElevation) (h1 : minElevation ≤ 90) :
    0 ≤ Ieee.maxAccess altitude minElevation ∧
    |Ieee.maxAccess altitude minElevation -
      roundHalfEven (Geometry.maxAccessTime altitude minElevation * 1000000)| ≤ 1 ∧
    |(Ieee.maxAccess altitude minElevation : ℝ) - Geometry.maxAccessTime altitude minElevation * 1000000| ≤ 0.61 := by
  obtain ⟨a0, a4, ac⟩ := central_bounds h0 h1
  obtain ⟨rv, v0⟩ := rel_velocity h
  have ra := rel_axis h.low
  obtain ⟨A0, A1, B0, B1⟩ := axis_bounds h
  have e1 : maxAccessSeconds altitude minElevation =
      fl (fl (fl (earthMeanRadius + altitude) * centralAngle minElevation) /
        fl (Real.sqrt (fl (earthMu / fl (earthMeanRadius + altitude))))) := rfl
  have e2 : Geometry.maxAccessTime altitude minElevation =
      (meanRadius + altitude) / Real.sqrt (mu / (meanRadius + altitude)) * (Real.pi - 2 * radians minElevation) := by
    unfold Geometry.maxAccessTime
    simp only
    ring
  have hm : |maxAccessSeconds altitude minElevation - Geometry.maxAccessTime altitude minElevation| ≤ 1e-7 ∧
      0 ≤ maxAccessSeconds altitude minElevation := by
    rw [e1, e2]
    have rq := ra.div rv
    have qc := abs_le.mp (rq.close (by norm_num))
    have q0 := rq.pos
    have q1 := rq.pos'
    have vpos := rv.pos
    generalize hv : fl (Real.sqrt (fl (earthMu / fl (earthMeanRadius + altitude)))) = v' at *
    generalize fl (earthMeanRadius + altitude) = A' at *
    generalize centralAngle minElevation = th at *
    have hv' : 0 < v' := by linarith
    have hD0 : 0 ≤ A' * th := mul_nonneg (by linarith) a0
    have hf1 := fl_close' (A' * th)
    rw [abs_of_nonneg hD0, abs_le] at hf1
    have hD1 : 0 ≤ fl (A' * th) := le_fl double_zero hD0
    have hT0 : 0 ≤ fl (A' * th) / v' := div_nonneg hD1 hv'.le
    have hf2 := fl_close' (fl (A' * th) / v')
    rw [abs_of_nonneg hT0, abs_le] at hf2
    refine ⟨?_, le_fl double_zero hT0⟩
    -- the distance over the velocity
    have s1 : fl (A' * th) / v' ≤ A' / v' * th * (1 + 1 / 2 ^ 53) + 1 / 2 ^ 100 := by
      rw [div_le_iff₀ hv']
      have : (A' / v' * th * (1 + 1 / 2 ^ 53) + 1 / 2 ^ 100) * v' = A' * th * (1 + 1 / 2 ^ 53) + 1 / 2 ^ 100 * v' := by
        field_simp
      rw [this]
      have : (1 : ℝ) / 2 ^ 100 * 1 ≤ 1 / 2 ^ 100 * v' := mul_le_mul_of_nonneg_left (by linarith) (by norm_num)
      linarith [hf1.2]
    have s2 : A' / v' * th * (1 - 1 / 2 ^ 53) - 1 / 2 ^ 100 ≤ fl (A' * th) / v' := by
      rw [le_div_iff₀ hv']
      have : (A' / v' * th * (1 - 1 / 2 ^ 53) - 1 / 2 ^ 100) * v' = A' * th * (1 - 1 / 2 ^ 53) - 1 / 2 ^ 100 * v' := by
        field_simp
      rw [this]
      have : (1 : ℝ) / 2 ^ 100 * 1 ≤ 1 / 2 ^ 100 * v' := mul_le_mul_of_nonneg_left (by linarith) (by norm_num)
      linarith [hf1.1]
    have hq : A' / v' ≤ 1700000 := by
      rw [div_le_iff₀ hv']; norm_num at *; linarith
    generalize A' / v' = q' at *
    generalize (meanRadius + altitude) / Real.sqrt (mu / (meanRadius + altitude)) = q at *
    generalize fl (A' * th) / v' = T at *
    generalize Real.pi - 2 * radians minElevation = t at *
    obtain ⟨qc1, qc2⟩ := qc
    have hq2 : q ≤ 1700001 := by norm_num at *; linarith
    rw [abs_le] at ac
    -- products
    have m1 : |q' * th - q * t| ≤ 5e-8 := by
      have e : q' * th - q * t = (q' - q) * th + q * (th - t) := by ring
      rw [e]
      refine (abs_add_le _ _).trans ?_
      have f1 : |(q' - q) * th| ≤ 1700001 * 4e-15 * 4 := by
        rw [abs_mul]
        refine mul_le_mul ?_ (by rw [abs_of_nonneg a0]; exact a4) (abs_nonneg _) (by norm_num)
        rw [abs_le]
        constructor <;> norm_num at * <;> linarith
      have f2 : |q * (th - t)| ≤ 1700001 * 1e-14 := by
        rw [abs_mul]
        refine mul_le_mul (by rw [abs_of_pos q0]; exact hq2) (by rw [abs_le]; exact ac) (abs_nonneg _) (by norm_num)
      norm_num at *; linarith
    have m2 : q' * th ≤ 6800000 := by
      have := mul_le_mul hq a4 a0 (by norm_num)
      norm_num at *; linarith
    have m0 : 0 ≤ q' * th := mul_nonneg q1.le a0
    rw [abs_le] at m1 ⊢
    generalize q' * th = m at *
    obtain ⟨m11, m12⟩ := m1
    obtain ⟨f1, f2⟩ := hf2
    constructor <;> norm_num at * <;> linarith
  have hc := microseconds_close (maxAccessSeconds altitude minElevation)
  have hd := rhe_error (Geometry.maxAccessTime altitude minElevation * 1000000)
  obtain ⟨hm, hm0⟩ := hm
  refine ⟨?_, ?_, ?_⟩
  · have z : microseconds 0 = 0 := by
      unfold microseconds
      simp only [Int.floor_zero, Int.fract_zero, mul_zero, fl_zero, zero_mul, zero_add]
      exact_mod_cast rhe_intCast 0
    have := microseconds_mono hm0
    rw [z] at this
    exact this
  · have : |((Ieee.maxAccess altitude minElevation -
        roundHalfEven (Geometry.maxAccessTime altitude minElevation * 1000000) : ℤ) : ℝ)| < 2 := by
      unfold Ieee.maxAccess
      push_cast
      rw [abs_le] at hc hd hm
      obtain ⟨c1, c2⟩ := hc
      obtain ⟨d1, d2⟩ := hd
      obtain ⟨m1, m2⟩ := hm
      rw [abs_lt]
      constructor <;> norm_num at * <;> linarith
    rw [← Int.cast_abs] at this
    have : |Ieee.maxAccess altitude minElevation -
        roundHalfEven (Geometry.maxAccessTime altitude minElevation * 1000000)| < 2 := by exact_mod_cast this
    omega
  · unfold Ieee.maxAccess
    rw [abs_le] at hc hm ⊢
    obtain ⟨c1, c2⟩ := hc
    obtain ⟨m1, m2⟩ := hm
    constructor <;> norm_num at * <;> linarith

/-- **C168**: rounding never makes the longest access of a higher orbit, or for a lower minimum elevation, shorter. -/
theorem C168_access_mono (altitude higher minElevation lower : ℝ) (h : Flying altitude) (h' : Flying higher)
    (hle : altitude ≤ higher) (h0 : 0 ≤ lower) (hlo : lower ≤ minElevation) (h1 : minElevation ≤ 90) :
    Ieee.maxAccess altitude minElevation ≤ Ieee.maxAccess higher lower := by
  refine microseconds_mono ?_
  have ang : centralAngle minElevation ≤ centralAngle lower := by
    unfold centralAngle
    refine fl_mono (sub_le_sub_left (fl_mono ?_) _)
    have := rad_mono hlo
    linarith
  have a0 := (central_bounds (h0.trans hlo) h1).1
  obtain ⟨-, -, a, -⟩ := axis_bounds h
  have ax : fl (earthMeanRadius + altitude) ≤ fl (earthMeanRadius + higher) := fl_mono (by linarith)
  have hA : 0 < fl (earthMeanRadius + altitude) := by linarith
  have hd := fl_mono (mul_le_mul ax ang a0 (hA.le.trans ax))
  have hd0 : 0 ≤ fl (fl (earthMeanRadius + altitude) * centralAngle minElevation) :=
    le_fl double_zero (mul_nonneg hA.le a0)
  have hmu : 0 ≤ earthMu := by unfold earthMu; norm_num
  have hv := fl_mono (Real.sqrt_le_sqrt (fl_mono (div_le_div_of_nonneg_left hmu hA ax)))
  have v0 := (rel_velocity h').1.pos'
  show fl (fl (fl (earthMeanRadius + altitude) * centralAngle minElevation) / _) ≤
    fl (fl (fl (earthMeanRadius + higher) * centralAngle lower) / _)
  exact fl_mono (div_le_div₀ (hd0.trans hd) hd v0 hv)

/-- Such altitudes: that of the space station, and of a geostationary satellite. -/
example : Flying 420000 ∧ Flying 35786000 := by
  constructor <;> constructor <;> norm_num

end Tatc.Props
