import Verif.Model.IeeeKepler
import Verif.Props.RoundedSamples

/-!
# C153: the loop for the eccentric anomaly, computed with double precision numbers
-/

namespace Tatc.Props
open Tatc.Num Tatc.Ieee
open scoped Classical

theorem tolerance_bounds : 999999 / 10 ^ 12 ≤ tolerance ∧ tolerance ≤ 1000001 / 10 ^ 12 := by
  have h := fl_close' (1 / 10 ^ 6)
  rw [abs_of_pos (by positivity : (0 : ℝ) < 1 / 10 ^ 6), abs_le] at h
  unfold tolerance
  norm_num at *
  constructor <;> linarith

/-- A step is that of exact arithmetic, to 10⁻¹⁵. -/
theorem keplerStep_close (sine : Sine) {n e : ℝ} (psi : ℝ) (hn : |n| ≤ 4) (he0 : 0 ≤ e) (he1 : e ≤ 1) :
    |keplerStep sine n e psi - (n + e * Real.sin psi)| ≤ 1 / 10 ^ 15 := by
  unfold keplerStep
  have h1 := sine.close psi
  generalize sine.run psi = s at *
  have h2 := Real.abs_sin_le_one psi
  generalize Real.sin psi = r at *
  have a1 : |e * s - e * r| ≤ 1 / 2 ^ 52 := by
    rw [← mul_sub, abs_mul, abs_of_nonneg he0]
    exact (mul_le_of_le_one_left (abs_nonneg _) he1).trans h1
  have a2 : |e * r| ≤ 1 := by
    rw [abs_mul, abs_of_nonneg he0]
    exact mul_le_one₀ he1 (abs_nonneg _) h2
  have e1 := fl_close' (e * s)
  have e2 := fl_close' (n + fl (e * s))
  have e3 := fl_close' (n + fl (e * s))
  generalize e * s = x at *
  generalize e * r = y at *
  rw [abs_le] at a1 a2 hn
  have b1 : |x| ≤ 1.01 := by rw [abs_le]; norm_num at *; constructor <;> linarith
  have b2 : |fl x - x| ≤ 1.02 / 2 ^ 53 := e1.trans (by norm_num at *; linarith)
  rw [abs_le] at b2
  have b3 : |n + fl x| ≤ 5.1 := by
    rw [abs_le] at b1 ⊢
    norm_num at *
    constructor <;> linarith
  have b4 : |fl (n + fl x) - (n + fl x)| ≤ 5.2 / 2 ^ 53 := e2.trans (by norm_num at *; linarith)
  rw [abs_le] at b4 ⊢
  norm_num at *
  constructor <;> linarith

theorem sin_lipschitz (a b : ℝ) : |Real.sin a - Real.sin b| ≤ |a - b| := by
  rw [Real.sin_sub_sin, abs_mul, abs_mul, abs_two]
  have h1 := Real.abs_cos_le_one ((a + b) / 2)
  have h2 : |Real.sin ((a - b) / 2)| ≤ |(a - b) / 2| := Real.abs_sin_le_abs
  rw [abs_div, abs_two] at h2
  calc 2 * |Real.sin ((a - b) / 2)| * |Real.cos ((a + b) / 2)| ≤ 2 * |Real.sin ((a - b) / 2)| * 1 :=
        mul_le_mul_of_nonneg_left h1 (by positivity)
    _ ≤ |a - b| := by linarith

/-- Steps get nearer to one another, to rounding. -/
theorem keplerStep_contracts (sine : Sine) {n e : ℝ} (a b : ℝ) (hn : |n| ≤ 4) (he0 : 0 ≤ e) (he1 : e ≤ 1) :
    |keplerStep sine n e a - keplerStep sine n e b| ≤ e * |a - b| + 2 / 10 ^ 15 := by
  have h1 := keplerStep_close sine a hn he0 he1
  have h2 := keplerStep_close sine b hn he0 he1
  have h3 : |e * Real.sin a - e * Real.sin b| ≤ e * |a - b| := by
    rw [← mul_sub, abs_mul, abs_of_nonneg he0]
    exact mul_le_mul_of_nonneg_left (sin_lipschitz a b) he0
  rw [abs_le] at h1 h2 h3 ⊢
  constructor <;> linarith

theorem fl_abs_le_tolerance {x : ℝ} (h : |x| ≤ tolerance) : |fl x| ≤ tolerance := by
  have hd : IsDouble tolerance := fl_double _
  have hd' : IsDouble (-tolerance) := by
    obtain ⟨n, e, a, b, c⟩ := hd
    exact ⟨-n, e, by rwa [abs_neg], b, by rw [c]; push_cast; ring⟩
  rw [abs_le] at h ⊢
  exact ⟨le_fl hd' h.1, fl_le hd h.2⟩

/-- From two successive values the loop ends. -/
theorem ieee_loop_ends (sine : Sine) {n e : ℝ} (hn : |n| ≤ 4) (he0 : 0 ≤ e) (he1 : e ≤ 1 - 1 / 10 ^ 8) (d : ℕ) :
    ∀ (prev D : ℝ), 0 ≤ D → |keplerStep sine n e prev - prev| ≤ D + 2 / 10 ^ 7 → e ^ d * D ≤ 5 / 10 ^ 7 →
      ∃ prev', ∀ fuel, d + 1 ≤ fuel → keplerLoop sine n e fuel prev (keplerStep sine n e prev) = .ok (keplerStep sine n e prev') := by
  have hlow := tolerance_bounds.1
  have stop : ∀ prev : ℝ, |keplerStep sine n e prev - prev| ≤ tolerance → ∀ fuel, 1 ≤ fuel →
      keplerLoop sine n e fuel prev (keplerStep sine n e prev) = .ok (keplerStep sine n e prev) := by
    intro prev h fuel hf
    obtain ⟨k, rfl⟩ : ∃ k, fuel = k + 1 := ⟨fuel - 1, by omega⟩
    rw [keplerLoop, if_neg (not_lt.mpr (fl_abs_le_tolerance h))]
  induction d with
  | zero =>
    intro prev D hD h1 h2
    rw [pow_zero, one_mul] at h2
    exact ⟨prev, stop prev (h1.trans (by norm_num at *; linarith))⟩
  | succ d ih =>
    intro prev D hD h1 h2
    by_cases hc : |fl (keplerStep sine n e prev - prev)| > tolerance
    · obtain ⟨p, hp⟩ := ih (keplerStep sine n e prev) (e * D) (by positivity) (by
        refine (keplerStep_contracts sine _ _ hn he0 (by norm_num at *; linarith)).trans ?_
        have := mul_le_mul_of_nonneg_left h1 he0
        have h3 : e * (D + 2 / 10 ^ 7) = e * D + e * (2 / 10 ^ 7) := by ring
        rw [h3] at this
        norm_num at *
        linarith) (by rw [← mul_assoc, ← pow_succ]; exact h2)
      refine ⟨p, ?_⟩
      intro fuel hf
      obtain ⟨k, rfl⟩ : ∃ k, fuel = k + 1 := ⟨fuel - 1, by omega⟩
      rw [keplerLoop, if_pos hc]
      exact hp k (by omega)
    · refine ⟨prev, ?_⟩
      intro fuel hf
      obtain ⟨k, rfl⟩ : ∃ k, fuel = k + 1 := ⟨fuel - 1, by omega⟩
      rw [keplerLoop, if_neg hc]

/-- Whatever the bound, an answer is a step from a value that is near to it. -/
theorem ieee_loop_answer (sine : Sine) {n e : ℝ} : ∀ (fuel : ℕ) (prev psi : ℝ),
    keplerLoop sine n e fuel prev (keplerStep sine n e prev) = .ok psi →
    ∃ q, psi = keplerStep sine n e q ∧ |fl (psi - q)| ≤ tolerance := by
  intro fuel
  induction fuel with
  | zero => intro prev psi h; simp [keplerLoop] at h
  | succ k ih =>
    intro prev psi h
    rw [keplerLoop] at h
    split_ifs at h with hc
    · exact ih _ _ h
    · cases h
      exact ⟨prev, rfl, not_lt.mp hc⟩

theorem first_step (sine : Sine) (n e : ℝ) (k : ℕ) : eccentricAnomaly sine n e (k + 1) =
    keplerLoop sine n e k (fl (1 / 10)) (keplerStep sine n e (fl (1 / 10))) := by
  unfold eccentricAnomaly
  rw [keplerLoop, if_pos]
  have h := fl_close' (1 / 10)
  rw [abs_of_pos (by positivity : (0 : ℝ) < 1 / 10), abs_le] at h
  have h2 := fl_close' (fl (1 / 10) - 0)
  have h3 := tolerance_bounds.2
  rw [sub_zero] at h2 ⊢
  have h4 : |fl (1 / 10)| ≤ 1 := by rw [abs_le]; norm_num at *; constructor <;> linarith
  rw [abs_le] at h2
  have : tolerance < fl (fl (1 / 10)) := by norm_num at *; linarith
  exact this.trans_le (le_abs_self _)

/-- C153: whatever the number of steps allowed, an answer solves Kepler's equation `psi - e sin psi = n` to `1.00001e-6`,
and is as near to the solution as the eccentricity allows. -/
theorem C153_answer (sine : Sine) (n e : ℝ) (hn : |n| ≤ 4) (he0 : 0 ≤ e) (he1 : e ≤ 1) (fuel : ℕ) (psi : ℝ)
    (h : eccentricAnomaly sine n e fuel = .ok psi) :
    |psi - e * Real.sin psi - n| ≤ 1.00001 / 10 ^ 6 ∧
    ∀ E : ℝ, E - e * Real.sin E = n → (1 - e) * |psi - E| ≤ 1.00001 / 10 ^ 6 := by
  obtain ⟨k, rfl⟩ : ∃ k, fuel = k + 1 := by
    cases fuel with
    | zero => simp [eccentricAnomaly, keplerLoop] at h
    | succ k => exact ⟨k, rfl⟩
  rw [first_step] at h
  obtain ⟨q, hq, ht⟩ := ieee_loop_answer sine k _ _ h
  have h1 := keplerStep_close sine q hn he0 he1
  rw [← hq] at h1
  have h2 := fl_close' (psi - q)
  have h3 := tolerance_bounds.2
  have small : |psi - q| ≤ 1.000005 / 10 ^ 6 := by
    have : |psi - q| ≤ |fl (psi - q)| + |fl (psi - q) - (psi - q)| := by
      have := abs_sub_abs_le_abs_sub (psi - q) (fl (psi - q))
      rw [abs_sub_comm (psi - q)] at this
      linarith
    norm_num at *
    linarith
  have h4 : |e * Real.sin q - e * Real.sin psi| ≤ 1.000005 / 10 ^ 6 := by
    rw [← mul_sub, abs_mul, abs_of_nonneg he0]
    refine (mul_le_of_le_one_left (abs_nonneg _) he1).trans ((sin_lipschitz q psi).trans ?_)
    rw [abs_sub_comm]; exact small
  have res : |psi - e * Real.sin psi - n| ≤ 1.00001 / 10 ^ 6 := by
    rw [abs_le] at h1 h4 ⊢
    norm_num at *
    constructor <;> linarith
  refine ⟨res, ?_⟩
  intro E hE
  have h5 : e * |Real.sin psi - Real.sin E| ≤ e * |psi - E| := mul_le_mul_of_nonneg_left (sin_lipschitz psi E) he0
  have h6 : |psi - E| ≤ |psi - e * Real.sin psi - n| + e * |Real.sin psi - Real.sin E| := by
    have : psi - E = (psi - e * Real.sin psi - n) + e * (Real.sin psi - Real.sin E) := by rw [← hE]; ring
    calc |psi - E| = |(psi - e * Real.sin psi - n) + e * (Real.sin psi - Real.sin E)| := by rw [← this]
      _ ≤ _ := (abs_add_le _ _).trans (by rw [abs_mul, abs_of_nonneg he0])
  linarith

/-- C153: the loop ends, after a number of steps that works for every larger bound too. -/
theorem C153_terminates (sine : Sine) (n e : ℝ) (hn : |n| ≤ 4) (he0 : 0 ≤ e) (he1 : e ≤ 1 - 1 / 10 ^ 8) :
    ∃ steps psi, ∀ fuel, steps ≤ fuel → eccentricAnomaly sine n e fuel = .ok psi := by
  have he : e < 1 := by norm_num at *; linarith
  obtain ⟨d, hd⟩ := exists_pow_lt_of_lt_one (show (0 : ℝ) < 5 / 10 ^ 7 / 10 by positivity) he
  have hfirst : |keplerStep sine n e (fl (1 / 10)) - fl (1 / 10)| ≤ 10 + 2 / 10 ^ 7 := by
    have h1 := keplerStep_close sine (fl (1 / 10)) hn he0 he.le
    have h2 : |e * Real.sin (fl (1 / 10))| ≤ 1 := by
      rw [abs_mul, abs_of_nonneg he0]
      exact mul_le_one₀ he.le (abs_nonneg _) (Real.abs_sin_le_one _)
    have h := fl_close' (1 / 10)
    rw [abs_of_pos (by positivity : (0 : ℝ) < 1 / 10), abs_le] at h
    rw [abs_le] at h1 h2 hn ⊢
    norm_num at *
    constructor <;> linarith
  obtain ⟨p, hp⟩ := ieee_loop_ends sine hn he0 he1 d (fl (1 / 10)) 10 (by norm_num) hfirst (by
    have := hd.le
    norm_num at *
    linarith)
  refine ⟨d + 2, keplerStep sine n e p, ?_⟩
  intro fuel hf
  obtain ⟨k, rfl⟩ : ∃ k, fuel = k + 1 := ⟨fuel - 1, by omega⟩
  rw [first_step sine n e k]
  exact hp k (by omega)

/-- Witness: a sine that is rounded to double precision numbers, anomaly 3 and eccentricity 0.9. -/
noncomputable example : Sine where
  run x := fl (Real.sin x)
  close x := by
    have h := fl_close' (Real.sin x)
    have := Real.abs_sin_le_one x
    refine h.trans ?_
    norm_num at *
    linarith

example : |(3 : ℝ)| ≤ 4 ∧ (0 : ℝ) ≤ 0.9 ∧ (0.9 : ℝ) ≤ 1 - 1 / 10 ^ 8 := by norm_num

end Tatc.Props
