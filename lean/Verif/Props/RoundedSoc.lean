import Verif.Model.IeeeSoc
import Verif.Props.RoundedPeriod
import Verif.Props.Soc
import Verif.Props.StreetsGap

/-! C174: streets of coverage designs survive rounding. -/

namespace Tatc.Props
open Tatc Tatc.Num Tatc.Ieee Tatc.Spec Tatc.Constellation Tatc.Orbit

/-! ## Relative errors of sines and arc tangents -/

theorem Rel.weaken {j k : ℕ} {x y : ℝ} (h : Rel j x y) (hjk : j ≤ k) : Rel k x y :=
  ⟨h.pos, h.low.trans (mul_le_mul_of_nonneg_left (pow_le_pow_right₀ rounding_one hjk) h.pos'.le),
    h.high.trans (mul_le_mul_of_nonneg_left (pow_le_pow_right₀ rounding_one hjk) h.pos.le)⟩

/-- A function that grows, but less than in proportion, does not make relative errors larger. -/
theorem Rel.map {k : ℕ} {x y : ℝ} (h : Rel k x y) (f : ℝ → ℝ) (hx : 0 < f x) (hy : 0 < f y)
    (hsub : ∀ u v, (u = x ∨ u = y) → (v = x ∨ v = y) → u ≤ v → u / v * f v ≤ f u)
    (hmono : ∀ u v, (u = x ∨ u = y) → (v = x ∨ v = y) → u ≤ v → f u ≤ f v) : Rel k (f x) (f y) := by
  have hr := rounding_pow k
  have px := h.pos'
  have py := h.pos
  refine ⟨hy, ?_, ?_⟩
  · rcases le_total y x with c | c
    · exact (hmono y x (.inr rfl) (.inl rfl) c).trans (le_mul_of_one_le_right hx.le hr)
    · have h1 := hsub x y (.inl rfl) (.inr rfl) c
      rw [div_mul_eq_mul_div, div_le_iff₀ py] at h1
      have h2 : x * f y ≤ x * (f x * rounding ^ k) := by
        calc x * f y ≤ f x * y := h1
          _ ≤ f x * (x * rounding ^ k) := mul_le_mul_of_nonneg_left h.low hx.le
          _ = _ := by ring
      exact le_of_mul_le_mul_left h2 px
  · rcases le_total x y with c | c
    · exact (hmono x y (.inl rfl) (.inr rfl) c).trans (le_mul_of_one_le_right hy.le hr)
    · have h1 := hsub y x (.inr rfl) (.inl rfl) c
      rw [div_mul_eq_mul_div, div_le_iff₀ px] at h1
      have h2 : y * f x ≤ y * (f y * rounding ^ k) := by
        calc y * f x ≤ f y * x := h1
          _ ≤ f y * (y * rounding ^ k) := mul_le_mul_of_nonneg_left h.high hy.le
          _ = _ := by ring
      exact le_of_mul_le_mul_left h2 py

theorem Rel.sin {k : ℕ} {x y : ℝ} (h : Rel k x y) (hx : x ≤ Real.pi / 2) (hy : y ≤ Real.pi / 2) :
    Rel k (Real.sin x) (Real.sin y) := by
  have px := h.pos'
  have py := h.pos
  have hp := Real.pi_pos
  have bound : ∀ u, (u = x ∨ u = y) → 0 < u ∧ u ≤ Real.pi / 2 := by
    rintro u (rfl | rfl)
    · exact ⟨px, hx⟩
    · exact ⟨py, hy⟩
  refine h.map Real.sin (Real.sin_pos_of_pos_of_lt_pi px (by linarith)) (Real.sin_pos_of_pos_of_lt_pi py (by linarith)) ?_ ?_
  · intro u v hu hv huv
    obtain ⟨u0, u1⟩ := bound u hu
    obtain ⟨v0, v1⟩ := bound v hv
    have := sin_scale (c := u / v) (x := v) (by positivity) ((div_le_one v0).mpr huv) v0.le (by linarith)
    rwa [div_mul_cancel₀ _ v0.ne'] at this
  · intro u v hu hv huv
    exact Real.sin_le_sin_of_le_of_le_pi_div_two (by linarith [(bound u hu).1]) (bound v hv).2 huv

theorem arctan_scale {c x : ℝ} (hc0 : 0 ≤ c) (hc1 : c ≤ 1) (hx0 : 0 ≤ x) : c * Real.arctan x ≤ Real.arctan (c * x) := by
  have hd : ∀ t : ℝ, HasDerivAt (fun t => Real.arctan (c * t) - c * Real.arctan t)
      (1 / (1 + (c * t) ^ 2) * c - c * (1 / (1 + t ^ 2))) t := by
    intro t
    have h1 : HasDerivAt (fun t : ℝ => c * t) c t := by simpa using (hasDerivAt_id t).const_mul c
    exact h1.arctan.sub ((Real.hasDerivAt_arctan t).const_mul c)
  have hm : MonotoneOn (fun t => Real.arctan (c * t) - c * Real.arctan t) (Set.Ici 0) := by
    apply monotoneOn_of_deriv_nonneg (convex_Ici 0)
    · exact fun t _ => (hd t).continuousAt.continuousWithinAt
    · exact fun t _ => (hd t).differentiableAt.differentiableWithinAt
    · intro t _
      rw [(hd t).deriv]
      have h1 : 1 / (1 + t ^ 2) ≤ 1 / (1 + (c * t) ^ 2) := by
        apply one_div_le_one_div_of_le (by positivity)
        have : c ^ 2 ≤ 1 := by nlinarith
        rw [mul_pow]; nlinarith [sq_nonneg t]
      nlinarith
  have := hm (Set.mem_Ici.mpr le_rfl) (Set.mem_Ici.mpr hx0) hx0
  simp at this
  exact this

theorem Rel.arctan {k : ℕ} {x y : ℝ} (h : Rel k x y) : Rel k (Real.arctan x) (Real.arctan y) := by
  have px := h.pos'
  have py := h.pos
  have bound : ∀ u, (u = x ∨ u = y) → 0 < u := by
    rintro u (rfl | rfl)
    · exact px
    · exact py
  refine h.map Real.arctan (Real.arctan_pos.mpr px) (Real.arctan_pos.mpr py) ?_ ?_
  · intro u v hu hv huv
    have u0 := bound u hu
    have v0 := bound v hv
    have := arctan_scale (c := u / v) (x := v) (by positivity) ((div_le_one v0).mpr huv) v0.le
    rwa [div_mul_cancel₀ _ v0.ne'] at this
  · intro u v _ _ huv
    exact Real.arctan_mono huv

/-- Two numbers that are close are related by many roundings. -/
theorem rel_of_close {k : ℕ} {x y d : ℝ} (hy : 0 < y) (h : |x - y| ≤ d) (hd : 1000 * d ≤ y) (hk : d ≤ 0.99 * (y * (k / 2 ^ 52))) :
    Rel k x y := by
  have hb : 1 + (k : ℝ) * (1 / 2 ^ 52) ≤ rounding ^ k := one_add_mul_le_pow (by norm_num) k
  have h0 : 0 ≤ d := (abs_nonneg _).trans h
  rw [abs_le] at h
  have e1 : (k : ℝ) * (1 / 2 ^ 52) = k / 2 ^ 52 := by ring
  rw [e1] at hb
  have hk0 : (0 : ℝ) ≤ k / 2 ^ 52 := by positivity
  refine ⟨hy, ?_, ?_⟩
  · refine le_trans ?_ (mul_le_mul_of_nonneg_left hb (by linarith))
    have : 0.99 * y ≤ x := by norm_num; linarith
    have := mul_le_mul_of_nonneg_right this hk0
    linarith
  · refine le_trans ?_ (mul_le_mul_of_nonneg_left hb hy.le)
    have : 0 ≤ y * (k / 2 ^ 52) := by positivity
    norm_num at hk ⊢
    nlinarith

theorem rounding_many : rounding ^ 1400 ≤ 1 + 3.5e-13 := by
  have h1 : rounding ^ 13 ≤ 1 + 3e-15 := rounding_few
  calc rounding ^ 1400 ≤ rounding ^ (13 * 108) := pow_le_pow_right₀ rounding_one (by norm_num)
    _ = (rounding ^ 13) ^ 108 := pow_mul _ _ _
    _ ≤ (1 + 3e-15) ^ 108 := pow_le_pow_left₀ (by unfold rounding; positivity) h1 108
    _ ≤ _ := by norm_num

theorem Rel.near {k : ℕ} {x y : ℝ} (h : Rel k x y) (hk : k ≤ 1400) : |x - y| ≤ y * 3.6e-13 := by
  have h1 : rounding ^ k ≤ 1 + 3.5e-13 := (pow_le_pow_right₀ rounding_one hk).trans rounding_many
  have hx := h.pos'
  have hy := h.pos
  have a := h.low.trans (mul_le_mul_of_nonneg_left h1 hx.le)
  have b := h.high.trans (mul_le_mul_of_nonneg_left h1 hy.le)
  rw [abs_le]
  constructor
  · norm_num at *; linarith
  · norm_num at *; linarith

theorem Rel.few {k : ℕ} {x y : ℝ} (h : Rel k x y) (hk : k ≤ 5) : |x - y| ≤ y * 1.2e-15 := by
  have h0 : rounding ^ 5 ≤ 1 + 1.12e-15 := by unfold rounding; norm_num
  have h1 : rounding ^ k ≤ 1 + 1.12e-15 := (pow_le_pow_right₀ rounding_one hk).trans h0
  have hx := h.pos'
  have hy := h.pos
  have a := h.low.trans (mul_le_mul_of_nonneg_left h1 hx.le)
  have b := h.high.trans (mul_le_mul_of_nonneg_left h1 hy.le)
  rw [abs_le]
  constructor
  · norm_num at *; linarith
  · norm_num at *; linarith

/-! ## The field of regard -/

/-- The designs in question: orbits 100 to 100000 km up and swaths from 1 km to the horizon. -/
structure Street (altitude swath : ℝ) : Prop where
  low : 100000 ≤ altitude
  high : altitude ≤ 100000000
  wide : 1000 ≤ swath
  quarter : swath / 2 / meanRadius ≤ Real.pi / 2
  horizon : meanRadius / (meanRadius + altitude) ≤ Real.cos (swath / 2 / meanRadius)

theorem Street.viewing {altitude swath : ℝ} (h : Street altitude swath) : Viewing altitude 0 :=
  ⟨by norm_num, by linarith [h.low], by linarith [h.high]⟩

theorem Street.central {altitude swath : ℝ} (h : Street altitude swath) : 7.84e-5 ≤ swath / 2 / meanRadius := by
  have h1 := meanRadius_lt
  have h2 := meanRadius_pos
  rw [le_div_iff₀ h2]
  have := h.wide
  norm_num at *
  linarith

theorem Street.rho {altitude swath : ℝ} (h : Street altitude swath) :
    0.059 ≤ Geometry.sinRho altitude 0 ∧ Geometry.sinRho altitude 0 ≤ 0.9846 := by
  have h1 := meanRadius_lt
  have h2 := radius_near.2
  have := h.low
  have := h.high
  unfold Geometry.sinRho
  rw [add_zero, le_div_iff₀ (by linarith), div_le_iff₀ (by linarith)]
  constructor <;> norm_num at * <;> linarith

theorem rel_rho {altitude : ℝ} (h : Viewing altitude 0) : Rel 5 (Ieee.sinRho altitude 0) (Geometry.sinRho altitude 0) := by
  have a := rel_axis (h := 0) (by norm_num)
  have b := rel_axis (h := altitude) (by linarith [h.above])
  have c := a.div b
  obtain ⟨r1, r2⟩ := rho_range h
  refine (c.fl ?_).weaken (by norm_num)
  have := (c.weaken (k := 1400) (by norm_num)).near le_rfl
  rw [abs_le] at this
  have h1 := this.1
  have e : (meanRadius + 0) / (meanRadius + altitude) = Geometry.sinRho altitude 0 := rfl
  rw [e] at h1
  norm_num at *
  linarith

/-- The central angle of half the swath, as computed. -/
noncomputable def streetLambda (swath : ℝ) : ℝ := fl (fl (swath / 2) / fl (earthMeanRadius + 0))

theorem rel_lambda {altitude swath : ℝ} (h : Street altitude swath) : Rel 4 (streetLambda swath) (swath / 2 / meanRadius) := by
  have hw := h.wide
  have hR := radius_near.2
  have a : Rel 1 (fl (swath / 2)) (swath / 2) := rel_fl (le_trans (by norm_num) (show (1 : ℝ) ≤ _ by linarith))
  have b := rel_axis (h := 0) (by norm_num)
  have c := a.div b
  rw [add_zero meanRadius] at c
  refine c.fl ?_
  have := (c.weaken (k := 1400) (by norm_num)).near le_rfl
  have hl := h.central
  rw [abs_le] at this
  have h1 := this.1
  norm_num at *
  linarith

theorem street_sine_low {altitude swath : ℝ} (h : Street altitude swath) : 4e-5 ≤ Real.sin (swath / 2 / meanRadius) := by
  have hl := h.central
  have hp := Real.pi_gt_three
  have hpl := Real.pi_lt_d4
  set l := swath / 2 / meanRadius
  have h1 := Real.mul_le_sin (x := l) (by norm_num at *; linarith) h.quarter
  have h2 : 0.6 ≤ 2 / Real.pi := by rw [le_div_iff₀ (by linarith)]; norm_num at *; linarith
  have h3 := mul_le_mul_of_nonneg_right h2 (show 0 ≤ l by norm_num at *; linarith)
  norm_num at *
  linarith

theorem street_sine {altitude swath : ℝ} (h : Street altitude swath) :
    Rel 5 (fl (Real.sin (streetLambda swath))) (Real.sin (swath / 2 / meanRadius)) ∧
      |fl (Real.sin (streetLambda swath)) - Real.sin (swath / 2 / meanRadius)| ≤ 1.2e-15 ∧
      fl (Real.sin (streetLambda swath)) ≤ 1 := by
  have hr := rel_lambda h
  have hl := h.central
  have hR := radius_near.2
  have hp := Real.pi_gt_three
  set l := swath / 2 / meanRadius with hld
  -- below a right angle by more than the error
  have hq : l ≤ Real.pi / 2 - 0.05 := by
    have h1 : (0.059 : ℝ) ≤ Real.cos l := by
      refine h.rho.1.trans ?_
      have e : Geometry.sinRho altitude 0 = meanRadius / (meanRadius + altitude) := by unfold Geometry.sinRho; rw [add_zero]
      rw [e]; exact h.horizon
    have h2 : Real.cos l = Real.sin (Real.pi / 2 - l) := (Real.sin_pi_div_two_sub l).symm
    have h3 : Real.sin (Real.pi / 2 - l) ≤ Real.pi / 2 - l := Real.sin_le (by linarith [h.quarter])
    norm_num at *
    linarith
  have hn := hr.near (by norm_num)
  rw [abs_le] at hn
  have hpl := Real.pi_lt_d4
  have hx : streetLambda swath ≤ Real.pi / 2 := by have := hn.2; norm_num at *; nlinarith
  have hs := hr.sin hx h.quarter
  have hs0 : 4e-5 ≤ Real.sin l := street_sine_low h
  have hsn := hs.near (by norm_num)
  rw [abs_le] at hsn
  have hf := hs.fl (by have := hsn.1; norm_num at *; linarith)
  refine ⟨hf, ?_, fl_le double_one (Real.sin_le_one _)⟩
  have := hf.few le_rfl
  exact this.trans (by have := Real.sin_le_one l; norm_num at *; linarith)

/-- The computed sine of the angular radius of the Earth and one less the product with the cosine. -/
theorem street_gap {altitude swath : ℝ} (h : Street altitude swath) :
    Rel 1300 (fl (1 - fl (Ieee.sinRho altitude 0 * fl (Real.cos (fl (Real.arcsin (fl (Real.sin (streetLambda swath)))))))))
      (1 - Geometry.sinRho altitude 0 * Real.cos (swath / 2 / meanRadius)) := by
  obtain ⟨-, hs, hs1⟩ := street_sine h
  obtain ⟨k1, k2⟩ := h.rho
  have hk := (rel_rho h.viewing).few le_rfl
  obtain ⟨o1, o2⟩ := rho_le_one h.viewing
  have hor : Geometry.sinRho altitude 0 ≤ Real.cos (swath / 2 / meanRadius) := by
    have e : Geometry.sinRho altitude 0 = meanRadius / (meanRadius + altitude) := by unfold Geometry.sinRho; rw [add_zero]
    rw [e]; exact h.horizon
  have hs0 : 0 ≤ fl (Real.sin (streetLambda swath)) := by
    have := (street_sine h).1.pos'.le
    exact this
  set l := swath / 2 / meanRadius with hl
  generalize fl (Real.sin (streetLambda swath)) = s' at *
  generalize Ieee.sinRho altitude 0 = k' at *
  generalize Geometry.sinRho altitude 0 = k at *
  have hss := Real.sin_sq_add_cos_sq l
  have hsl : |Real.sin l| ≤ 1 := Real.abs_sin_le_one l
  have hcl := Real.cos_le_one l
  generalize Real.sin l = s at *
  generalize Real.cos l = c at *
  have hk0 : 0 < k := by norm_num at k1; linarith
  have a0 : 0 ≤ Real.cos (Real.arcsin s') := Real.cos_arcsin_nonneg _
  have a1 : Real.cos (Real.arcsin s') ≤ 1 := Real.cos_le_one _
  have asq : Real.cos (Real.arcsin s') ^ 2 = 1 - s' ^ 2 := by
    have := Real.sin_sq_add_cos_sq (Real.arcsin s')
    rw [Real.sin_arcsin (by linarith) hs1] at this
    linarith
  have fa := fl_close' (Real.arcsin s')
  have ra := abs_arcsin_le s'
  have fc := fl_close' (Real.cos (fl (Real.arcsin s')))
  have lc := Real.abs_cos_sub_cos_le (fl (Real.arcsin s')) (Real.arcsin s')
  have cb : |Real.cos (fl (Real.arcsin s'))| ≤ 1 := Real.abs_cos_le_one _
  have c'1 : fl (Real.cos (fl (Real.arcsin s'))) ≤ 1 := fl_le double_one (Real.cos_le_one _)
  generalize fl (Real.cos (fl (Real.arcsin s'))) = c' at *
  generalize Real.cos (fl (Real.arcsin s')) = c1 at *
  generalize Real.cos (Real.arcsin s') = ca at *
  have near1 : |c' - ca| ≤ 3.2e-16 := by
    have t1 : |c' - ca| ≤ |c' - c1| + |c1 - ca| := abs_sub_le _ _ _
    norm_num at *
    linarith
  have near2 : k * |ca - c| ≤ 2.4e-15 := by
    have e : (ca - c) * (ca + c) = (s - s') * (s + s') := by linear_combination asq - hss
    have e2 : |ca - c| * (ca + c) = |s - s'| * |s + s'| := by
      rw [← abs_mul, ← e, abs_mul, abs_of_nonneg (show 0 ≤ ca + c by linarith)]
    have t1 : |s + s'| ≤ 2 := (abs_add_le _ _).trans (by rw [abs_of_nonneg hs0]; linarith)
    have t2 : |s - s'| ≤ 1.2e-15 := by rw [abs_sub_comm]; exact hs
    have t3 : |s - s'| * |s + s'| ≤ 1.2e-15 * 2 := mul_le_mul t2 t1 (abs_nonneg _) (by norm_num)
    have t4 : |ca - c| * k ≤ |ca - c| * (ca + c) := mul_le_mul_of_nonneg_left (by linarith) (abs_nonneg _)
    norm_num at *
    linarith
  have c'0 : 0 ≤ c' + 1e-15 := by
    have := (abs_le.mp near1).1
    norm_num at *; linarith
  have prod : |k' * c' - k * c| ≤ 4e-15 := by
    have e : k' * c' - k * c = (k' - k) * c' + (k * (c' - ca) + k * (ca - c)) := by ring
    have t1 : |(k' - k) * c'| ≤ 1.2e-15 := by
      rw [abs_mul]
      have : |c'| ≤ 1 := by rw [abs_le]; constructor <;> norm_num at * <;> linarith
      calc _ ≤ (k * 1.2e-15) * 1 := mul_le_mul hk this (abs_nonneg _) (by positivity)
        _ ≤ _ := by norm_num at *; linarith
    have t2 : |k * (c' - ca)| ≤ 3.2e-16 := by
      rw [abs_mul, abs_of_pos hk0]
      calc _ ≤ 1 * 3.2e-16 := mul_le_mul (by norm_num at *; linarith) near1 (abs_nonneg _) (by norm_num)
        _ = _ := by ring
    have t3 : |k * (ca - c)| ≤ 2.4e-15 := by rw [abs_mul, abs_of_pos hk0]; exact near2
    rw [e]
    refine (abs_add_le _ _).trans ?_
    have := abs_add_le (k * (c' - ca)) (k * (ca - c))
    norm_num at *
    linarith
  have kc : 0 ≤ k * c ∧ k * c ≤ k := ⟨mul_nonneg hk0.le (by linarith), mul_le_of_le_one_right hk0.le hcl⟩
  have f1 := fl_close' (k' * c')
  have f2 := fl_close' (1 - fl (k' * c'))
  generalize k' * c' = p at *
  generalize k * c = q at *
  rw [abs_le] at prod
  have pb : |p| ≤ 1 := by rw [abs_le]; constructor <;> norm_num at * <;> linarith [prod.1, prod.2, kc.1, kc.2]
  have g1 : |fl p - q| ≤ 4.15e-15 := by
    have t := abs_sub_le (fl p) p q
    have : |p - q| ≤ 4e-15 := abs_le.mpr prod
    norm_num at *
    linarith
  generalize fl p = p' at *
  rw [abs_le] at g1
  have pb2 : |1 - p'| ≤ 1.1 := by rw [abs_le]; constructor <;> norm_num at * <;> linarith [g1.1, g1.2, kc.1, kc.2]
  have g2 : |fl (1 - p') - (1 - q)| ≤ 4.3e-15 := by
    have t := abs_sub_le (fl (1 - p')) (1 - p') (1 - q)
    have : |(1 - p') - (1 - q)| ≤ 4.15e-15 := by rw [abs_le]; constructor <;> linarith [g1.1, g1.2]
    norm_num at *
    linarith
  refine rel_of_close (d := 4.3e-15) ?_ g2 ?_ ?_
  · norm_num at *; linarith [kc.2]
  · norm_num at *; linarith [kc.2]
  · norm_num at *; linarith [kc.2]

theorem Rel.fl' {k : ℕ} {x y : ℝ} (h : Rel k x y) (hk : k ≤ 1400) (hy : 1e-20 ≤ y) : Rel (1 + k) (Ieee.fl x) y := by
  refine h.fl ?_
  have := h.near hk
  rw [abs_le] at this
  have h1 := this.1
  norm_num at *
  linarith

theorem rel_degree : Rel 1 degreeFactor (180 / Real.pi) := by
  obtain ⟨a, b⟩ := degreeFactor_between
  have hp := Real.pi_pos
  have h0 : 0 < 180 / Real.pi := by positivity
  refine ⟨h0, ?_, by rw [pow_one]; exact b⟩
  rw [pow_one, div_le_iff₀ hp]
  unfold rounding degreeFactor
  have := Real.pi_gt_d20
  norm_num at *
  linarith

theorem rel_radian : Rel 1 radianFactor (Real.pi / 180) := by
  have hp := Real.pi_pos
  have h1 := Real.pi_gt_d20
  have h2 := Real.pi_lt_d20
  refine ⟨by positivity, ?_, ?_⟩ <;> rw [pow_one] <;> unfold rounding radianFactor <;> norm_num at * <;> linarith

/-- The angle from nadir at which the edge of the swath is seen. -/
noncomputable def streetEta (altitude swath : ℝ) : ℝ :=
  Real.arctan (Geometry.sinRho altitude 0 * Real.sin (swath / 2 / meanRadius) /
    (1 - Geometry.sinRho altitude 0 * Real.cos (swath / 2 / meanRadius)))

theorem street_eta {altitude swath : ℝ} (h : Street altitude swath) :
    1e-6 ≤ streetEta altitude swath ∧ streetEta altitude swath + swath / 2 / meanRadius ≤ Real.pi / 2 ∧
      Real.sin (streetEta altitude swath) =
        Geometry.sinRho altitude 0 * Real.sin (streetEta altitude swath + swath / 2 / meanRadius) ∧
      Geometry.swathToFor altitude swath 0 = degrees (2 * streetEta altitude swath) := by
  obtain ⟨k1, k2⟩ := h.rho
  have hl := h.central
  have hp := Real.pi_gt_three
  have hor : Geometry.sinRho altitude 0 ≤ Real.cos (swath / 2 / meanRadius) := by
    have e : Geometry.sinRho altitude 0 = meanRadius / (meanRadius + altitude) := by unfold Geometry.sinRho; rw [add_zero]
    rw [e]; exact h.horizon
  have hl0 : 0 ≤ swath / 2 / meanRadius := by norm_num at *; linarith
  obtain ⟨-, e1, e2⟩ := within_horizon (by norm_num at *; linarith) (by norm_num at *; linarith) hl0 h.quarter hor
  refine ⟨?_, e1, e2, swathToFor_of_central (by rw [add_zero]) (by linarith) h.quarter⟩
  have hs := street_sine_low h
  have hc := Real.cos_le_one (swath / 2 / meanRadius)
  have hkc : Geometry.sinRho altitude 0 * Real.cos (swath / 2 / meanRadius) ≤ Geometry.sinRho altitude 0 :=
    mul_le_of_le_one_right (by norm_num at *; linarith) hc
  have hkc0 : 0 ≤ Geometry.sinRho altitude 0 * Real.cos (swath / 2 / meanRadius) :=
    mul_nonneg (by norm_num at *; linarith) (by norm_num at *; linarith)
  unfold streetEta
  have ht : 2e-6 ≤ Geometry.sinRho altitude 0 * Real.sin (swath / 2 / meanRadius) /
      (1 - Geometry.sinRho altitude 0 * Real.cos (swath / 2 / meanRadius)) := by
    rw [le_div_iff₀ (by norm_num at *; linarith)]
    have : 0.059 * 4e-5 ≤ Geometry.sinRho altitude 0 * Real.sin (swath / 2 / meanRadius) :=
      mul_le_mul k1 hs (by norm_num) (by norm_num at *; linarith)
    norm_num at *
    linarith
  refine le_trans ?_ (Real.arctan_mono ht)
  have := arctan_scale (c := 2e-6) (x := 1) (by norm_num) (by norm_num) (by norm_num)
  rw [Real.arctan_one, mul_one] at this
  norm_num at *
  linarith

/-- The computed field of regard. -/
theorem street_regard {altitude swath : ℝ} (h : Street altitude swath) :
    ∃ f, Ieee.swathToFor altitude swath 0 = some f ∧ Rel 1316 f (degrees (2 * streetEta altitude swath)) ∧ f ≤ 180 := by
  obtain ⟨e0, e1, -, -⟩ := street_eta h
  obtain ⟨s1, -, s2⟩ := street_sine h
  have hs0 := s1.pos'
  have hl := h.central
  have hp := Real.pi_gt_three
  have hpl := Real.pi_lt_d4
  obtain ⟨k1, k2⟩ := h.rho
  have hs := street_sine_low h
  have hgap := street_gap h
  have hasin : npArcsin (fl (Real.sin (streetLambda swath))) = some (fl (Real.arcsin (fl (Real.sin (streetLambda swath))))) := by
    unfold npArcsin
    rw [if_pos ⟨by linarith, s2⟩]
  have hval : Ieee.swathToFor altitude swath 0 = some (fl (fl (2 * fl (Real.arctan (fl (fl (Ieee.sinRho altitude 0 *
      fl (Real.sin (streetLambda swath))) / fl (1 - fl (Ieee.sinRho altitude 0 *
        fl (Real.cos (fl (Real.arcsin (fl (Real.sin (streetLambda swath))))))))))) ) * degreeFactor)) := by
    unfold Ieee.swathToFor
    change (npArcsin (fl (Real.sin (streetLambda swath)))).bind _ = _
    rw [hasin]
    rfl
  refine ⟨_, hval, ?_⟩
  have hc := Real.cos_le_one (swath / 2 / meanRadius)
  have hor : Geometry.sinRho altitude 0 ≤ Real.cos (swath / 2 / meanRadius) := by
    have e : Geometry.sinRho altitude 0 = meanRadius / (meanRadius + altitude) := by unfold Geometry.sinRho; rw [add_zero]
    rw [e]; exact h.horizon
  have hkc0 : 0 ≤ Geometry.sinRho altitude 0 * Real.cos (swath / 2 / meanRadius) :=
    mul_nonneg (by norm_num at *; linarith) (by norm_num at *; linarith)
  have p1 : 0.059 * 4e-5 ≤ Geometry.sinRho altitude 0 * Real.sin (swath / 2 / meanRadius) :=
    mul_le_mul k1 hs (by norm_num) (by norm_num at *; linarith)
  have r1 := ((rel_rho h.viewing).mul s1).fl' (by norm_num) (by norm_num at *; linarith)
  have r2 := (r1.div hgap).fl' (by norm_num) (by
    rw [le_div_iff₀ hgap.pos]
    norm_num at *; linarith)
  have r3 := r2.arctan
  have r4 : Rel _ _ (streetEta altitude swath) := r3.fl' (by norm_num) (le_trans (by norm_num) e0)
  have r5 := ((Rel.refl (show (0 : ℝ) < 2 by norm_num)).mul r4).fl' (by norm_num) (by norm_num at *; linarith)
  have d1 : 1 ≤ 180 / Real.pi := by rw [le_div_iff₀ (by linarith)]; norm_num at *; linarith
  have d2 : 180 / Real.pi ≤ 60 := by rw [div_le_iff₀ (by linarith)]; norm_num at *; linarith
  have r6 := (r5.mul rel_degree).fl' (by norm_num) (by
    have : 2e-6 * 1 ≤ 2 * streetEta altitude swath * (180 / Real.pi) :=
      mul_le_mul (by norm_num at *; linarith) d1 (by norm_num) (by norm_num at *; linarith)
    norm_num at *; linarith)
  have hf : degrees (2 * streetEta altitude swath) ≤ 179.995 := by
    unfold degrees
    have : streetEta altitude swath ≤ Real.pi / 2 - 7.84e-5 := by linarith
    have h2 : 2 * streetEta altitude swath * (180 / Real.pi) ≤ 2 * (Real.pi / 2 - 7.84e-5) * (180 / Real.pi) :=
      mul_le_mul_of_nonneg_right (by linarith) (by linarith)
    have h3 : 2 * (Real.pi / 2 - 7.84e-5) * (180 / Real.pi) = 180 - 2 * 7.84e-5 * (180 / Real.pi) := by field_simp
    have h4 : 57 ≤ 180 / Real.pi := by rw [le_div_iff₀ (by linarith)]; norm_num at *; linarith
    rw [h3] at h2
    norm_num at *
    linarith
  refine ⟨r6, ?_⟩
  have r7 := r6.near (by norm_num)
  unfold degrees at hf
  rw [abs_le] at r7
  have := r7.2
  norm_num at *
  linarith

/-! ## The elevation and the central angle -/

theorem arccos_far {a b : ℝ} (h : |a - b| ≤ 4e-13) : |Real.arccos a - Real.arccos b| ≤ 1.41e-6 := by
  have h1 := arccos_near a b
  have hpi := Real.pi_pos
  have hpi2 := Real.pi_lt_d4
  apply abs_le_of_sq_le_sq _ (by norm_num)
  refine h1.trans ?_
  have h3 : Real.pi ^ 2 ≤ 9.87 := by norm_num at *; nlinarith
  calc Real.pi ^ 2 / 2 * |a - b| ≤ 9.87 / 2 * 4e-13 := mul_le_mul (by linarith) h (abs_nonneg _) (by norm_num)
    _ ≤ _ := by norm_num

theorem arcsin_far {a b : ℝ} (h : |a - b| ≤ 4e-13) : |Real.arcsin a - Real.arcsin b| ≤ 1.41e-6 := by
  have := arccos_far h
  rw [Real.arccos_eq_pi_div_two_sub_arcsin, Real.arccos_eq_pi_div_two_sub_arcsin] at this
  rw [abs_sub_comm]
  convert this using 2
  ring

theorem street_elevation {altitude swath : ℝ} (h : Street altitude swath) :
    ∃ e, socElevation altitude swath = .ok e ∧ 0 ≤ e ∧ e ≤ 90 ∧
      |radians e - (Real.pi / 2 - (streetEta altitude swath + swath / 2 / meanRadius))| ≤ 1.42e-6 ∧
      |Real.cos (rad e) - Real.sin (streetEta altitude swath + swath / 2 / meanRadius)| ≤ 3.7e-13 := by
  obtain ⟨e0, e1, e2, -⟩ := street_eta h
  obtain ⟨f, hf, hr, hf1⟩ := street_regard h
  have hf0 : 0 ≤ f := hr.pos'.le
  have hv := h.viewing
  obtain ⟨k1, k2⟩ := h.rho
  have hl := h.central
  have hp := Real.pi_gt_three
  have hpl := Real.pi_lt_d4
  obtain ⟨x, x', hx, hx', b0, b1, b2, -⟩ := C148_min_elevation altitude 0 f f hv hf0 le_rfl hf1
  have he := minElevation_eq hv hf0 hf1
  -- the cosine of the elevation
  have r1 : Rel 1318 (rad f) (2 * streetEta altitude swath) := by
    have := (hr.mul rel_radian).fl' (by norm_num) (by
      have e : degrees (2 * streetEta altitude swath) * (Real.pi / 180) = 2 * streetEta altitude swath := by
        unfold degrees; field_simp
      rw [e]; norm_num at *; linarith)
    have e : degrees (2 * streetEta altitude swath) * (Real.pi / 180) = 2 * streetEta altitude swath := by
      unfold degrees; field_simp
    rw [e] at this
    exact this
  have r2 : Rel 1319 (half f) (streetEta altitude swath) := by
    have := (r1.div (Rel.refl (show (0 : ℝ) < 2 by norm_num))).fl' (by norm_num) (by norm_num at *; linarith)
    rw [mul_div_cancel_left₀ _ (by norm_num : (2 : ℝ) ≠ 0)] at this
    exact this
  have hsin : 1e-7 ≤ Real.sin (streetEta altitude swath) := by
    have h1 := Real.mul_le_sin (x := streetEta altitude swath) (by norm_num at *; linarith) (by norm_num at *; linarith)
    have h2 : 0.6 ≤ 2 / Real.pi := by rw [le_div_iff₀ (by linarith)]; norm_num at *; linarith
    have h3 := mul_le_mul_of_nonneg_right h2 (show 0 ≤ streetEta altitude swath by norm_num at *; linarith)
    norm_num at *
    linarith
  have r3 : Rel 1320 (sinHalf f) (Real.sin (streetEta altitude swath)) :=
    (r2.sin (half_lt hf1).le (by norm_num at *; linarith)).fl' (by norm_num) (by norm_num at *; linarith)
  have hratio : Real.sin (streetEta altitude swath) / Geometry.sinRho altitude 0 =
      Real.sin (streetEta altitude swath + swath / 2 / meanRadius) := by
    rw [e2, mul_div_cancel_left₀]
    norm_num at *; linarith
  have r4 := (r3.div (rel_rho hv)).fl' (by norm_num) (by
    rw [le_div_iff₀ (rel_rho hv).pos]
    norm_num at *; linarith)
  rw [hratio] at r4
  have hn := r4.near (by norm_num)
  have hs1 := Real.sin_le_one (streetEta altitude swath + swath / 2 / meanRadius)
  have hs0 := r4.pos
  have harc : Real.arccos (Real.sin (streetEta altitude swath + swath / 2 / meanRadius)) =
      Real.pi / 2 - (streetEta altitude swath + swath / 2 / meanRadius) := by
    rw [Real.arccos, Real.arcsin_sin (by norm_num at *; linarith) e1]
  generalize Real.sin (streetEta altitude swath + swath / 2 / meanRadius) = t at *
  have hc0 := r4.pos'
  set c := fl (sinHalf f / Ieee.sinRho altitude 0) with hc
  have hct : |c - t| ≤ 3.6e-13 := hn.trans (by norm_num at *; linarith)
  have hfar := arccos_far (hct.trans (by norm_num))
  rw [harc] at hfar
  have hv0 := Real.arccos_nonneg c
  have hv1 : Real.arccos c ≤ Real.pi / 2 := Real.arccos_le_pi_div_two.mpr hc0.le
  have hd := deg_close (by linarith) hv1
  rw [he, Option.some.injEq] at hx
  rw [hx] at hd
  have b0' : 0 ≤ x := b0.trans b1
  have hrad : |radians x - Real.arccos c| ≤ 2e-15 := by
    have e : radians x - Real.arccos c = (x - degrees (Real.arccos c)) * (Real.pi / 180) := by
      unfold radians degrees; field_simp
    rw [e, abs_mul, abs_of_pos (by positivity : 0 < Real.pi / 180)]
    calc _ ≤ 1e-13 * (Real.pi / 180) := mul_le_mul_of_nonneg_right hd (by positivity)
      _ ≤ _ := by norm_num at *; linarith
  refine ⟨x, ?_, b0', b2, ?_, ?_⟩
  · unfold socElevation
    rw [hf, Option.bind_some, he, hx]
  · have := abs_sub_le (radians x) (Real.arccos c) (Real.pi / 2 - (streetEta altitude swath + swath / 2 / meanRadius))
    norm_num at *
    linarith
  · have q1 := rad_close b0'
    have q2 : radians x ≤ 1.571 := by
      unfold radians
      have : x * (Real.pi / 180) ≤ 90 * (Real.pi / 180) := mul_le_mul_of_nonneg_right b2 (by positivity)
      norm_num at *; linarith
    have q3 : |rad x - Real.arccos c| ≤ 3.2e-15 := by
      have := abs_sub_le (rad x) (radians x) (Real.arccos c)
      norm_num at *
      linarith
    have q4 := (Real.abs_cos_sub_cos_le (rad x) (Real.arccos c)).trans q3
    have q5 : Real.cos (Real.arccos c) = min 1 c := by
      rw [← arccos_min, Real.cos_arccos (by have := le_min (zero_le_one) hc0.le; linarith) (min_le_left _ _)]
    rw [q5] at q4
    have q6 : |min 1 c - t| ≤ 3.6e-13 := by
      rw [abs_le] at hct ⊢
      constructor
      · have : t - 3.6e-13 ≤ min 1 c := le_min (by norm_num at *; linarith) (by linarith [hct.1])
        linarith
      · have := min_le_right 1 c
        linarith [hct.2]
    have := abs_sub_le (Real.cos (rad x)) (min 1 c) t
    norm_num at *
    linarith

end Tatc.Props
