import Verif.Spec.View
import Verif.Props.Geometry

/-!
# C94: the field of view of a swath
-/

namespace Tatc.Props
open Tatc.Num Tatc.Geometry Tatc.Spec

/-- The nadir angle of a ground point is determined by its central angle. -/
theorem SeenAt.eta_eq {h z eta l : ℝ} (hz : Below h z) (hs : SeenAt h z eta l) :
    eta = Real.arctan (sinRho h z * Real.sin l / (1 - sinRho h z * Real.cos l)) := by
  obtain ⟨hk0, hk1⟩ := sinRho_range hz
  have hH : 0 < meanRadius + h := by have := hz.1; have := hz.2; linarith
  have hk : sinRho h z * (meanRadius + h) = meanRadius + z := by unfold sinRho; field_simp
  have hd := hs.direction
  have hden : 0 < 1 - sinRho h z * Real.cos l := by nlinarith [Real.cos_le_one l, Real.neg_one_le_cos l]
  have hc : 0 < Real.cos eta := Real.cos_pos_of_mem_Ioo hs.ahead
  have ht : Real.tan eta = sinRho h z * Real.sin l / (1 - sinRho h z * Real.cos l) := by
    rw [Real.tan_eq_sin_div_cos, div_eq_div_iff hc.ne' hden.ne']
    have : (meanRadius + h) * (Real.sin eta * (1 - sinRho h z * Real.cos l)) =
        (meanRadius + h) * (sinRho h z * Real.sin l * Real.cos eta) := by
      rw [← hk] at hd
      linear_combination hd
    exact mul_left_cancel₀ hH.ne' this
  rw [← ht, Real.arctan_tan hs.ahead.1 hs.ahead.2]

/-- Every ground point not below the horizon is seen at some angle. -/
theorem seenAt_exists {h z l : ℝ} (hz : Below h z) (hl : -(Real.pi / 2) ≤ l ∧ l ≤ Real.pi / 2)
    (hor : meanRadius + z ≤ (meanRadius + h) * Real.cos l) :
    SeenAt h z (Real.arctan (sinRho h z * Real.sin l / (1 - sinRho h z * Real.cos l))) l := by
  obtain ⟨hk0, hk1⟩ := sinRho_range hz
  have hH : 0 < meanRadius + h := by have := hz.1; have := hz.2; linarith
  have hk : sinRho h z * (meanRadius + h) = meanRadius + z := by unfold sinRho; field_simp
  refine ⟨⟨Real.neg_pi_div_two_lt_arctan _, Real.arctan_lt_pi_div_two _⟩, hl, hor, ?_⟩
  have h1 := nadir_angle (l := l) hk0 hk1
  have hc := Real.cos_arctan_pos (sinRho h z * Real.sin l / (1 - sinRho h z * Real.cos l))
  rw [Real.tan_eq_sin_div_cos] at h1
  set e := Real.arctan (sinRho h z * Real.sin l / (1 - sinRho h z * Real.cos l))
  have h2 : Real.sin e * (1 - sinRho h z * Real.cos l) = Real.cos e * (sinRho h z * Real.sin l) := by
    field_simp at h1
    linarith
  rw [← hk]
  linear_combination (meanRadius + h) * h2

/-- C94, what is computed: the angle between the edges of a swath whose centre is seen at HALF the look
angle.  (Missing: the centre at the look angle itself, see `C94_look_false`.) -/
theorem C94_half_partial (altitude elevation w look l eta1 eta2 : ℝ) (hz : Below altitude elevation)
    (h0 : 0 ≤ look) (hc : SeenAt altitude elevation (look / 2 * Real.pi / 180) l)
    (h1 : SeenAt altitude elevation eta1 (l - w / 2 / (meanRadius + elevation)))
    (h2 : SeenAt altitude elevation eta2 (l + w / 2 / (meanRadius + elevation))) :
    swathToFov altitude w look elevation = (eta2 - eta1) * 180 / Real.pi := by
  obtain ⟨hk0, hk1⟩ := sinRho_range hz
  have hpi := Real.pi_pos
  have hH : 0 < meanRadius + altitude := by have := hz.1; have := hz.2; linarith
  have hk : sinRho altitude elevation * (meanRadius + altitude) = meanRadius + elevation := by
    unfold sinRho; field_simp
  set eta := look / 2 * Real.pi / 180 with heta
  have he0 : 0 ≤ eta := by rw [heta]; positivity
  have hrad : radians look / 2 = eta := radians_half look
  have hmain := SeenAt.eta_eq hz hc
  have hor : sinRho altitude elevation ≤ Real.cos l := by
    have := hc.horizon
    rw [← hk] at this
    nlinarith
  have hl0 : 0 ≤ l := by
    by_contra hneg
    push Not at hneg
    have hsl : Real.sin l < 0 := Real.sin_neg_of_neg_of_neg_pi_lt hneg (by linarith [hc.near.1])
    have hden : 0 < 1 - sinRho altitude elevation * Real.cos l := by
      nlinarith [Real.cos_le_one l, Real.neg_one_le_cos l]
    have : eta < 0 := by
      rw [hmain]
      apply Real.arctan_lt_zero.mpr
      exact div_neg_of_neg_of_pos (mul_neg_of_pos_of_neg hk0 hsl) hden
    linarith
  obtain ⟨e0, e1, e2⟩ := within_horizon hk0 hk1 hl0 hc.near.2 hor
  rw [← hmain] at e0 e1 e2
  set k := sinRho altitude elevation with hkdef
  have hmin : min k (Real.sin (radians look / 2)) = Real.sin eta := by
    rw [hrad]
    apply min_eq_right
    rw [e2]
    nlinarith [Real.sin_le_one (eta + l)]
  have hdiv : Real.sin eta / k = Real.sin (eta + l) := by rw [e2]; field_simp
  have hlam : Real.pi / 2 - Real.arcsin (Real.sin eta) - Real.arccos (Real.sin eta / k) = l := by
    rw [hdiv, Real.arcsin_sin (by linarith) (by linarith), Real.arccos, Real.arcsin_sin (by linarith) e1]
    ring
  unfold swathToFov
  simp only [← hkdef, hmin, hlam]
  rw [Real.arcsin_sin h1.near.1 h1.near.2, Real.arcsin_sin h2.near.1 h2.near.2]
  have a1 := SeenAt.eta_eq hz h1
  have a2 := SeenAt.eta_eq hz h2
  rw [← hkdef] at a1 a2
  rw [← a1, ← a2]
  unfold degrees
  ring

/-- C94 at nadir: the field of view is the field of regard of the swath. -/
theorem C94_nadir (altitude elevation w : ℝ) (hz : Below altitude elevation) (hw : 0 ≤ w)
    (hw1 : w / 2 / (meanRadius + elevation) ≤ Real.pi / 2)
    (hor : meanRadius + elevation ≤ (meanRadius + altitude) * Real.cos (w / 2 / (meanRadius + elevation))) :
    swathToFov altitude w 0 elevation = swathToFor altitude w elevation := by
  have hpi := Real.pi_pos
  have hR := hz.1
  set l := w / 2 / (meanRadius + elevation) with hl
  have hl0 : 0 ≤ l := by rw [hl]; positivity
  have hc : SeenAt altitude elevation (0 / 2 * Real.pi / 180) 0 := by
    refine ⟨⟨by linarith, by linarith⟩, ⟨by linarith, by linarith⟩, ?_, by simp⟩
    rw [Real.cos_zero]; linarith [hz.2]
  have h2 := seenAt_exists hz (l := l) ⟨by linarith, hw1⟩ hor
  have h1 := seenAt_exists hz (l := -l) ⟨by linarith, by linarith⟩ (by rw [Real.cos_neg]; exact hor)
  rw [C94_half_partial altitude elevation w 0 0 _ _ hz le_rfl hc (by rw [zero_sub]; exact h1)
    (by rw [zero_add]; exact h2), swathToFor_of_central hl.symm (by linarith) hw1]
  rw [Real.sin_neg, Real.cos_neg, mul_neg, neg_div, Real.arctan_neg]
  unfold degrees
  ring

/-- The hypotheses of `C94_nadir` hold one mean radius up, for a swath of 120 degrees of the ground, to the horizon. -/
example : Below meanRadius 0 ∧ 0 ≤ 2 * meanRadius * (Real.pi / 3) ∧
    2 * meanRadius * (Real.pi / 3) / 2 / (meanRadius + 0) ≤ Real.pi / 2 ∧
    meanRadius + 0 ≤ (meanRadius + meanRadius) *
      Real.cos (2 * meanRadius * (Real.pi / 3) / 2 / (meanRadius + 0)) := by
  have hR : 6000000 < meanRadius := by unfold meanRadius equatorialRadius polarRadius; norm_num
  have hR0 : 0 < meanRadius := by linarith
  have hpi := Real.pi_pos
  have e : 2 * meanRadius * (Real.pi / 3) / 2 / (meanRadius + 0) = Real.pi / 3 := by field_simp; ring
  rw [e, Real.cos_pi_div_three]
  exact ⟨⟨by linarith, by linarith⟩, by positivity, by linarith, by linarith⟩

/-- A farther ground point, up to the horizon, is seen farther from nadir. -/
theorem nadir_mono {h z eta1 eta2 l1 l2 : ℝ} (hz : Below h z) (h1 : SeenAt h z eta1 l1)
    (h2 : SeenAt h z eta2 l2) (hl : l1 ≤ l2) : eta1 ≤ eta2 := by
  obtain ⟨hk0, hk1⟩ := sinRho_range hz
  have hH : 0 < meanRadius + h := by have := hz.1; have := hz.2; linarith
  have hk : sinRho h z * (meanRadius + h) = meanRadius + z := by unfold sinRho; field_simp
  rw [SeenAt.eta_eq hz h1, SeenAt.eta_eq hz h2]
  apply Real.arctan_mono
  have hd1 : 0 < 1 - sinRho h z * Real.cos l1 := by nlinarith [Real.cos_le_one l1, Real.neg_one_le_cos l1]
  have hd2 : 0 < 1 - sinRho h z * Real.cos l2 := by nlinarith [Real.cos_le_one l2, Real.neg_one_le_cos l2]
  rw [div_le_div_iff₀ hd1 hd2]
  have c1 : sinRho h z ≤ Real.cos l1 := by have := h1.horizon; rw [← hk] at this; nlinarith
  have c2 : sinRho h z ≤ Real.cos l2 := by have := h2.horizon; rw [← hk] at this; nlinarith
  set k := sinRho h z
  set m := (l1 + l2) / 2 with hm
  set d := (l2 - l1) / 2 with hd
  have e1 : l1 = m - d := by rw [hm, hd]; ring
  have e2 : l2 = m + d := by rw [hm, hd]; ring
  have hpi := Real.pi_pos
  have hd0 : 0 ≤ d := by rw [hd]; linarith
  have hdpi : d ≤ Real.pi / 2 := by rw [hd]; linarith [h1.near.1, h2.near.2]
  have hsd : 0 ≤ Real.sin d := Real.sin_nonneg_of_nonneg_of_le_pi hd0 (by linarith)
  have hcm : k ≤ Real.cos m := by
    rcases le_total 0 m with h0 | h0
    · have : Real.cos l2 ≤ Real.cos m := Real.cos_le_cos_of_nonneg_of_le_pi h0 (by linarith [h2.near.2]) (by linarith)
      linarith
    · have : Real.cos (-l1) ≤ Real.cos (-m) :=
        Real.cos_le_cos_of_nonneg_of_le_pi (by linarith) (by linarith [h1.near.1]) (by linarith)
      rw [Real.cos_neg, Real.cos_neg] at this
      linarith
  have hkey : Real.sin l2 - Real.sin l1 - k * Real.sin (l2 - l1) =
      2 * Real.sin d * (Real.cos m - k * Real.cos d) := by
    rw [show l2 - l1 = 2 * d by rw [hd]; ring, Real.sin_two_mul, e1, e2, Real.sin_add, Real.sin_sub]
    ring
  have hpos : 0 ≤ 2 * Real.sin d * (Real.cos m - k * Real.cos d) := by
    apply mul_nonneg (by linarith)
    have := Real.cos_le_one d
    nlinarith
  rw [Real.sin_sub] at hkey
  nlinarith

/-- Two angles that add up to more than 36 degrees. -/
theorem arctan_sum_ge : Real.pi / 5 ≤ Real.arctan 0.44 + Real.arctan 0.23 := by
  have hpi := Real.pi_pos
  have hsum : Real.arctan 0.44 + Real.arctan 0.23 = Real.arctan ((0.44 + 0.23) / (1 - 0.44 * 0.23)) :=
    Real.arctan_add (by norm_num)
  rw [hsum]
  have s5 := Real.sq_sqrt (show (0 : ℝ) ≤ 5 by norm_num)
  have s50 := Real.sqrt_nonneg 5
  have s51 : 2.236 < Real.sqrt 5 := by nlinarith
  have hcp : 0.809 ≤ Real.cos (Real.pi / 5) := by rw [Real.cos_pi_div_five]; linarith
  have hsq := Real.sin_sq_add_cos_sq (Real.pi / 5)
  have hs0 : 0 ≤ Real.sin (Real.pi / 5) := Real.sin_nonneg_of_nonneg_of_le_pi (by linarith) (by linarith)
  have hs1 : Real.sin (Real.pi / 5) ≤ 0.588 := by
    apply le_of_sq_le_sq _ (by norm_num)
    generalize Real.cos (Real.pi / 5) = c at hcp hsq
    generalize Real.sin (Real.pi / 5) = x at hsq
    nlinarith
  have ht : Real.tan (Real.pi / 5) ≤ (0.44 + 0.23) / (1 - 0.44 * 0.23) := by
    rw [Real.tan_eq_sin_div_cos, div_le_iff₀ (by linarith)]
    norm_num at hs1 hcp ⊢
    linarith
  have h2 := Real.arctan_mono ht
  rwa [Real.arctan_tan (by linarith) (by linarith)] at h2

/-- C94 is false off nadir: one mean radius up, a swath from the sub-satellite point to the horizon is seen
within 30 degrees of nadir; for the look angle at which its centre is seen, more than 35 are returned. -/
theorem C94_look_false : ∃ altitude w look l eta1 eta2 : ℝ, Below altitude 0 ∧
    SeenAt altitude 0 (look * Real.pi / 180) l ∧
    SeenAt altitude 0 eta1 (l - w / 2 / (meanRadius + 0)) ∧
    SeenAt altitude 0 eta2 (l + w / 2 / (meanRadius + 0)) ∧
    (eta2 - eta1) * 180 / Real.pi = 30 ∧ 35 < swathToFov altitude w look 0 := by
  have hR : 6000000 < meanRadius := by unfold meanRadius equatorialRadius polarRadius; norm_num
  have hR0 : 0 < meanRadius := by linarith
  have hpi := Real.pi_pos
  have hz : Below meanRadius 0 := ⟨by linarith, by linarith⟩
  have hk : sinRho meanRadius 0 = 1 / 2 := by unfold sinRho; field_simp; ring
  have s3 := Real.sq_sqrt (show (0 : ℝ) ≤ 3 by norm_num)
  have s30 := Real.sqrt_nonneg 3
  have s31 : Real.sqrt 3 < 1.7321 := by nlinarith
  have s32 : 1.732 < Real.sqrt 3 := by nlinarith
  have hor : ∀ l : ℝ, -(Real.pi / 3) ≤ l → l ≤ Real.pi / 3 →
      SeenAt meanRadius 0 (Real.arctan (1 / 2 * Real.sin l / (1 - 1 / 2 * Real.cos l))) l := by
    intro l h1 h2
    have := seenAt_exists hz (l := l) ⟨by linarith, by linarith⟩ (by
      have hc : 1 / 2 ≤ Real.cos l := by
        rw [← Real.cos_abs, ← Real.cos_pi_div_three]
        exact Real.cos_le_cos_of_nonneg_of_le_pi (abs_nonneg _) (by linarith) (abs_le.mpr ⟨h1, h2⟩)
      nlinarith)
    rwa [hk] at this
  -- the swath from the sub-satellite point to the horizon
  set L := Real.arctan (1 / (4 - Real.sqrt 3)) with hL
  have hL30 : SeenAt meanRadius 0 L (Real.pi / 6) := by
    have := hor (Real.pi / 6) (by linarith) (by linarith)
    rw [Real.sin_pi_div_six, Real.cos_pi_div_six] at this
    have e : 1 / 2 * (1 / 2) / (1 - 1 / 2 * (Real.sqrt 3 / 2)) = 1 / (4 - Real.sqrt 3) := by
      rw [div_eq_div_iff (by linarith) (by linarith)]
      ring
    rwa [e] at this
  have hS0 : SeenAt meanRadius 0 0 0 := by
    have := hor 0 (by linarith) (by linarith)
    simpa using this
  have hS60 : SeenAt meanRadius 0 (Real.pi / 6) (Real.pi / 3) := by
    have := hor (Real.pi / 3) (by linarith) le_rfl
    rw [Real.sin_pi_div_three, Real.cos_pi_div_three] at this
    have e : Real.arctan (1 / 2 * (Real.sqrt 3 / 2) / (1 - 1 / 2 * (1 / 2))) = Real.pi / 6 := by
      have : 1 / 2 * (Real.sqrt 3 / 2) / (1 - 1 / 2 * (1 / 2)) = Real.tan (Real.pi / 6) := by
        rw [Real.tan_pi_div_six, div_eq_div_iff (by norm_num) (by positivity)]
        nlinarith
      rw [this, Real.arctan_tan (by linarith) (by linarith)]
    rwa [e] at this
  have hL0 : 0 < L := by rw [hL]; exact Real.arctan_pos.mpr (by apply div_pos one_pos; linarith)
  have hL1 : L ≤ Real.pi / 6 := nadir_mono hz hL30 hS60 (by linarith)
  -- where half the look angle leads
  have hsin : Real.sin (L / 2) ≤ 1 / 2 := by
    rw [← Real.sin_pi_div_six]
    exact Real.sin_le_sin_of_le_of_le_pi_div_two (by linarith) (by linarith) (by linarith)
  obtain ⟨c1, -, c3, -, c5⟩ := central_angle (k := 1 / 2) (by norm_num) (by norm_num)
    (Real.sin_nonneg_of_nonneg_of_le_pi (by linarith) (by linarith) : 0 ≤ Real.sin (L / 2)) hsin
  rw [Real.arcsin_sin (by linarith) (by linarith)] at c1 c3 c5
  set l := Real.pi / 2 - L / 2 - Real.arccos (Real.sin (L / 2) / (1 / 2)) with hl
  have hacos : Real.arccos (1 / 2) = Real.pi / 3 := by
    rw [← Real.cos_pi_div_three, Real.arccos_cos (by linarith) (by linarith)]
  rw [hacos] at c3
  have hhalf : SeenAt meanRadius 0 (L / 2) l := by
    have h1 := hor l (by linarith) c3
    refine ⟨⟨by linarith, by linarith⟩, h1.near, h1.horizon, ?_⟩
    linear_combination 2 * meanRadius * c5
  -- a ground point 16.26 degrees away
  set m := Real.arcsin (7 / 25) with hm
  have hsm : Real.sin m = 7 / 25 := Real.sin_arcsin (by norm_num) (by norm_num)
  have hcm : Real.cos m = 24 / 25 := by
    rw [hm, Real.cos_arcsin, show (1 : ℝ) - (7 / 25) ^ 2 = (24 / 25) ^ 2 by norm_num,
      Real.sqrt_sq (by norm_num)]
  have hm0 : 0 ≤ m := Real.arcsin_nonneg.mpr (by norm_num)
  have hm1 : m ≤ Real.pi / 6 := by
    rw [hm]
    apply (Real.arcsin_le_iff_le_sin (by norm_num) ⟨by linarith, by linarith⟩).mpr
    rw [Real.sin_pi_div_six]; norm_num
  have hSm := hor m (by linarith) (by linarith)
  rw [hsm, hcm] at hSm
  have hlm : l ≤ m := by
    by_contra hcon
    push Not at hcon
    have h1 := nadir_mono hz hSm hhalf hcon.le
    have h2 : 2 * Real.arctan (1 / 2 * (7 / 25) / (1 - 1 / 2 * (24 / 25))) ≤ L := by linarith
    rw [Real.two_mul_arctan (by norm_num) (by norm_num), hL] at h2
    have h3 : 1 / (4 - Real.sqrt 3) < 2 * (1 / 2 * (7 / 25) / (1 - 1 / 2 * (24 / 25))) /
        (1 - (1 / 2 * (7 / 25) / (1 - 1 / 2 * (24 / 25))) ^ 2) := by
      rw [div_lt_iff₀ (by linarith)]
      norm_num
      nlinarith
    have := Real.arctan_strictMono h3
    linarith
  have hup := hor (l + Real.pi / 6) (by linarith) (by linarith)
  have hdn := hor (l - Real.pi / 6) (by linarith) (by linarith)
  have hw : ∀ x : ℝ, 2 * meanRadius * x / 2 / (meanRadius + 0) = x := by
    intro x; field_simp; ring
  have hfov := C94_half_partial meanRadius 0 (2 * meanRadius * (Real.pi / 6)) (L * 180 / Real.pi) l _ _ hz
    (by positivity) (by rw [show L * 180 / Real.pi / 2 * Real.pi / 180 = L / 2 by field_simp]; exact hhalf)
    (by rw [hw]; exact hdn) (by rw [hw]; exact hup)
  refine ⟨meanRadius, 2 * meanRadius * (Real.pi / 6), L * 180 / Real.pi, Real.pi / 6, 0, Real.pi / 6, hz, ?_, ?_, ?_,
    ?_, ?_⟩
  · rw [show L * 180 / Real.pi * Real.pi / 180 = L by field_simp]; exact hL30
  · rw [hw, sub_self]; exact hS0
  · rw [hw, show Real.pi / 6 + Real.pi / 6 = Real.pi / 3 by ring]; exact hS60
  · field_simp; ring
  · rw [hfov]
    have hA : Real.arctan 0.44 ≤ Real.arctan (1 / 2 * Real.sin (l + Real.pi / 6) /
        (1 - 1 / 2 * Real.cos (l + Real.pi / 6))) := by
      refine le_trans ?_ (nadir_mono hz hL30 hup (by linarith))
      rw [hL]
      apply Real.arctan_mono
      rw [le_div_iff₀ (by linarith)]
      linarith
    have hB : Real.arctan (1 / 2 * Real.sin (l - Real.pi / 6) /
        (1 - 1 / 2 * Real.cos (l - Real.pi / 6))) ≤ - Real.arctan 0.23 := by
      have h1 := hor (m - Real.pi / 6) (by linarith) (by linarith)
      refine le_trans (nadir_mono hz hdn h1 (by linarith)) ?_
      rw [Real.sin_sub, Real.cos_sub, hsm, hcm, Real.sin_pi_div_six, Real.cos_pi_div_six, ← Real.arctan_neg]
      apply Real.arctan_mono
      rw [div_le_iff₀ (by nlinarith)]
      nlinarith
    have hfive := arctan_sum_ge
    rw [lt_div_iff₀ hpi]
    linarith

end Tatc.Props
