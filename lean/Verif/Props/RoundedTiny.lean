import Verif.Props.RoundedStreets
import Verif.Props.Soc

/-! C174: a footprint lost to rounding. -/

namespace Tatc.Props
open Tatc Tatc.Num Tatc.Ieee Tatc.Spec Tatc.Constellation Tatc.Orbit

theorem fl_pow {y : ℝ} {k : ℤ} (hk : -1074 ≤ k) (h : y ≤ 2 ^ k) : fl y ≤ 2 ^ k := fl_le (double_zpow hk) h

theorem fl_nonneg {y : ℝ} (h : 0 ≤ y) : 0 ≤ fl y := le_fl double_zero h

theorem fl_nonpos {y : ℝ} (h : y ≤ 0) : fl y ≤ 0 := fl_le double_zero h

theorem tiny_arctan {t : ℝ} (h : 0 ≤ t) : Real.arctan t ≤ t := by
  have h1 := Real.le_tan (Real.arctan_nonneg.mpr h) (Real.arctan_lt_pi_div_two t)
  rwa [Real.tan_arctan] at h1

/-- The arc cosine of a number too small to matter, in degrees. -/
theorem tiny_right_angle {x : ℝ} (h0 : 0 ≤ x) (h1 : x ≤ 2 ^ (-58 : ℤ)) : fl (fl (Real.arccos x) * degreeFactor) = 90 := by
  have a0 : 0 ≤ Real.arcsin x := Real.arcsin_nonneg.mpr h0
  have a1 : Real.arcsin x ≤ 2 ^ (-57 : ℤ) := by
    have h2 : Real.arcsin x ≤ Real.pi / 2 := Real.arcsin_le_pi_div_two x
    have h3 := Real.mul_le_sin a0 h2
    rw [Real.sin_arcsin (by linarith) (h1.trans (by norm_num))] at h3
    have hp := Real.pi_pos
    have hp4 := Real.pi_le_four
    have h4 : Real.arcsin x ≤ Real.pi / 2 * x := by
      have : Real.pi / 2 * (2 / Real.pi * Real.arcsin x) ≤ Real.pi / 2 * x := mul_le_mul_of_nonneg_left h3 (by positivity)
      have e : Real.pi / 2 * (2 / Real.pi * Real.arcsin x) = Real.arcsin x := by field_simp
      linarith
    have h5 : Real.pi / 2 * x ≤ 2 * x := mul_le_mul_of_nonneg_right (by linarith) h0
    norm_num at *
    linarith
  have p1 := Real.pi_gt_d20
  have p2 := Real.pi_lt_d20
  have e1 : fl (Real.arccos x) = 884279719003555 / 2 ^ 49 := by
    rw [Real.arccos_eq_pi_div_two_sub_arcsin]
    generalize Real.arcsin x = u at *
    generalize Real.pi = v at *
    have hpos : 0 ≤ v / 2 - u := by norm_num at *; linarith
    rw [fl_eq_of (n := 7074237752028440) (e := -52) (by norm_num)
      (by rw [abs_of_nonneg hpos]; norm_num at *; linarith)
      (by rw [abs_of_nonneg hpos]; norm_num at *; linarith)
      (by rw [abs_lt]; norm_num at *; constructor <;> linarith)]
    norm_num
  rw [e1, fl_eq_of (n := 90 * 2 ^ 46) (e := -46) (by norm_num)
      (by rw [abs_of_nonneg (by unfold degreeFactor; positivity)]; unfold degreeFactor; norm_num)
      (by rw [abs_of_nonneg (by unfold degreeFactor; positivity)]; unfold degreeFactor; norm_num)
      (by rw [abs_lt]; unfold degreeFactor; norm_num)]
  norm_num

theorem tiny_rho {altitude : ℝ} (h0 : 100000 ≤ altitude) (h1 : altitude ≤ 100000000) :
    2 ^ (-5 : ℤ) ≤ Ieee.sinRho altitude 0 ∧ Ieee.sinRho altitude 0 ≤ 1 - 2 ^ (-7 : ℤ) := by
  have hv : Viewing altitude 0 := ⟨by norm_num, by linarith, by linarith⟩
  obtain ⟨n1, n2⟩ := rho_near hv
  have hR := radius_near.2
  have hR2 := meanRadius_lt
  have e : Geometry.sinRho altitude 0 * (meanRadius + altitude) = meanRadius := by
    unfold Geometry.sinRho
    have : meanRadius + altitude ≠ 0 := by linarith
    field_simp; ring
  have b1 : 0.05 ≤ Geometry.sinRho altitude 0 := by
    unfold Geometry.sinRho; rw [le_div_iff₀ (by linarith)]; norm_num; linarith
  have b2 : Geometry.sinRho altitude 0 ≤ 0.985 := by
    unfold Geometry.sinRho; rw [div_le_iff₀ (by linarith)]; norm_num; linarith
  norm_num at *
  constructor <;> linarith

/-- From 100 to 100000 km up a swath of at most `2⁻⁸⁰` m is seen, in double precision, at an elevation of exactly 90 degrees. -/
theorem tiny_elevation {altitude swath : ℝ} (h0 : 100000 ≤ altitude) (h1 : altitude ≤ 100000000) (hs0 : 0 < swath)
    (hs1 : swath ≤ 2 ^ (-80 : ℤ)) : Ieee.socElevation altitude swath = .ok 90 := by
  obtain ⟨r0, r1⟩ := tiny_rho h0 h1
  have rpos : 0 < Ieee.sinRho altitude 0 := lt_of_lt_of_le (by positivity) r0
  have rone : Ieee.sinRho altitude 0 ≤ 1 := r1.trans (by norm_num)
  have hR : 1 ≤ fl (earthMeanRadius + 0) := by
    have := (sum_near (h := 0) (by norm_num)).1
    have := radius_near.2
    norm_num at *; linarith
  have small : ∀ {y : ℝ}, y ≤ 2 ^ (-80 : ℤ) → y ≤ 1 := fun h => h.trans (by norm_num)
  have x1 : 0 ≤ fl (swath / 2) := fl_nonneg (by linarith)
  have x1' : fl (swath / 2) ≤ 2 ^ (-80 : ℤ) := fl_pow (by norm_num) ((half_le_self hs0.le).trans hs1)
  have x2 : 0 ≤ fl (fl (swath / 2) / fl (earthMeanRadius + 0)) := fl_nonneg (div_nonneg x1 (by linarith))
  have x2' : fl (fl (swath / 2) / fl (earthMeanRadius + 0)) ≤ 2 ^ (-80 : ℤ) :=
    fl_pow (by norm_num) ((div_le_self x1 hR).trans x1')
  have hpi := Real.pi_gt_three
  set u := fl (fl (swath / 2) / fl (earthMeanRadius + 0)) with hu
  have s0 : 0 ≤ fl (Real.sin u) := fl_nonneg (Real.sin_nonneg_of_nonneg_of_le_pi x2 (by linarith [small x2']))
  have s1 : fl (Real.sin u) ≤ 2 ^ (-80 : ℤ) := fl_pow (by norm_num) ((Real.sin_le x2).trans x2')
  set s := fl (Real.sin u) with hs
  have d0 : fl (Ieee.sinRho altitude 0 * fl (Real.cos (fl (Real.arcsin s)))) ≤ Ieee.sinRho altitude 0 := by
    refine fl_le (fl_double _) ?_
    exact mul_le_of_le_one_right rpos.le (fl_le double_one (Real.cos_le_one _))
  have d1 : 2 ^ (-7 : ℤ) ≤ fl (1 - fl (Ieee.sinRho altitude 0 * fl (Real.cos (fl (Real.arcsin s))))) :=
    le_fl (double_zpow (by norm_num)) (by linarith)
  set d := fl (1 - fl (Ieee.sinRho altitude 0 * fl (Real.cos (fl (Real.arcsin s))))) with hd
  have dpos : 0 < d := lt_of_lt_of_le (by positivity) d1
  have n0 : 0 ≤ fl (Ieee.sinRho altitude 0 * s) := fl_nonneg (mul_nonneg rpos.le s0)
  have n1 : fl (Ieee.sinRho altitude 0 * s) ≤ 2 ^ (-80 : ℤ) :=
    fl_pow (by norm_num) ((mul_le_of_le_one_left s0 rone).trans s1)
  have t0 : 0 ≤ fl (fl (Ieee.sinRho altitude 0 * s) / d) := fl_nonneg (div_nonneg n0 dpos.le)
  have t1 : fl (fl (Ieee.sinRho altitude 0 * s) / d) ≤ 2 ^ (-73 : ℤ) := by
    refine fl_pow (by norm_num) ?_
    rw [div_le_iff₀ dpos]
    refine n1.trans ?_
    calc (2 : ℝ) ^ (-80 : ℤ) = 2 ^ (-73 : ℤ) * 2 ^ (-7 : ℤ) := by norm_num
      _ ≤ _ := mul_le_mul_of_nonneg_left d1 (by positivity)
  set t := fl (fl (Ieee.sinRho altitude 0 * s) / d) with ht
  have a0 : 0 ≤ fl (Real.arctan t) := fl_nonneg (Real.arctan_nonneg.mpr t0)
  have a1 : fl (Real.arctan t) ≤ 2 ^ (-73 : ℤ) := fl_pow (by norm_num) (tiny_arctan t0 |>.trans t1)
  have f0 : 0 ≤ fl (2 * fl (Real.arctan t)) := fl_nonneg (by linarith)
  have f1 : fl (2 * fl (Real.arctan t)) ≤ 2 ^ (-72 : ℤ) := fl_pow (by norm_num) (by norm_num at *; linarith)
  have g0 : 0 ≤ fl (fl (2 * fl (Real.arctan t)) * degreeFactor) := fl_nonneg (mul_nonneg f0 (by unfold degreeFactor; positivity))
  have g1 : fl (fl (2 * fl (Real.arctan t)) * degreeFactor) ≤ 2 ^ (-66 : ℤ) := by
    refine fl_pow (by norm_num) ?_
    calc _ ≤ (2 : ℝ) ^ (-72 : ℤ) * 64 := mul_le_mul f1 (by unfold degreeFactor; norm_num) (by unfold degreeFactor; positivity) (by positivity)
      _ = _ := by norm_num
  have e1 : Ieee.swathToFor altitude swath 0 = some (fl (fl (2 * fl (Real.arctan t)) * degreeFactor)) := by
    unfold Ieee.swathToFor npArcsin
    simp only []
    rw [← hu, ← hs, if_pos ⟨by linarith, s1.trans (by norm_num)⟩]
    rfl
  set f := fl (fl (2 * fl (Real.arctan t)) * degreeFactor) with hf
  have k0 : 0 ≤ fl (fl (f * radianFactor) / 2) := half_nonneg g0
  have k1 : fl (fl (f * radianFactor) / 2) ≤ 2 ^ (-66 : ℤ) := by
    have : fl (f * radianFactor) ≤ 2 ^ (-66 : ℤ) :=
      fl_pow (by norm_num) ((mul_le_of_le_one_right g0 (by unfold radianFactor; norm_num)).trans g1)
    have h2 : 0 ≤ fl (f * radianFactor) := rad_nonneg g0
    exact fl_pow (by norm_num) ((half_le_self h2).trans this)
  have m0 : 0 ≤ Ieee.sinHalf f := fl_nonneg (Real.sin_nonneg_of_nonneg_of_le_pi k0 (by norm_num at *; linarith))
  have m1 : Ieee.sinHalf f ≤ 2 ^ (-66 : ℤ) := fl_pow (by norm_num) ((Real.sin_le k0).trans k1)
  have c0 : 0 ≤ fl (Ieee.sinHalf f / Ieee.sinRho altitude 0) := fl_nonneg (div_nonneg m0 rpos.le)
  have c1 : fl (Ieee.sinHalf f / Ieee.sinRho altitude 0) ≤ 2 ^ (-58 : ℤ) := by
    refine fl_pow (by norm_num) ?_
    rw [div_le_iff₀ rpos]
    refine m1.trans ?_
    calc (2 : ℝ) ^ (-66 : ℤ) ≤ 2 ^ (-58 : ℤ) * 2 ^ (-5 : ℤ) := by norm_num
      _ ≤ _ := mul_le_mul_of_nonneg_left r0 (by positivity)
  have c2 : fl (Ieee.sinHalf f / Ieee.sinRho altitude 0) ≤ 1 := c1.trans (by norm_num)
  have e2 : Ieee.minElevation altitude f 0 = some 90 := by
    unfold Ieee.minElevation npArccos
    simp only []
    rw [if_neg (not_lt.mpr c2), if_pos ⟨by linarith, c2⟩]
    show some (fl (fl (Real.arccos _) * degreeFactor)) = _
    rw [tiny_right_angle c0 c1]
  unfold Ieee.socElevation
  rw [e1]
  show (match Ieee.minElevation altitude f 0 with | some e => Except.ok e | none => Except.error PyErr.valueError) = _
  rw [e2]

/-- C174: from 100 to 100000 km up no design for a swath of at most `2⁻⁸⁰` m is returned: the elevation rounds to 90 degrees, the
radius of the footprint is not positive and the number of planes is refused. -/
theorem C174_tiny {I : Type} (name : List Char) (orbit : Circular) (instruments : I) (swath packing : ℝ) (c : Soc I)
    (hc : Soc.make name orbit instruments swath packing = .ok c) (h0 : 100000 ≤ orbit.altitude) (h1 : orbit.altitude ≤ 100000000)
    (hs : swath ≤ 2 ^ (-80 : ℤ)) (w : Walker I) : Ieee.socWalker c ≠ .ok w := by
  unfold Soc.make at hc
  simp only [bind_eq_ok, require_eq_ok, pure, Except.pure, Except.ok.injEq] at hc
  obtain ⟨_, hs0, _, hp0, _, hp1, rfl⟩ := hc
  intro hw
  unfold Ieee.socWalker at hw
  simp only [bind_eq_ok] at hw
  obtain ⟨e, he, etaRad, ha, v, hv, n, hn, v', hv', p, hp, hmake⟩ := hw
  rw [tiny_elevation h0 h1 hs0 hs] at he
  cases he
  have hmake' : (1 : Int) ≤ p := by
    unfold Walker.make at hmake
    simp only [bind_eq_ok, require_eq_ok] at hmake
    obtain ⟨_, _, _, h, _⟩ := hmake
    exact h
  obtain ⟨r0, r1⟩ := tiny_rho h0 h1
  have rpos : 0 < Ieee.sinRho orbit.altitude 0 := lt_of_lt_of_le (by positivity) r0
  obtain ⟨-, -, c0, -⟩ := cosAt_range (e := 90) (by norm_num) le_rfl
  have arg0 : 0 ≤ fl (fl (earthMeanRadius / fl (earthMeanRadius + orbit.altitude)) * fl (Real.cos (fl (90 * radianFactor)))) := by
    rw [rho_code]
    exact fl_nonneg (mul_nonneg rpos.le c0)
  have asin_of : ∀ {x y : ℝ}, Ieee.mathAsin x = .ok y → y = fl (Real.arcsin x) := by
    intro x y h
    unfold Ieee.mathAsin at h
    simp only [bind_eq_ok, require_eq_ok, pure, Except.pure, Except.ok.injEq] at h
    obtain ⟨_, _, h⟩ := h
    exact h.symm
  have hpi := Real.pi_gt_three
  have hpi4 := Real.pi_le_four
  have eta0 : 0 ≤ etaRad := by rw [asin_of ha]; exact fl_nonneg (Real.arcsin_nonneg.mpr arg0)
  have eta1 : etaRad ≤ 2 := by
    rw [asin_of ha]
    have : Real.arcsin _ ≤ Real.pi / 2 := Real.arcsin_le_pi_div_two
      (fl (fl (earthMeanRadius / fl (earthMeanRadius + orbit.altitude)) * fl (Real.cos (fl (90 * radianFactor)))))
    exact_mod_cast fl_le (double_int (n := 2) (by norm_num)) (by push_cast; linarith)
  have z : fl (90 - 90 : ℝ) = 0 := by rw [sub_self, fl_zero]
  have d0 : 0 ≤ fl (etaRad * degreeFactor) := fl_nonneg (mul_nonneg eta0 (by unfold degreeFactor; positivity))
  have d1 : fl (etaRad * degreeFactor) ≤ 128 := by
    have : etaRad * degreeFactor ≤ 2 * 64 :=
      mul_le_mul eta1 (by unfold degreeFactor; norm_num) (by unfold degreeFactor; positivity) (by norm_num)
    exact_mod_cast fl_le (double_int (n := 128) (by norm_num)) (by push_cast; linarith)
  have g0 : fl (fl (90 - 90) - fl (etaRad * degreeFactor)) ≤ 0 := fl_nonpos (by rw [z]; linarith)
  have g1 : -128 ≤ fl (fl (90 - 90) - fl (etaRad * degreeFactor)) := by
    rw [z]
    exact_mod_cast le_fl (double_int (n := -128) (by norm_num)) (by push_cast; linarith)
  set gamma := fl (fl (90 - 90) - fl (etaRad * degreeFactor)) with hgamma
  have rf0 := radianFactor_pos
  have rf1 : radianFactor ≤ 3 / 128 := by unfold radianFactor; norm_num
  have q0 : fl (gamma * radianFactor) ≤ 0 := fl_nonpos (mul_nonpos_of_nonpos_of_nonneg g0 rf0.le)
  have q1 : -3 ≤ fl (gamma * radianFactor) := by
    have : -3 ≤ gamma * radianFactor := by nlinarith
    exact_mod_cast le_fl (double_int (n := -3) (by norm_num)) (by push_cast; linarith)
  have s0 : fl (Real.sin (fl (gamma * radianFactor))) ≤ 0 :=
    fl_nonpos (Real.sin_nonpos_of_nonpos_of_neg_pi_le q0 (by linarith))
  have hR0 : 0 ≤ earthMeanRadius := by
    have a := (abs_le.mp radius_near.1).1
    have b := radius_near.2
    norm_num at *; linarith
  have foot := fl_nonpos (mul_nonpos_of_nonneg_of_nonpos hR0 s0)
  have three : 0 ≤ fl (Real.sqrt 3) := fl_nonneg (Real.sqrt_nonneg 3)
  have chord := fl_nonpos (mul_nonpos_of_nonpos_of_nonneg (fl_nonpos (mul_nonpos_of_nonneg_of_nonpos three foot)) hp0.le)
  have arg := fl_nonpos (div_nonpos_of_nonpos_of_nonneg
    (fl_nonpos (mul_nonpos_of_nonneg_of_nonpos (show (0 : ℝ) ≤ 0.5 by norm_num) chord)) hR0)
  have v0 : v' ≤ 0 := by
    rw [asin_of hv']
    exact fl_nonpos (Real.arcsin_nonpos.mpr arg)
  unfold Ieee.ceilTurn at hp
  simp only [bind_eq_ok, require_eq_ok, pure, Except.pure, Except.ok.injEq] at hp
  obtain ⟨_, _, hp⟩ := hp
  have hturn : 0 ≤ fl (2 * Ieee.pi) := fl_nonneg (by unfold Ieee.pi; positivity)
  have last : fl (fl (2 * Ieee.pi) / fl (2 * v')) ≤ 0 :=
    fl_nonpos (div_nonpos_of_nonneg_of_nonpos hturn (fl_nonpos (by linarith)))
  have : p ≤ 0 := by rw [← hp]; exact Int.ceil_le.mpr (by exact_mod_cast last)
  omega

/-- C174 fails in general: a swath of `2⁻⁸⁰` m from 500 km is accepted and, in exact arithmetic, has a design (C37), but the
computation in double precision raises. -/
theorem C174_small_false : ∃ c : Soc Unit, Soc.make ['S'] ⟨500000, 0, 0, 90, 0⟩ () (2 ^ (-80 : ℤ)) 1 = .ok c ∧
    (∃ w, c.walker = .ok w) ∧ ∀ w, Ieee.socWalker c ≠ .ok w := by
  have hc : Soc.make (I := Unit) ['S'] ⟨500000, 0, 0, 90, 0⟩ () (2 ^ (-80 : ℤ)) 1 =
      .ok ⟨['S'], ⟨500000, 0, 0, 90, 0⟩, (), 2 ^ (-80 : ℤ), 1⟩ := by
    unfold Soc.make
    simp only [bind_eq_ok, require_eq_ok, pure, Except.pure]
    exact ⟨(), by positivity, (), by norm_num, (), by norm_num, trivial⟩
  have hR := radius_near.2
  have hpi := Real.pi_gt_three
  have hx0 : 0 ≤ (2 : ℝ) ^ (-80 : ℤ) / 2 / meanRadius := by positivity
  have hx : (2 : ℝ) ^ (-80 : ℤ) / 2 / meanRadius ≤ 1 / 12 := by
    rw [div_le_iff₀ (by linarith)]; norm_num; linarith
  obtain ⟨w, -, -, -, -, -, hw, -⟩ := C37_streets (fun _ => 0) ['S'] ⟨500000, 0, 0, 90, 0⟩ () (2 ^ (-80 : ℤ)) 1 _ hc
    (by unfold Circular.Valid InTurn; norm_num) (by norm_num) (by linarith) (by
      have h1 := Real.one_sub_sq_div_two_le_cos (x := (2 : ℝ) ^ (-80 : ℤ) / 2 / meanRadius)
      have hR2 := meanRadius_lt
      have h2 : meanRadius / (meanRadius + 500000) ≤ 0.95 := by
        rw [div_le_iff₀ (by linarith)]; norm_num at *; linarith
      refine h2.trans (le_trans ?_ h1)
      have : ((2 : ℝ) ^ (-80 : ℤ) / 2 / meanRadius) ^ 2 ≤ (1 / 12) ^ 2 := pow_le_pow_left₀ hx0 hx 2
      norm_num at this ⊢
      linarith)
  exact ⟨_, hc, ⟨w, hw⟩, C174_tiny _ _ _ _ _ _ hc (by norm_num) (by norm_num) le_rfl⟩

end Tatc.Props
