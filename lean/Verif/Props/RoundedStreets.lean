import Verif.Props.RoundedSoc

/-! C174: streets of coverage designs survive rounding. -/

namespace Tatc.Props
open Tatc Tatc.Num Tatc.Ieee Tatc.Spec Tatc.Constellation Tatc.Orbit

theorem mathAsin_ok {x : ℝ} (h0 : -1 ≤ x) (h1 : x ≤ 1) : Ieee.mathAsin x = .ok (fl (Real.arcsin x)) := by
  unfold Ieee.mathAsin
  simp only [bind_eq_ok, require_eq_ok, pure, Except.pure]
  exact ⟨(), ⟨h0, h1⟩, trivial⟩

theorem rho_code (altitude : ℝ) : fl (earthMeanRadius / fl (earthMeanRadius + altitude)) = Ieee.sinRho altitude 0 := by
  unfold Ieee.sinRho
  rw [add_zero, fl_of_double radius_double]

/-- The central angle of the edge of the swath, as the design computes it. -/
theorem street_gamma {altitude swath : ℝ} (h : Street altitude swath) :
    ∃ e etaRad, socElevation altitude swath = .ok e ∧
      Ieee.mathAsin (fl (fl (earthMeanRadius / fl (earthMeanRadius + altitude)) * fl (Real.cos (fl (e * radianFactor))))) =
        .ok etaRad ∧
      |fl (fl (fl (90 - e) - fl (etaRad * degreeFactor)) * radianFactor) - swath / 2 / meanRadius| ≤ 2.85e-6 := by
  obtain ⟨e0, e1, e2, -⟩ := street_eta h
  obtain ⟨e, he, b0, b1, hel, hcos⟩ := street_elevation h
  have hv := h.viewing
  have hl := h.central
  have hp := Real.pi_gt_three
  have hpl := Real.pi_lt_d4
  obtain ⟨k1, k2⟩ := h.rho
  obtain ⟨o1, o2⟩ := rho_le_one hv
  have hk := (rel_rho hv).few le_rfl
  have hasin : Real.arcsin (Geometry.sinRho altitude 0 * Real.sin (streetEta altitude swath + swath / 2 / meanRadius)) =
      streetEta altitude swath := by
    rw [← e2, Real.arcsin_sin (by norm_num at *; linarith) (by norm_num at *; linarith)]
  have ht1 := Real.abs_sin_le_one (streetEta altitude swath + swath / 2 / meanRadius)
  obtain ⟨-, -, c0, c1⟩ := cosAt_range b0 b1
  have fc := fl_close' (Real.cos (rad e))
  have cb := Real.abs_cos_le_one (rad e)
  rw [rho_code]
  change ∃ e' etaRad, _ ∧ Ieee.mathAsin (fl (Ieee.sinRho altitude 0 * fl (Real.cos (rad e')))) = _ ∧ _
  set c' := fl (Real.cos (rad e)) with hc'
  generalize Real.cos (rad e) = c at *
  generalize Real.sin (streetEta altitude swath + swath / 2 / meanRadius) = t at *
  have hk0 : 0 < Geometry.sinRho altitude 0 := by norm_num at *; linarith
  have hprod : |Ieee.sinRho altitude 0 * c' - Geometry.sinRho altitude 0 * t| ≤ 3.75e-13 := by
    have ee : Ieee.sinRho altitude 0 * c' - Geometry.sinRho altitude 0 * t =
        (Ieee.sinRho altitude 0 - Geometry.sinRho altitude 0) * c' + Geometry.sinRho altitude 0 * (c' - t) := by ring
    have t1 : |(Ieee.sinRho altitude 0 - Geometry.sinRho altitude 0) * c'| ≤ 1.2e-15 := by
      rw [abs_mul, abs_of_nonneg c0]
      calc _ ≤ (Geometry.sinRho altitude 0 * 1.2e-15) * 1 := mul_le_mul hk c1 c0 (by positivity)
        _ ≤ _ := by norm_num at *; linarith
    have t2 : |Geometry.sinRho altitude 0 * (c' - t)| ≤ 3.71e-13 := by
      rw [abs_mul, abs_of_pos hk0]
      have := abs_sub_le c' c t
      have t3 : |c' - t| ≤ 3.71e-13 := by norm_num at *; linarith
      calc _ ≤ 1 * 3.71e-13 := mul_le_mul (by norm_num at *; linarith) t3 (abs_nonneg _) (by norm_num)
        _ = _ := by ring
    rw [ee]
    refine (abs_add_le _ _).trans ?_
    norm_num at *
    linarith
  have p0 : 0 ≤ Ieee.sinRho altitude 0 * c' := mul_nonneg o1.le c0
  have p1 : Ieee.sinRho altitude 0 * c' ≤ 1 := mul_le_one₀ o2 c0 c1
  have fp := fl_close' (Ieee.sinRho altitude 0 * c')
  rw [abs_of_nonneg p0] at fp
  have g0 : 0 ≤ fl (Ieee.sinRho altitude 0 * c') := le_fl double_zero p0
  have g1 : fl (Ieee.sinRho altitude 0 * c') ≤ 1 := fl_le double_one p1
  have hfar := arcsin_far (a := fl (Ieee.sinRho altitude 0 * c')) (b := Geometry.sinRho altitude 0 * t) (by
    have := abs_sub_le (fl (Ieee.sinRho altitude 0 * c')) (Ieee.sinRho altitude 0 * c') (Geometry.sinRho altitude 0 * t)
    norm_num at *
    linarith)
  rw [hasin] at hfar
  refine ⟨e, _, he, mathAsin_ok (by linarith) g1, ?_⟩
  set a := Real.arcsin (fl (Ieee.sinRho altitude 0 * c')) with ha
  have a0 : 0 ≤ a := Real.arcsin_nonneg.mpr g0
  have a1 : a ≤ Real.pi / 2 := Real.arcsin_le_pi_div_two _
  have hd := deg_close (by linarith) a1
  have eta0 : 0 ≤ fl (fl a * degreeFactor) :=
    le_fl double_zero (mul_nonneg (le_fl double_zero a0) (by have := factor_num.1; norm_num at *; linarith))
  set eta := fl (fl a * degreeFactor) with heta
  have eta1 : eta ≤ 91 := by
    have : degrees a ≤ 90 := by
      unfold degrees
      calc a * (180 / Real.pi) ≤ Real.pi / 2 * (180 / Real.pi) := mul_le_mul_of_nonneg_right a1 (by positivity)
        _ = 90 := by field_simp; norm_num
    have := (abs_le.mp hd).2
    norm_num at *; linarith
  have f1 := fl_close' (90 - e)
  rw [abs_of_nonneg (show 0 ≤ 90 - e by linarith)] at f1
  have f2 := fl_close' (fl (90 - e) - eta)
  have f2b : |fl (90 - e) - eta| ≤ 100 := by
    have h1 : 0 ≤ fl (90 - e) := le_fl double_zero (by linarith)
    have h2 := (abs_le.mp f1).2
    rw [abs_le]
    constructor <;> norm_num at * <;> linarith
  set gamma := fl (fl (90 - e) - eta) with hgamma
  have hg1 : |gamma - (90 - e - eta)| ≤ 3e-14 := by
    have := abs_sub_le gamma (fl (90 - e) - eta) (90 - e - eta)
    have h3 : |fl (90 - e) - eta - (90 - e - eta)| = |fl (90 - e) - (90 - e)| := by congr 1; ring
    rw [h3] at this
    norm_num at *
    linarith
  have hrg : |radians gamma - swath / 2 / meanRadius| ≤ 2.84e-6 := by
    have ee : radians gamma - swath / 2 / meanRadius =
        (gamma - (90 - e - eta)) * (Real.pi / 180) - (eta - degrees a) * (Real.pi / 180) -
          (radians e - (Real.pi / 2 - (streetEta altitude swath + swath / 2 / meanRadius))) -
          (a - streetEta altitude swath) := by
      unfold radians degrees; field_simp; ring
    have m1 : |(gamma - (90 - e - eta)) * (Real.pi / 180)| ≤ 3e-14 := by
      rw [abs_mul, abs_of_pos (by positivity : 0 < Real.pi / 180)]
      calc _ ≤ 3e-14 * 1 := mul_le_mul hg1 (by norm_num at *; linarith) (by positivity) (by norm_num)
        _ = _ := by ring
    have m2 : |(eta - degrees a) * (Real.pi / 180)| ≤ 1e-13 := by
      rw [abs_mul, abs_of_pos (by positivity : 0 < Real.pi / 180)]
      calc _ ≤ 1e-13 * 1 := mul_le_mul hd (by norm_num at *; linarith) (by positivity) (by norm_num)
        _ = _ := by ring
    rw [ee]
    rw [abs_le] at m1 m2 hel hfar ⊢
    obtain ⟨m11, m12⟩ := m1
    obtain ⟨m21, m22⟩ := m2
    obtain ⟨l1, l2⟩ := hel
    obtain ⟨n1, n2⟩ := hfar
    constructor <;> norm_num at * <;> linarith
  have hgl := abs_le.mp hrg
  have gr0 : 0 ≤ radians gamma := by have := hgl.1; norm_num at *; linarith
  have gr1 : radians gamma ≤ 1.6 := by have := hgl.2; have := h.quarter; norm_num at *; linarith
  have g00 : 0 ≤ gamma := by
    unfold radians at gr0
    exact nonneg_of_mul_nonneg_left gr0 (by positivity)
  have rc := rad_close g00
  change |rad gamma - _| ≤ _
  have := abs_sub_le (rad gamma) (radians gamma) (swath / 2 / meanRadius)
  norm_num at *
  linarith

/-- The number of parts that the code computes for a chord is the least for an angle whose chord is almost that. -/
theorem street_parts {x y : ℝ} (h : Rel 9 x y) (h0 : 1e-12 ≤ y) (h1 : y ≤ 0.9995) :
    ∃ (v : ℝ) (n : ℕ) (a : ℝ), Ieee.mathAsin x = .ok v ∧ Ieee.ceilTurn (fl (2 * v)) = .ok (n : Int) ∧ LeastParts n a ∧
      0 < a ∧ a ≤ 3.15 ∧ |Real.sin (a / 2) - y| ≤ y * 1e-14 := by
  have hp := Real.pi_gt_three
  have hpl := Real.pi_lt_d4
  have hc := h.close (by norm_num)
  have hcl := abs_le.mp hc
  have x0 := h.pos'
  have xlow : 9e-13 ≤ x := by have := hcl.1; norm_num at *; linarith
  have xhigh : x ≤ 1 := by have := hcl.2; norm_num at *; linarith
  have as0 : 0 < Real.arcsin x := Real.arcsin_pos.mpr x0
  have as1 : Real.arcsin x ≤ Real.pi / 2 := Real.arcsin_le_pi_div_two x
  have sas : Real.sin (Real.arcsin x) = x := Real.sin_arcsin (by linarith) xhigh
  have aslow : x ≤ Real.arcsin x := by
    have := Real.sin_le as0.le
    rwa [sas] at this
  have ashigh : Real.arcsin x ≤ 1.6 * x := by
    have := Real.mul_le_sin as0.le as1
    rw [sas] at this
    have h2 : 0.63 ≤ 2 / Real.pi := by rw [le_div_iff₀ (by linarith)]; norm_num at *; linarith
    have h3 := mul_le_mul_of_nonneg_right h2 as0.le
    norm_num at *
    linarith
  have r1 : Rel 1 (fl (Real.arcsin x)) (Real.arcsin x) := (Rel.refl as0).fl' (by norm_num) (by norm_num at *; linarith)
  have r2 : Rel 2 (fl (2 * fl (Real.arcsin x))) (2 * Real.arcsin x) :=
    (((Rel.refl (show (0 : ℝ) < 2 by norm_num)).mul r1).weaken (k := 1) (by norm_num)).fl' (by norm_num)
      (by norm_num at *; linarith)
  have r3 : Rel 4 (fl (fl (2 * Ieee.pi) / fl (2 * fl (Real.arcsin x)))) (2 * Real.pi / (2 * Real.arcsin x)) := by
    refine ((rel_two_pi.div r2).weaken (k := 3) (by norm_num)).fl' (by norm_num) ?_
    rw [le_div_iff₀ (by linarith)]
    norm_num at *
    linarith
  have q0 := r3.pos'
  have two : (0 : ℝ) < 2 * Real.pi := by linarith
  have r4 : Rel 4 (2 * Real.pi / fl (fl (2 * Ieee.pi) / fl (2 * fl (Real.arcsin x)))) (2 * Real.arcsin x) := by
    have := (Rel.refl two).div r3
    rw [div_div_cancel₀ two.ne'] at this
    exact this.weaken (by norm_num)
  set q := fl (fl (2 * Ieee.pi) / fl (2 * fl (Real.arcsin x))) with hq
  obtain ⟨n, hn, hl⟩ := ceilTurn_ok r4.pos'
  refine ⟨_, n, _, mathAsin_ok (by linarith) xhigh, ?_, hl, r4.pos', ?_, ?_⟩
  · unfold Constellation.ceilTurn at hn
    unfold Ieee.ceilTurn
    simp only [bind_eq_ok, require_eq_ok, pure, Except.pure, Except.ok.injEq] at hn ⊢
    obtain ⟨_, -, hn⟩ := hn
    refine ⟨(), r2.pos'.ne', ?_⟩
    rw [div_div_cancel₀ two.ne'] at hn
    exact hn
  · have := (abs_le.mp (r4.few (by norm_num))).2
    norm_num at *
    linarith
  · have h4 := r4.few (by norm_num)
    set a := 2 * Real.pi / q with ha
    have h5 : |a / 2 - Real.arcsin x| ≤ Real.arcsin x * 1.2e-15 := by
      have e : a / 2 - Real.arcsin x = (a - 2 * Real.arcsin x) / 2 := by ring
      rw [e, abs_div, abs_of_pos (by norm_num : (0 : ℝ) < 2)]
      linarith
    have h6 := (Real.abs_sin_sub_sin_le (a / 2) (Real.arcsin x)).trans h5
    rw [sas] at h6
    have h7 := abs_sub_le (Real.sin (a / 2)) x y
    have h8 := hcl.2
    norm_num at *
    linarith

theorem rel_radius : Rel 1 earthMeanRadius meanRadius := by
  obtain ⟨a, b⟩ := radius_near
  rw [abs_le] at a
  have a1 := a.1; have a2 := a.2
  refine ⟨by linarith, ?_, ?_⟩
  · rw [pow_one]; unfold rounding
    norm_num at *; nlinarith
  · rw [pow_one]; unfold rounding
    norm_num at *; nlinarith

/-- C174: for every circular orbit 100 to 100000 km up, every swath of at least 1 km within the horizon and every packing distance
of at least a millionth, the design computed in double precision is a valid Walker constellation of `p` planes of `s`
satellites.  `s` and `p` are the least numbers for which satellites next to each other are at most `alongAngle` and planes at most
`acrossAngle` apart, and the chords of these angles differ by at most 40 m times the packing distance from the packing distance
times the diameter of a footprint, and `√3/2` times that (C37). -/
theorem C174_streets_partial {I : Type} (name : List Char) (orbit : Circular) (instruments : I) (swath packing : ℝ) (c : Soc I)
    (hc : Soc.make name orbit instruments swath packing = .ok c) (h : Street orbit.altitude swath) (hp : 1e-6 ≤ packing) :
    ∃ (w : Walker I) (s p : Nat) (alongAngle acrossAngle : ℝ),
      Ieee.socWalker c = .ok w ∧ w.name = name ∧ w.orbit = .circular orbit ∧ w.instruments = instruments ∧
      w.star = false ∧ w.spacing = 0 ∧ w.planes = p ∧ w.satellites = s * p ∧ Walker.Accepted w ∧
      LeastParts s alongAngle ∧ LeastParts p acrossAngle ∧
      0 < alongAngle ∧ alongAngle ≤ 3.15 ∧ 0 < acrossAngle ∧ acrossAngle ≤ 3.15 ∧
      |2 * meanRadius * Real.sin (alongAngle / 2) -
        packing * (2 * meanRadius * Real.sin (swath / 2 / meanRadius))| ≤ 40 * packing ∧
      |2 * meanRadius * Real.sin (acrossAngle / 2) -
        packing * (Real.sqrt 3 / 2) * (2 * meanRadius * Real.sin (swath / 2 / meanRadius))| ≤ 40 * packing := by
  unfold Soc.make at hc
  simp only [bind_eq_ok, require_eq_ok, pure, Except.pure, Except.ok.injEq] at hc
  obtain ⟨_, hs0, _, hp0, _, hp1, rfl⟩ := hc
  obtain ⟨e, etaRad, he, ha, hg⟩ := street_gamma h
  have hl := h.central
  have hlow := street_sine_low h
  have hR1 := meanRadius_lt
  have hR2 := radius_near.2
  set S := Real.sin (fl (fl (fl (90 - e) - fl (etaRad * degreeFactor)) * radianFactor)) with hS
  have hSl : |S - Real.sin (swath / 2 / meanRadius)| ≤ 2.85e-6 := (Real.abs_sin_sub_sin_le _ _).trans hg
  have hsinh : Real.sin (swath / 2 / meanRadius) ≤ 0.9983 := by
    have h1 : 0.059 ≤ Real.cos (swath / 2 / meanRadius) := by
      refine h.rho.1.trans ?_
      have e : Geometry.sinRho orbit.altitude 0 = meanRadius / (meanRadius + orbit.altitude) := by
        unfold Geometry.sinRho; rw [add_zero]
      rw [e]; exact h.horizon
    have h2 := Real.sin_sq_add_cos_sq (swath / 2 / meanRadius)
    by_contra hcon
    push Not at hcon
    generalize Real.sin (swath / 2 / meanRadius) = u at *
    generalize Real.cos (swath / 2 / meanRadius) = v at *
    norm_num at hcon h1
    nlinarith
  have hSb := abs_le.mp hSl
  have S0 : 3e-5 ≤ S := by have := hSb.1; norm_num at *; linarith
  have S1 : S ≤ 0.999 := by have := hSb.2; norm_num at *; linarith
  have S0' : 0 < S := by norm_num at *; linarith
  have pS : 3e-11 ≤ packing * S := by
    calc (3e-11 : ℝ) ≤ 1e-6 * 3e-5 := by norm_num
      _ ≤ _ := mul_le_mul hp S0 (by norm_num) hp0.le
  have pS1 : packing * S ≤ 0.999 := by
    calc packing * S ≤ 1 * 0.999 := mul_le_mul hp1 S1 S0'.le (by norm_num)
      _ = _ := by norm_num
  have big : 1 ≤ meanRadius * S := by
    calc (1 : ℝ) ≤ 6371008 * 3e-5 := by norm_num
      _ ≤ _ := mul_le_mul hR2 S0 (by norm_num) (by linarith)
  have r1 : Rel 1 (fl S) S := (Rel.refl S0').fl' (by norm_num) (by norm_num at *; linarith)
  have r2 : Rel 3 (fl (earthMeanRadius * fl S)) (meanRadius * S) :=
    (rel_radius.mul r1).fl' (by norm_num) (by norm_num at *; linarith)
  set r := fl (earthMeanRadius * fl S) with hr
  have hbp : 1e-7 ≤ meanRadius * S * packing := by
    calc (1e-7 : ℝ) ≤ 1 * 1e-6 := by norm_num
      _ ≤ _ := mul_le_mul big hp (by norm_num) (by linarith)
  have rp := Rel.refl hp0
  have half : (0 : ℝ) < 0.5 := by norm_num
  -- along the orbit
  have f1 : Rel 4 (fl (2 * r)) (2 * (meanRadius * S)) :=
    (((Rel.refl (show (0 : ℝ) < 2 by norm_num)).mul r2).weaken (k := 3) (by norm_num)).fl' (by norm_num) (by norm_num at *; linarith)
  have f2 : Rel 5 (fl (fl (2 * r) * packing)) (2 * (meanRadius * S) * packing) :=
    (f1.mul rp).fl' (by norm_num) (by norm_num at *; linarith)
  have f3 : Rel 6 (fl (0.5 * fl (fl (2 * r) * packing))) (0.5 * (2 * (meanRadius * S) * packing)) :=
    (((Rel.refl half).mul f2).weaken (k := 5) (by norm_num)).fl' (by norm_num) (by norm_num at *; linarith)
  have f4 : Rel 9 (fl (fl (0.5 * fl (fl (2 * r) * packing)) / earthMeanRadius)) (packing * S) := by
    have e1 : 0.5 * (2 * (meanRadius * S) * packing) / meanRadius = packing * S := by
      have : meanRadius ≠ 0 := by linarith
      field_simp; norm_num
    have := (f3.div rel_radius).fl' (by norm_num) (by rw [e1]; norm_num at *; linarith)
    rw [e1] at this
    exact this.weaken (by norm_num)
  -- across
  have q3 : 1.7 ≤ Real.sqrt 3 ∧ Real.sqrt 3 ≤ 1.74 := by
    constructor
    · exact Real.le_sqrt_of_sq_le (by norm_num)
    · rw [Real.sqrt_le_left (by norm_num)]; norm_num
  have g0 : Rel 1 (fl (Real.sqrt 3)) (Real.sqrt 3) :=
    (Rel.refl (Real.sqrt_pos.mpr (by norm_num))).fl' (by norm_num) (by norm_num at *; linarith [q3.1])
  have big3 : 1 ≤ Real.sqrt 3 * (meanRadius * S) := by
    calc (1 : ℝ) ≤ 1.7 * 1 := by norm_num
      _ ≤ _ := mul_le_mul q3.1 big (by norm_num) (by linarith [q3.1])
  have g1 : Rel 5 (fl (fl (Real.sqrt 3) * r)) (Real.sqrt 3 * (meanRadius * S)) :=
    (g0.mul r2).fl' (by norm_num) (by norm_num at *; linarith)
  have hbp3 : 1e-7 ≤ Real.sqrt 3 * (meanRadius * S) * packing := by
    calc (1e-7 : ℝ) ≤ 1 * 1e-6 := by norm_num
      _ ≤ _ := mul_le_mul big3 hp (by norm_num) (by linarith)
  have g2 : Rel 6 (fl (fl (fl (Real.sqrt 3) * r) * packing)) (Real.sqrt 3 * (meanRadius * S) * packing) :=
    (g1.mul rp).fl' (by norm_num) (by norm_num at *; linarith)
  have g3 : Rel 7 (fl (0.5 * fl (fl (fl (Real.sqrt 3) * r) * packing))) (0.5 * (Real.sqrt 3 * (meanRadius * S) * packing)) :=
    (((Rel.refl half).mul g2).weaken (k := 6) (by norm_num)).fl' (by norm_num) (by norm_num at *; linarith)
  have pS3 : 2e-11 ≤ Real.sqrt 3 / 2 * (packing * S) ∧ Real.sqrt 3 / 2 * (packing * S) ≤ 0.9 := by
    constructor
    · calc (2e-11 : ℝ) ≤ 0.85 * 3e-11 := by norm_num
        _ ≤ _ := mul_le_mul (by norm_num at *; linarith [q3.1]) pS (by norm_num) (by linarith [q3.1])
    · calc Real.sqrt 3 / 2 * (packing * S) ≤ 0.87 * 0.999 :=
          mul_le_mul (by norm_num at *; linarith [q3.2]) pS1 (by positivity) (by norm_num)
        _ ≤ _ := by norm_num
  have g4 : Rel 9 (fl (fl (0.5 * fl (fl (fl (Real.sqrt 3) * r) * packing)) / earthMeanRadius)) (Real.sqrt 3 / 2 * (packing * S)) := by
    have e1 : 0.5 * (Real.sqrt 3 * (meanRadius * S) * packing) / meanRadius = Real.sqrt 3 / 2 * (packing * S) := by
      have : meanRadius ≠ 0 := by linarith
      field_simp; norm_num
    have := (g3.div rel_radius).fl' (by norm_num) (by rw [e1]; have := pS3.1; norm_num at *; linarith)
    rw [e1] at this
    exact this.weaken (by norm_num)
  obtain ⟨v, s, a, hv, hs, hsl, a0, a1, hsa⟩ := street_parts f4 (by norm_num at *; linarith) (by norm_num at *; linarith)
  obtain ⟨v', p, b, hv', hpl, hpp, b0, b1, hsb⟩ := street_parts g4 (by have := pS3.1; norm_num at *; linarith)
    (by have := pS3.2; norm_num at *; linarith)
  have hs1 := hsl.1
  have hpp1 := hpp.1
  have hle : p ≤ s * p := Nat.le_mul_of_pos_left p hs1
  have hmake : Walker.make name (.circular orbit) instruments false ((s : Int) * p) p 0 =
      .ok ⟨name, .circular orbit, instruments, false, s * p, p, 0⟩ := by
    unfold Walker.make
    simp only [bind_eq_ok, require_eq_ok, pure, Except.pure, Except.ok.injEq]
    have h1 : (1 : Int) ≤ (s : Int) * p := by
      have : 1 ≤ s * p := le_trans hpp1 hle
      exact_mod_cast this
    refine ⟨(), h1, (), by exact_mod_cast hpp1, (), le_rfl, (), ?_, (), by omega, ?_⟩
    · have : ((p : Nat) : Int) ≤ (s : Int) * p := by exact_mod_cast hle
      omega
    · congr 1
  have bound : ∀ (u y t : ℝ), 0 ≤ t → t ≤ 1 → y = t * (packing * S) → |Real.sin (u / 2) - y| ≤ y * 1e-14 →
      |2 * meanRadius * Real.sin (u / 2) - packing * t * (2 * meanRadius * Real.sin (swath / 2 / meanRadius))| ≤ 40 * packing := by
    intro u y t t0 t1 hy hu
    have e1 : 2 * meanRadius * Real.sin (u / 2) - packing * t * (2 * meanRadius * Real.sin (swath / 2 / meanRadius)) =
        2 * meanRadius * ((Real.sin (u / 2) - y) + packing * t * (S - Real.sin (swath / 2 / meanRadius))) := by
      rw [hy]; ring
    have pt : packing * t ≤ packing := mul_le_of_le_one_right hp0.le t1
    have pt0 : 0 ≤ packing * t := mul_nonneg hp0.le t0
    have m1 : |packing * t * (S - Real.sin (swath / 2 / meanRadius))| ≤ packing * 2.85e-6 := by
      rw [abs_mul, abs_of_nonneg pt0]
      exact mul_le_mul pt hSl (abs_nonneg _) hp0.le
    have m2 : y ≤ packing := by
      rw [hy]
      calc t * (packing * S) = packing * t * S := by ring
        _ ≤ packing * 1 := mul_le_mul pt (by norm_num at *; linarith) S0'.le hp0.le
        _ = _ := mul_one _
    have m3 : |(Real.sin (u / 2) - y) + packing * t * (S - Real.sin (swath / 2 / meanRadius))| ≤ packing * 2.9e-6 := by
      refine (abs_add_le _ _).trans ?_
      norm_num at *
      linarith
    rw [e1, abs_mul, abs_of_pos (by linarith : 0 < 2 * meanRadius)]
    calc _ ≤ 2 * 6371009 * (packing * 2.9e-6) := mul_le_mul (by linarith) m3 (abs_nonneg _) (by norm_num)
      _ ≤ _ := by norm_num; linarith
  refine ⟨⟨name, .circular orbit, instruments, false, s * p, p, 0⟩, s, p, a, b, ?_, rfl, rfl, rfl, rfl, rfl, rfl, rfl,
    ⟨⟨hpp1, hle⟩, by show 0 < p; omega⟩, hsl, hpp, a0, a1, b0, b1, ?_, ?_⟩
  · unfold Ieee.socWalker
    simp only [bind_eq_ok]
    exact ⟨e, he, etaRad, ha, v, hv, s, hs, v', hv', p, hpl, hmake⟩
  · have := bound a (packing * S) 1 (by norm_num) le_rfl (by ring) hsa
    simpa using this
  · exact bound b _ (Real.sqrt 3 / 2) (by positivity) (by linarith [q3.2]) rfl hsb

/-- The hypotheses are met: a swath of 1 000 km from 1 000 km. -/
theorem street_sample : Street 1000000 1000000 := by
  have hR := meanRadius_gt
  have hR2 : meanRadius < 6400000 := by unfold meanRadius equatorialRadius polarRadius; norm_num
  have hpi := Real.pi_gt_three
  have hx : (1000000 : ℝ) / 2 / meanRadius ≤ 1 / 12 := by rw [div_div, div_le_iff₀ (by positivity)]; linarith
  have hx0 : (0 : ℝ) ≤ 1000000 / 2 / meanRadius := by positivity
  refine ⟨by norm_num, by norm_num, by norm_num, by linarith, ?_⟩
  have h1 := Real.one_sub_sq_div_two_le_cos (x := (1000000 : ℝ) / 2 / meanRadius)
  have h2 : meanRadius / (meanRadius + 1000000) ≤ 0.9 := by
    rw [div_le_iff₀ (by linarith)]; norm_num at *; linarith
  norm_num at *
  nlinarith

example : ∃ (c : Soc Unit) (w : Walker Unit), Soc.make ['S'] ⟨1000000, 0, 0, 90, 0⟩ () 1000000 1 = .ok c ∧
    Ieee.socWalker c = .ok w ∧ w.star = false := by
  have hc : Soc.make (I := Unit) ['S'] ⟨1000000, 0, 0, 90, 0⟩ () 1000000 1 = .ok ⟨['S'], ⟨1000000, 0, 0, 90, 0⟩, (), 1000000, 1⟩ := by
    unfold Soc.make
    simp only [bind_eq_ok, require_eq_ok, pure, Except.pure]
    exact ⟨(), by norm_num, (), by norm_num, (), by norm_num, trivial⟩
  obtain ⟨w, -, -, -, -, hw, -, -, -, hstar, -⟩ := C174_streets_partial ['S'] ⟨1000000, 0, 0, 90, 0⟩ () 1000000 1 _ hc street_sample (by norm_num)
  exact ⟨_, w, hc, hw, hstar⟩

end Tatc.Props
