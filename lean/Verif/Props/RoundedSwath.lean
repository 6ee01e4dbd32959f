import Verif.Props.RoundedStreets

/-! C175: requested swaths survive rounding. -/

namespace Tatc.Props
open Tatc Tatc.Num Tatc.Ieee Tatc.Spec Tatc.Constellation Tatc.Orbit

theorem min_near {a x y d : ℝ} (h : |x - y| ≤ d) (hy : y ≤ a) : |min a x - y| ≤ d := by
  rw [abs_le] at *
  rcases le_total a x with h1 | h1
  · rw [min_eq_left h1]; constructor <;> linarith
  · rw [min_eq_right h1]; exact h

/-- C175: for every altitude of 100 to 100000 km and every swath of at least 1 km within the horizon, the field of regard that is
computed for the swath in double precision is between 0 and 180 degrees and within `10⁻¹⁰` degrees of the exact one (C45), and the
swath width that is computed for this field of regard in double precision is within 25 m of the swath. -/
theorem C175_swath (altitude swath : ℝ) (h : Street altitude swath) :
    ∃ f w, Ieee.swathToFor altitude swath 0 = some f ∧ 0 < f ∧ f ≤ 180 ∧
      |f - Geometry.swathToFor altitude swath 0| ≤ 1e-10 ∧
      Ieee.forToSwath altitude f 0 = some w ∧ |w - swath| ≤ 25 := by
  obtain ⟨e0, e1, e2, e3⟩ := street_eta h
  obtain ⟨f, hf, hr, hf1⟩ := street_regard h
  have hf0 : 0 < f := hr.pos'
  have hv := h.viewing
  obtain ⟨k1, k2⟩ := h.rho
  have hl := h.central
  have hp := Real.pi_gt_three
  have hpl := Real.pi_lt_d4
  have hR := meanRadius_lt
  have hR0 := meanRadius_pos
  obtain ⟨w, hw, hwc⟩ := C148_swath altitude 0 f hv hf0.le hf1
  refine ⟨f, w, hf, hf0, hf1, ?_, hw, ?_⟩
  · rw [e3]
    refine (hr.near (by norm_num)).trans ?_
    have : degrees (2 * streetEta altitude swath) ≤ 180 := by
      unfold degrees
      have h1 : 2 * streetEta altitude swath ≤ Real.pi := by norm_num at *; linarith
      calc _ ≤ Real.pi * (180 / Real.pi) := mul_le_mul_of_nonneg_right h1 (by positivity)
        _ = 180 := by field_simp
    norm_num at *
    linarith
  · set eta := streetEta altitude swath with heta
    set l := swath / 2 / meanRadius with hldef
    set rho := Geometry.sinRho altitude 0 with hrho
    have rpos : 0 < rho := by norm_num at *; linarith
    have epos : 0 < eta := by norm_num at *; linarith
    have ehalf : eta ≤ Real.pi / 2 := by norm_num at *; linarith
    have r1 : Rel 1316 (radians f / 2) eta := by
      have a := (hr.mul (Rel.refl (show 0 < Real.pi / 180 by positivity))).div (Rel.refl (show (0 : ℝ) < 2 by norm_num))
      have e : degrees (2 * eta) * (Real.pi / 180) / 2 = eta := by unfold degrees; field_simp
      rw [e] at a
      exact a
    have vle : radians f / 2 ≤ Real.pi / 2 := by
      unfold radians
      have : f * (Real.pi / 180) ≤ 180 * (Real.pi / 180) := mul_le_mul_of_nonneg_right hf1 (by positivity)
      linarith
    have vpos := r1.pos'
    have r2 := r1.sin vle ehalf
    have r3 := r2.div (Rel.refl rpos)
    have hratio : Real.sin eta / rho = Real.sin (eta + l) := by
      rw [e2, mul_div_cancel_left₀ _ rpos.ne']
    rw [hratio] at r3
    have hs1 := Real.sin_le_one (eta + l)
    have hn : |Real.sin (radians f / 2) / rho - Real.sin (eta + l)| ≤ 3.6e-13 := by
      refine (r3.near (by norm_num)).trans ?_
      norm_num at *; linarith
    have hfar := arccos_far (hn.trans (by norm_num))
    have harc : Real.arccos (Real.sin (eta + l)) = Real.pi / 2 - (eta + l) := by
      rw [Real.arccos, Real.arcsin_sin (by norm_num at *; linarith) e1]
    rw [harc] at hfar
    have hvn : |radians f / 2 - eta| ≤ 6e-13 := by
      refine (r1.near (by norm_num)).trans ?_
      norm_num at *; linarith
    have hle : eta ≤ Real.arcsin rho := by
      rw [Real.le_arcsin_iff_sin_le' ⟨by linarith, by linarith⟩]
      rw [e2]
      exact mul_le_of_le_one_right rpos.le hs1
    have hmin : Real.arcsin (min rho (Real.sin (radians f / 2))) = min (Real.arcsin rho) (radians f / 2) := by
      rw [Real.monotone_arcsin.map_min, Real.arcsin_sin (by linarith) vle]
    have hcos : Real.arccos (min rho (Real.sin (radians f / 2)) / rho) = Real.arccos (Real.sin (radians f / 2) / rho) := by
      rw [← arccos_min (Real.sin (radians f / 2) / rho), ← min_div_div_right rpos.le, div_self rpos.ne']
    have hex : Geometry.forToSwath altitude f 0 - swath =
        2 * meanRadius * ((eta - min (Real.arcsin rho) (radians f / 2)) +
          ((Real.pi / 2 - (eta + l)) - Real.arccos (Real.sin (radians f / 2) / rho))) := by
      have e : swath = 2 * meanRadius * l := by rw [hldef]; field_simp
      unfold Geometry.forToSwath
      simp only [← hrho, hmin, hcos, add_zero]
      rw [e]; ring
    have hb : |Geometry.forToSwath altitude f 0 - swath| ≤ 20 := by
      rw [hex, abs_mul, abs_of_pos (by positivity : 0 < 2 * meanRadius)]
      have a := min_near hvn hle
      have b : |(eta - min (Real.arcsin rho) (radians f / 2)) +
          ((Real.pi / 2 - (eta + l)) - Real.arccos (Real.sin (radians f / 2) / rho))| ≤ 1.5e-6 := by
        refine (abs_add_le _ _).trans ?_
        rw [abs_sub_comm eta, abs_sub_comm (Real.pi / 2 - (eta + l))]
        norm_num at *
        linarith
      calc _ ≤ 2 * 6371009 * 1.5e-6 := mul_le_mul (by linarith) b (abs_nonneg _) (by norm_num)
        _ ≤ _ := by norm_num
    have := abs_sub_le w (Geometry.forToSwath altitude f 0) swath
    rw [add_zero] at hwc
    have h7 : 7e-7 * meanRadius ≤ 4.5 := by norm_num at *; linarith
    norm_num at *
    linarith

/-- The hypotheses are met: a swath of 1 000 km from 1 000 km. -/
example : ∃ f w, Ieee.swathToFor 1000000 1000000 0 = some f ∧ Ieee.forToSwath 1000000 f 0 = some w ∧ |w - 1000000| ≤ 25 := by
  obtain ⟨f, w, h1, -, -, -, h2, h3⟩ := C175_swath 1000000 1000000 street_sample
  exact ⟨f, w, h1, h2, h3⟩

end Tatc.Props
