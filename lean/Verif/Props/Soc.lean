import Verif.Model.Soc
import Verif.Props.Walker
import Verif.Props.Access

/-!
# C37: streets of coverage
-/

namespace Tatc.Props
open Tatc.Num Tatc.Geometry Tatc.Spec Tatc.Orbit Tatc.Constellation
open scoped Classical

/-- `n` is the least number of equal parts of a full turn that are at most `angle` wide. -/
def LeastParts (n : Nat) (angle : ℝ) : Prop :=
  1 ≤ n ∧ 2 * Real.pi / n ≤ angle ∧ ∀ m : Nat, 1 ≤ m → 2 * Real.pi / m ≤ angle → n ≤ m

theorem ceilTurn_ok {x : ℝ} (hx : 0 < x) : ∃ n : Nat, ceilTurn x = .ok (n : Int) ∧ LeastParts n x := by
  have hpi := Real.pi_pos
  have hq : 0 < 2 * Real.pi / x := by positivity
  refine ⟨⌈2 * Real.pi / x⌉₊, ?_, ?_, ?_, ?_⟩
  · unfold ceilTurn
    simp only [bind_eq_ok, require_eq_ok, pure, Except.pure, Except.ok.injEq]
    exact ⟨(), hx.ne', (Int.natCast_ceil_eq_ceil hq.le).symm⟩
  · exact Nat.one_le_iff_ne_zero.mpr (Nat.ceil_pos.mpr hq).ne'
  · have h1 := Nat.le_ceil (2 * Real.pi / x)
    have h2 : (0 : ℝ) < ⌈2 * Real.pi / x⌉₊ := by exact_mod_cast Nat.ceil_pos.mpr hq
    rw [div_le_iff₀ h2]
    rw [div_le_iff₀ hx] at h1
    linarith
  · intro m hm h
    apply Nat.ceil_le.mpr
    have h2 : (0 : ℝ) < m := by exact_mod_cast hm
    rw [div_le_iff₀ h2] at h
    rw [div_le_iff₀ hx]
    linarith

/-- The central angle the code derives from a swath within the horizon is that of half the swath. -/
theorem soc_gamma {h w : ℝ} (hh : 0 < h) (hw : 0 ≤ w) (hw1 : w / 2 / meanRadius ≤ Real.pi / 2)
    (hor : meanRadius / (meanRadius + h) ≤ Real.cos (w / 2 / meanRadius)) :
    let e := minElevation h (swathToFor h w 0) 0
    ∃ etaRad, mathAsin (meanRadius / (meanRadius + h) * Real.cos (radians e)) = .ok etaRad ∧
      radians (90 - e - degrees etaRad) = w / 2 / meanRadius := by
  intro e
  have hR := meanRadius_gt
  have hpi := Real.pi_pos
  have hz : Below h 0 := ⟨by linarith, hh⟩
  obtain ⟨hk0, hk1⟩ := sinRho_range hz
  have hk : sinRho h 0 = meanRadius / (meanRadius + h) := by unfold sinRho; rw [add_zero]
  set k := sinRho h 0 with hkdef
  set l := w / 2 / meanRadius with hl
  have hl0 : 0 ≤ l := by rw [hl]; positivity
  obtain ⟨e0, e1, e2⟩ := within_horizon hk0 hk1 hl0 hw1 (by rw [hk]; exact hor)
  have hf : swathToFor h w 0 = _ := swathToFor_of_central (l := l) (by rw [hl, add_zero]) (by linarith) hw1
  rw [← hkdef] at hf
  set eta := Real.arctan (k * Real.sin l / (1 - k * Real.cos l)) with heta
  have hsin : Real.sin (radians (swathToFor h w 0) / 2) = Real.sin eta := by
    rw [hf, radians_degrees]; congr 1; ring
  have hdiv : Real.sin eta / k = Real.sin (eta + l) := by rw [e2]; field_simp
  have he : e = degrees (Real.pi / 2 - (eta + l)) := by
    show minElevation h (swathToFor h w 0) 0 = _
    unfold minElevation
    simp only [hsin, ← hkdef, hdiv]
    rw [if_neg (not_lt.mpr (Real.sin_le_one _)), Real.arccos, Real.arcsin_sin (by linarith) e1]
  have hcos : k * Real.cos (radians e) = Real.sin eta := by
    rw [he, radians_degrees, Real.cos_pi_div_two_sub, e2]
  refine ⟨eta, ?_, ?_⟩
  · rw [← hk, hcos]
    unfold mathAsin
    simp only [bind_eq_ok, require_eq_ok, pure, Except.pure, Except.ok.injEq]
    exact ⟨(), ⟨Real.neg_one_le_sin _, Real.sin_le_one _⟩, Real.arcsin_sin (by linarith) (by linarith)⟩
  · rw [he]
    unfold radians degrees
    field_simp
    ring

theorem asin_ok {x : ℝ} (h0 : 0 ≤ x) (h1 : x ≤ 1) : mathAsin x = .ok (Real.arcsin x) := by
  unfold mathAsin
  simp only [bind_eq_ok, require_eq_ok, pure, Except.pure]
  exact ⟨(), ⟨by linarith, h1⟩, trivial⟩

/-- C37: for every circular orbit above the surface, every swath up to the horizon and every accepted packing
distance, a valid Walker constellation is generated: `p` planes of `s` satellites, all of them generated and every
plane holding `s` of them.  `s` and `p` are the least numbers for which satellites next to each other are at most
`alongAngle` and planes at most `acrossAngle` apart, the angles whose chords on the sphere are `packing` times the
diameter of a footprint and `packing * √3/2` times that; neither exceeds the swath, so footprints overlap. -/
theorem C37_streets {I : Type} (sun : Int → ℝ) (name : List Char) (orbit : Circular) (instruments : I)
    (swath packing : ℝ) (c : Soc I) (hc : Soc.make name orbit instruments swath packing = .ok c)
    (ho : Circular.Valid orbit) (hh : 0 < orbit.altitude) (hw1 : swath / 2 / meanRadius ≤ Real.pi / 2)
    (hor : meanRadius / (meanRadius + orbit.altitude) ≤ Real.cos (swath / 2 / meanRadius)) :
    ∃ (w : Walker I) (s p : Nat) (ms : List (Satellite I)) (alongAngle acrossAngle : ℝ),
      c.walker = .ok w ∧ w.name = name ∧ w.orbit = .circular orbit ∧ w.instruments = instruments ∧
      w.star = false ∧ w.spacing = 0 ∧ w.planes = p ∧ w.satellites = s * p ∧
      c.members sun = .ok ms ∧ ms.length = s * p ∧
      (∀ k < p, ms.countP (fun m => decide (SameAngle (raanOf sun m.orbit) (planeRaan sun w k))) = s) ∧
      LeastParts s alongAngle ∧ LeastParts p acrossAngle ∧
      2 * meanRadius * Real.sin (alongAngle / 2) = packing * (2 * meanRadius * Real.sin (swath / 2 / meanRadius)) ∧
      2 * meanRadius * Real.sin (acrossAngle / 2) =
        packing * (Real.sqrt 3 / 2) * (2 * meanRadius * Real.sin (swath / 2 / meanRadius)) ∧
      0 < acrossAngle ∧ acrossAngle ≤ alongAngle ∧ alongAngle ≤ swath / meanRadius := by
  have hR := meanRadius_gt
  have hpi := Real.pi_pos
  unfold Soc.make at hc
  simp only [bind_eq_ok, require_eq_ok, pure, Except.pure, Except.ok.injEq] at hc
  obtain ⟨_, hs0, _, hp0, _, hp1, rfl⟩ := hc
  set l := swath / 2 / meanRadius with hl
  have hl0 : 0 < l := by rw [hl]; positivity
  have hsl : 0 < Real.sin l := Real.sin_pos_of_pos_of_lt_pi hl0 (by linarith)
  have hsl1 : Real.sin l ≤ 1 := Real.sin_le_one _
  obtain ⟨etaRad, ha, hg⟩ := soc_gamma hh hs0.le hw1 hor
  rw [← hl] at hg
  have h3 : Real.sqrt 3 ≤ 2 := by rw [Real.sqrt_le_left (by norm_num)]; norm_num
  have h30 : 0 < Real.sqrt 3 := Real.sqrt_pos.mpr (by norm_num)
  set xf := packing * Real.sin l with hxf
  set xp := Real.sqrt 3 / 2 * packing * Real.sin l with hxp
  have hxf0 : 0 < xf := by positivity
  have hxp0 : 0 < xp := by positivity
  have hxf1 : xf ≤ Real.sin l := by rw [hxf]; nlinarith
  have hxpf : xp ≤ xf := by
    have : xp = Real.sqrt 3 / 2 * xf := by rw [hxp, hxf]; ring
    rw [this]; nlinarith
  have af := asin_ok hxf0.le (by linarith : xf ≤ 1)
  have ap := asin_ok hxp0.le (by linarith : xp ≤ 1)
  have pf : 0 < 2 * Real.arcsin xf := by have := Real.arcsin_pos.mpr hxf0; linarith
  have pp : 0 < 2 * Real.arcsin xp := by have := Real.arcsin_pos.mpr hxp0; linarith
  obtain ⟨s, hs, hsl'⟩ := ceilTurn_ok pf
  obtain ⟨p, hp, hpl⟩ := ceilTurn_ok pp
  have hs1 := hsl'.1
  have hpp1 := hpl.1
  have hle : p ≤ s * p := Nat.le_mul_of_pos_left p hs1
  have hmake : Walker.make name (.circular orbit) instruments false ((s : Int) * p) p 0 =
      .ok ⟨name, .circular orbit, instruments, false, s * p, p, 0⟩ := by
    unfold Walker.make
    simp only [bind_eq_ok, require_eq_ok, pure, Except.pure, Except.ok.injEq]
    have h1 : (1 : Int) ≤ (s : Int) * p := by
      have : 1 ≤ s * p := le_trans hpp1 hle
      exact_mod_cast this
    refine ⟨(), h1, (), by exact_mod_cast hpp1, (), le_rfl, (), ?_, (), by omega, ?_⟩
    · have : ((p : Nat) : Int) ≤ (s : Int) * p := by exact_mod_cast hle
      omega
    · congr 1
  set w : Walker I := ⟨name, .circular orbit, instruments, false, s * p, p, 0⟩ with hwdef
  have hwalk : (⟨name, orbit, instruments, swath, packing⟩ : Soc I).walker = .ok w := by
    unfold Soc.walker
    simp only [bind_eq_ok]
    refine ⟨etaRad, ha, Real.arcsin xf, ?_, s, hs, Real.arcsin xp, ?_, p, hp, hmake⟩
    · rw [hg, ← af]; congr 1; rw [hxf]; field_simp; norm_num
    · rw [hg, ← ap]; congr 1; rw [hxp]; field_simp; norm_num
  have hacc : Walker.Accepted w := ⟨⟨hpp1, hle⟩, by show 0 < p; omega⟩
  have hlv : Lead.Valid w.orbit := ho
  obtain ⟨ms, hms, hcount⟩ := C28_even_planes sun w hacc hlv s (by show s * p = p * s; ring)
  refine ⟨w, s, p, ms, 2 * Real.arcsin xf, 2 * Real.arcsin xp, hwalk, rfl, rfl, rfl, rfl, rfl, rfl, rfl, ?_, ?_,
    hcount, hsl', hpl, ?_, ?_, pp, ?_, ?_⟩
  · unfold Soc.members
    simp only [bind_eq_ok]
    exact ⟨w, hwalk, hms⟩
  · obtain ⟨ms', _, hok, hlen, _⟩ := C28_planes_partial sun w hacc hlv
    rw [hms] at hok
    obtain rfl : ms = ms' := by injection hok
    exact hlen
  · rw [mul_div_cancel_left₀ _ (two_ne_zero), Real.sin_arcsin (by linarith) (by linarith), hxf]; ring
  · rw [mul_div_cancel_left₀ _ (two_ne_zero), Real.sin_arcsin (by linarith) (by linarith), hxp]; ring
  · have := Real.monotone_arcsin hxpf; linarith
  · have h5 := Real.monotone_arcsin hxf1
    rw [Real.arcsin_sin (by linarith) hw1] at h5
    have : 2 * l = swath / meanRadius := by rw [hl]; field_simp
    linarith

/-- The hypotheses are met: a swath of 1 000 km from 1 000 km. -/
example : ∃ c, Soc.make (I := Unit) ['S'] ⟨1000000, 0, 0, 90, 0⟩ () 1000000 1 = .ok c ∧
    Circular.Valid ⟨1000000, 0, 0, 90, 0⟩ ∧ (1000000 : ℝ) / 2 / meanRadius ≤ Real.pi / 2 ∧
    meanRadius / (meanRadius + 1000000) ≤ Real.cos (1000000 / 2 / meanRadius) := by
  have hR := meanRadius_gt
  have hR2 : meanRadius < 6400000 := by unfold meanRadius equatorialRadius polarRadius; norm_num
  have hpi := Real.pi_gt_three
  have hx : (1000000 : ℝ) / 2 / meanRadius ≤ 1 / 12 := by rw [div_div, div_le_iff₀ (by positivity)]; linarith
  have hx0 : (0 : ℝ) ≤ 1000000 / 2 / meanRadius := by positivity
  refine ⟨⟨['S'], ⟨1000000, 0, 0, 90, 0⟩, (), 1000000, 1⟩, ?_, ?_, by linarith, ?_⟩
  · unfold Soc.make
    simp only [bind_eq_ok, require_eq_ok, pure, Except.pure]
    exact ⟨(), by norm_num, (), by norm_num, (), by norm_num, trivial⟩
  · unfold Circular.Valid InTurn; norm_num
  · have h1 := Real.one_sub_sq_div_two_le_cos (x := 1000000 / 2 / meanRadius)
    refine le_trans ?_ h1
    rw [div_le_iff₀ (by linarith)]
    have : (1000000 / 2 / meanRadius) ^ 2 ≤ 1 / 144 := by nlinarith
    nlinarith

end Tatc.Props
