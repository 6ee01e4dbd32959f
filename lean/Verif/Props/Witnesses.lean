import Verif.Props.Convert
import Verif.Props.ConvertPeriod
import Verif.Props.TrueAnomaly
import Verif.Props.Derived
import Verif.Props.Swath
import Verif.Props.FieldOfView

/-!
# Concrete cases that meet the hypotheses of C33, C90, C91, C92, C94, C120 and C149
-/

namespace Tatc.Props
open Tatc Tatc.Num Tatc.Geometry Tatc.Spec Tatc.Instruments Tatc.Coverage Tatc.Tle Tatc.Orbit

/-- A sun-synchronous orbit 700 km up that crosses the equator at 10:30. -/
def morningSso : Sso := ⟨700000, 45, 1600000000000000, 0.4375, false⟩

theorem morningSso_valid : Sso.Valid morningSso := by
  have : meanRadius ≤ 6371009 := by unfold meanRadius equatorialRadius polarRadius; norm_num
  refine ⟨⟨?_, ?_⟩, ?_, ?_⟩ <;> norm_num [morningSso]; linarith

/-- An orbit of eccentricity 0.1, 800 km up. -/
noncomputable def mildKeplerian : Keplerian := ⟨⟨800000, 200, 1600000000000000, 63.4, 20⟩, 0.1, 270⟩

theorem mildKeplerian_valid : Keplerian.Valid mildKeplerian := by
  refine ⟨⟨⟨?_, ?_⟩, ⟨?_, ?_⟩, ?_, ?_⟩, ?_, ?_, ?_⟩ <;> norm_num [mildKeplerian]

/-- A Tundra orbit of eccentricity 0.2. -/
noncomputable def sampleTundra : Tundra := ⟨24000000, 180, 1600000000000000, 63.4, 20, 86400, 270, 0.2⟩

theorem sampleTundra_valid : Tundra.Valid sampleTundra := by
  refine ⟨⟨?_, ?_⟩, ⟨?_, ?_⟩, ⟨?_, ?_⟩, ?_, ⟨?_, ?_⟩, ?_⟩ <;> norm_num [sampleTundra]

theorem sample_year : TwoDigitYear 1600000000000000 := ⟨by norm_num, by norm_num⟩

/-- C90, C91 and C149 speak of `morningSso`. -/
example (sun : Int → ℝ) : ∃ l1 l2 mm, morningSso.toTle sampleEx sampleEpoch sun = .ok [l1, l2] ∧
    Orbit.meanMotion 700000 = .ok mm ∧
    Describes sampleEpoch l1 l2 1600000000000000 morningSso.inclination (morningSso.raan sun) 0 0 45 mm :=
  C90_sun_synchronous sample_exporter sun morningSso morningSso_valid sample_year

example (sun : Int → ℝ) : ∃ l1 l2 q p, morningSso.toTle sampleEx sampleEpoch sun = .ok [l1, l2] ∧
    getMeanMotion l2 = .ok q ∧ |tleAltitude q - 700000| ≤ 1 ∧ tleOrbitPeriod q = .ok p ∧
    |p - orbitPeriod 700000| ≤ 500 :=
  C91_sun_synchronous sample_exporter sun morningSso morningSso_valid sample_year

example (sun : Int → ℝ) : ∃ l1 l2 x, morningSso.toTle sampleEx sampleEpoch sun = .ok [l1, l2] ∧
    getTrueAnomaly l2 = .ok x ∧ |x - 45| ≤ 1 / 10000 :=
  C149_sun_synchronous sample_exporter sun morningSso morningSso_valid sample_year

/-- And of a circular orbit 500 km up. -/
example : ∃ l1 l2 q p, Circular.toTle sampleEx sampleEpoch ⟨500000, 120, 1600000000000000, 51.6, 10⟩ = .ok [l1, l2] ∧
    getMeanMotion l2 = .ok q ∧ |tleAltitude q - 500000| ≤ 1 ∧ tleOrbitPeriod q = .ok p ∧
    |p - orbitPeriod 500000| ≤ 500 :=
  C91_circular sample_exporter ⟨500000, 120, 1600000000000000, 51.6, 10⟩
    (by refine ⟨⟨?_, ?_⟩, ⟨?_, ?_⟩, ?_, ?_⟩ <;> norm_num) (by norm_num) (by norm_num) sample_year

example : ∃ l1 l2 x, Circular.toTle sampleEx sampleEpoch ⟨500000, 120, 1600000000000000, 51.6, 10⟩ = .ok [l1, l2] ∧
    getTrueAnomaly l2 = .ok x ∧ |x - 120| ≤ 1 / 10000 :=
  C149_circular sample_exporter ⟨500000, 120, 1600000000000000, 51.6, 10⟩
    (by refine ⟨⟨?_, ?_⟩, ⟨?_, ?_⟩, ?_, ?_⟩ <;> norm_num) (by norm_num) sample_year

/-- And of `mildKeplerian`. -/
example : ∃ l1 l2 mm, mildKeplerian.toTle sampleEx sampleEpoch = .ok [l1, l2] ∧ Orbit.meanMotion 800000 = .ok mm ∧
    Describes sampleEpoch l1 l2 1600000000000000 63.4 20 0.1 270 mildKeplerian.meanAnomaly mm :=
  C90_keplerian_partial sample_exporter mildKeplerian mildKeplerian_valid (by norm_num [mildKeplerian])
    (by norm_num [mildKeplerian]) sample_year

example : ∃ l1 l2 q p, mildKeplerian.toTle sampleEx sampleEpoch = .ok [l1, l2] ∧ getMeanMotion l2 = .ok q ∧
    |tleAltitude q - 800000| ≤ 1 ∧ tleOrbitPeriod q = .ok p ∧ |p - orbitPeriod 800000| ≤ 500 :=
  C91_keplerian_partial sample_exporter mildKeplerian mildKeplerian_valid (by norm_num [mildKeplerian])
    (by norm_num [mildKeplerian]) (by norm_num [mildKeplerian]) sample_year

/-- C90 and C92 speak of the Molniya orbit of default period, whose eccentricity is between 0.7 and 3/4, and C90 of
`sampleTundra`. -/
example : ∃ l1 l2, defaultMolniya.toTle sampleEx sampleEpoch = .ok [l1, l2] ∧
    Describes sampleEpoch l1 l2 0 63.4 0 defaultMolniya.eccentricity 270 defaultMolniya.meanAnomaly (86400 / 43080) :=
  C90_molniya_partial sample_exporter defaultMolniya defaultMolniya_valid
    (by linarith [defaultMolniya_eccentricity.1]) defaultMolniya_eccentricity.2 (by norm_num [defaultMolniya])
    ⟨by norm_num [defaultMolniya], by norm_num [defaultMolniya]⟩

example : defaultMolniya.semimajorAxis * (1 - defaultMolniya.eccentricity) = equatorialRadius + 500000 :=
  (C92_molniya defaultMolniya defaultMolniya_valid).1

example : ∃ l1 l2, sampleTundra.toTle sampleEx sampleEpoch = .ok [l1, l2] ∧
    Describes sampleEpoch l1 l2 1600000000000000 63.4 20 0.2 270 sampleTundra.meanAnomaly (86400 / 86400) :=
  C90_tundra_partial sample_exporter sampleTundra sampleTundra_valid (by norm_num [sampleTundra])
    (by norm_num [sampleTundra]) sample_year

/-- C94 away from nadir, one mean radius up: the boresight meets the ground 20 degrees from the point below, and a
swath of 20 degrees of the ground lies around that place. -/
example : ∃ look l eta1 eta2 : ℝ, 0 ≤ look ∧ 0 < l ∧ Below meanRadius 0 ∧
    SeenAt meanRadius 0 (look / 2 * Real.pi / 180) l ∧
    SeenAt meanRadius 0 eta1 (l - meanRadius * (Real.pi / 9) / 2 / (meanRadius + 0)) ∧
    SeenAt meanRadius 0 eta2 (l + meanRadius * (Real.pi / 9) / 2 / (meanRadius + 0)) := by
  have hR : 0 < meanRadius := meanRadius_pos
  have hpi := Real.pi_pos
  have hB : Below meanRadius 0 := ⟨by linarith, hR⟩
  have e : meanRadius * (Real.pi / 9) / 2 / (meanRadius + 0) = Real.pi / 18 := by rw [add_zero]; field_simp; norm_num
  have hor : ∀ l : ℝ, 0 ≤ l → l ≤ Real.pi / 3 → meanRadius + 0 ≤ (meanRadius + meanRadius) * Real.cos l := by
    intro l h0 h1
    have : Real.cos (Real.pi / 3) ≤ Real.cos l := Real.cos_le_cos_of_nonneg_of_le_pi h0 (by linarith) h1
    rw [Real.cos_pi_div_three] at this
    nlinarith
  have s0 := seenAt_exists hB (l := Real.pi / 9) ⟨by linarith, by linarith⟩ (hor _ (by linarith) (by linarith))
  have s1 := seenAt_exists hB (l := Real.pi / 9 - Real.pi / 18) ⟨by linarith, by linarith⟩
    (hor _ (by linarith) (by linarith))
  have s2 := seenAt_exists hB (l := Real.pi / 9 + Real.pi / 18) ⟨by linarith, by linarith⟩
    (hor _ (by linarith) (by linarith))
  obtain ⟨hk0, hk1⟩ := sinRho_range hB
  refine ⟨Real.arctan (sinRho meanRadius 0 * Real.sin (Real.pi / 9) / (1 - sinRho meanRadius 0 * Real.cos (Real.pi / 9)))
    * 180 / Real.pi * 2, Real.pi / 9, _, _, ?_, by linarith, hB, ?_, by rw [e]; exact s1, by rw [e]; exact s2⟩
  · have h1 : 0 ≤ Real.sin (Real.pi / 9) := Real.sin_nonneg_of_nonneg_of_le_pi (by linarith) (by linarith)
    have h2 : 0 < 1 - sinRho meanRadius 0 * Real.cos (Real.pi / 9) := by
      nlinarith [Real.cos_le_one (Real.pi / 9), Real.neg_one_le_cos (Real.pi / 9)]
    have : 0 ≤ Real.arctan (sinRho meanRadius 0 * Real.sin (Real.pi / 9) /
        (1 - sinRho meanRadius 0 * Real.cos (Real.pi / 9))) := by
      rw [Real.arctan_nonneg]; positivity
    positivity
  · have : ∀ x : ℝ, x * 180 / Real.pi * 2 / 2 * Real.pi / 180 = x := by intro x; field_simp
    rw [this]; exact s0

/-- C120 for a field of regard of 60 degrees, a satellite one mean radius up, and a place on its horizon. -/
example : (groundDistance oneUp onHorizon ≤ getSwathWidth 60 meanRadius / 2 ↔
    ElevationAtLeast 0 oneUp onHorizon ∧ OffNadirAtMost (60 / 2) oneUp onHorizon) :=
  C120_regard 60 meanRadius oneUp onHorizon meanRadius_pos (by norm_num) (by norm_num) oneUp_len onHorizon_len

example : (groundDistance oneUp onHorizon ≤ forToSwath meanRadius 60 0 / 2 ↔
    ElevationAtLeast (minElevation meanRadius 60 0) oneUp onHorizon) :=
  C120_swath_elevation meanRadius 60 0 oneUp onHorizon ⟨by linarith [meanRadius_pos], meanRadius_pos⟩ (by norm_num)
    (by norm_num) oneUp_len (by rw [add_zero]; exact onHorizon_len)

/-- C33 for the orbits of default period: by half a turn of the node. -/
example : ∃ d, defaultMolniya.derived 0 180 = .ok d ∧ d.period = 43080 ∧ d.raan = 180 := by
  refine ⟨⟨500000, 0, 0, 63.4, 180, 43080, 270⟩, ?_, rfl, rfl⟩
  have h1 := meanToTrue_at_zero defaultMolniya.eccentricity
  have h2 : npMod (0 + 180) 360 = 180 := by
    rw [zero_add]; exact npMod_self_of_range (by norm_num) (by norm_num)
  unfold Molniya.derived
  rw [molniya_make_ok]
  have e : meanToTrue (npMod (trueToMean defaultMolniya.trueAnomaly defaultMolniya.eccentricity + 0) 360)
      defaultMolniya.eccentricity = 0 := h1
  have e2 : npMod (defaultMolniya.raan + 180) 360 = 180 := h2
  rw [e, e2]
  refine ⟨?_, ?_, ?_, ?_, ?_, rfl⟩ <;> norm_num [defaultMolniya]

example : ∃ d, Tundra.derived ⟨24000000, 0, 0, 63.4, 0, 86400, 270, 0.2⟩ 0 180 = .ok d ∧ d.period = 86400 ∧
    d.raan = 180 := by
  refine ⟨⟨24000000, 0, 0, 63.4, 180, 86400, 270, 0.2⟩, ?_, rfl, rfl⟩
  have h2 : npMod (0 + 180) 360 = 180 := by
    rw [zero_add]; exact npMod_self_of_range (by norm_num) (by norm_num)
  unfold Tundra.derived
  rw [tundra_make_ok]
  simp only [meanToTrue_at_zero, h2]
  refine ⟨?_, ?_, ?_, ?_, ?_, ?_, rfl⟩ <;> norm_num

end Tatc.Props
