import Verif.Model.Orbit
import Verif.Lemmas.Real
import Verif.Lemmas.ExceptList
import Verif.Spec.Angle
import Mathlib.Analysis.Real.Pi.Bounds

/-!
# C31, C32, C33: derived orbits
-/

namespace Tatc.Props
open Tatc.Num Tatc.Orbit Tatc.Spec
open scoped Classical

theorem meanToTrue_zero (x : ℝ) : meanToTrue x 0 = x := by
  unfold meanToTrue; simp [degrees_radians]

theorem trueToMean_zero (x : ℝ) : trueToMean x 0 = x := by
  unfold trueToMean; simp [degrees_radians]

theorem circular_make_ok (a t : ℝ) (e : Int) (i r : ℝ) (o : Circular) :
    Circular.make a t e i r = .ok o ↔
      (0 ≤ t ∧ t < 360) ∧ (0 ≤ i ∧ i < 180) ∧ (0 ≤ r ∧ r < 360) ∧ o = ⟨a, t, e, i, r⟩ := by
  unfold Circular.make
  simp only [bind_eq_ok, require_eq_ok, pure, Except.pure, Except.ok.injEq]
  constructor
  · rintro ⟨_, h1, _, h2, _, h3, h4⟩; exact ⟨h1, h2, h3, h4.symm⟩
  · rintro ⟨h1, h2, h3, h4⟩; exact ⟨(), h1, (), h2, (), h3, h4.symm⟩

/-- An orbit the schema accepts. -/
def Circular.Valid (o : Circular) : Prop :=
  InTurn o.trueAnomaly ∧ (0 ≤ o.inclination ∧ o.inclination < 180) ∧ InTurn o.raan

/-- Accepted orbits are exactly the valid ones. -/
theorem circular_valid_iff (o : Circular) :
    Circular.Valid o ↔ Circular.make o.altitude o.trueAnomaly o.epoch o.inclination o.raan = .ok o := by
  rw [circular_make_ok]
  exact ⟨fun h => ⟨h.1, h.2.1, h.2.2, rfl⟩, fun h => ⟨h.1, h.2.1, h.2.2.1⟩⟩

theorem derived_eq (o : Circular) (dM dR : ℝ) (hi : 0 ≤ o.inclination ∧ o.inclination < 180) :
    o.derived dM dR = .ok ⟨o.altitude, npMod (o.trueAnomaly + dM) 360, o.epoch, o.inclination,
      npMod (o.raan + dR) 360⟩ := by
  unfold Circular.derived
  rw [meanToTrue_zero, trueToMean_zero, circular_make_ok]
  exact ⟨⟨npMod_nonneg _ (by norm_num), npMod_lt _ (by norm_num)⟩, hi,
    ⟨npMod_nonneg _ (by norm_num), npMod_lt _ (by norm_num)⟩, rfl⟩

theorem npMod_sameAngle (a : ℝ) : SameAngle (npMod a 360) a := npMod_spec a 360

theorem npMod_inTurn (a : ℝ) : InTurn (npMod a 360) :=
  ⟨npMod_nonneg _ (by norm_num), npMod_lt _ (by norm_num)⟩

/-- What a derived circular orbit is: same altitude, inclination and epoch, angles increased and
brought into one turn. -/
def DerivedFrom (altitude inclination anomaly raan : ℝ) (epoch : Int) (dM dRaan : ℝ) (d : Circular) : Prop :=
  d.altitude = altitude ∧ d.inclination = inclination ∧ d.epoch = epoch ∧
    InTurn d.trueAnomaly ∧ SameAngle d.trueAnomaly (anomaly + dM) ∧
    InTurn d.raan ∧ SameAngle d.raan (raan + dRaan)

/-- C31, circular orbits: deriving succeeds and gives the increased angles. -/
theorem C31_circular (o : Circular) (hv : Circular.Valid o) (dM dRaan : ℝ) :
    ∃ d, o.derived dM dRaan = .ok d ∧ Circular.Valid d ∧
      DerivedFrom o.altitude o.inclination o.trueAnomaly o.raan o.epoch dM dRaan d :=
  ⟨_, derived_eq o dM dRaan hv.2.1, ⟨npMod_inTurn _, hv.2.1, npMod_inTurn _⟩, rfl, rfl, rfl, npMod_inTurn _,
    npMod_sameAngle _, npMod_inTurn _, npMod_sameAngle _⟩

/-- C31: deriving twice is deriving once by the sums. -/
theorem C31_compose (o d : Circular) (hv : Circular.Valid o) (a b a' b' : ℝ) (h : o.derived a b = .ok d) :
    d.derived a' b' = o.derived (a + a') (b + b') := by
  rw [derived_eq o a b hv.2.1, Except.ok.injEq] at h
  subst h
  rw [derived_eq o _ _ hv.2.1, derived_eq _ _ _ (by exact hv.2.1)]
  simp only [npMod_add_npMod _ _ (by norm_num : (0 : ℝ) < 360), add_assoc]

/-- C31: deriving by zero is the identity. -/
theorem C31_zero (o : Circular) (hv : Circular.Valid o) : o.derived 0 0 = .ok o := by
  rw [derived_eq o 0 0 hv.2.1, add_zero, add_zero, npMod_self_of_range hv.1.1 hv.1.2,
    npMod_self_of_range hv.2.2.1 hv.2.2.2]

example : Circular.Valid ⟨500000, 350, 0, 51.6, 10⟩ := by
  refine ⟨⟨?_, ?_⟩, ⟨?_, ?_⟩, ?_, ?_⟩ <;> norm_num
/-- Across the end of the turn: 350 + 20 is 10. -/
example : ∃ d, Circular.derived ⟨500000, 350, 0, 51.6, 10⟩ 20 0 = .ok d ∧ d.trueAnomaly = 10 := by
  refine ⟨_, derived_eq _ _ _ (by norm_num), ?_⟩
  show npMod (350 + 20) 360 = 10
  rw [show (350 + 20 : ℝ) = 10 + 360 * (1 : ℤ) by norm_num, npMod_eq_of_add _ (by norm_num),
    npMod_self_of_range (by norm_num) (by norm_num)]

/-! ### Sun-synchronous orbits -/

/-- A sun-synchronous orbit the schema accepts. -/
def Sso.Valid (o : Sso) : Prop :=
  InTurn o.trueAnomaly ∧ 0 ≤ o.altitude ∧ o.altitude < 12352000 - meanRadius

theorem sso_inclination_range (o : Sso) (hv : Sso.Valid o) : 90 < o.inclination ∧ o.inclination < 180 := by
  obtain ⟨-, h0, h1⟩ := hv
  have hR := meanRadius_pos
  have hx0 : 0 < (meanRadius + o.altitude) / 12352000 := by positivity
  have hx1 : (meanRadius + o.altitude) / 12352000 < 1 := by
    rw [div_lt_one (by norm_num)]; linarith
  have hp0 : 0 < ((meanRadius + o.altitude) / 12352000) ^ (7 / 2 : ℝ) := Real.rpow_pos_of_pos hx0 _
  have hp1 : ((meanRadius + o.altitude) / 12352000) ^ (7 / 2 : ℝ) < 1 :=
    Real.rpow_lt_one hx0.le hx1 (by norm_num)
  have hpi := Real.pi_pos
  unfold Sso.inclination degrees
  set p := ((meanRadius + o.altitude) / 12352000) ^ (7 / 2 : ℝ)
  have h2 : Real.pi / 2 < Real.arccos (-p) := by
    rw [Real.arccos_neg]
    have : Real.arccos p < Real.pi / 2 := Real.arccos_lt_pi_div_two.mpr hp0
    linarith
  have h3 : Real.arccos (-p) < Real.pi := by
    rw [Real.arccos_neg]
    have : 0 < Real.arccos p := Real.arccos_pos.mpr hp1
    linarith
  have hk : 0 < 180 / Real.pi := by positivity
  constructor
  · calc (90 : ℝ) = Real.pi / 2 * (180 / Real.pi) := by field_simp; norm_num
      _ < _ := mul_lt_mul_of_pos_right h2 hk
  · calc Real.arccos (-p) * (180 / Real.pi) < Real.pi * (180 / Real.pi) := mul_lt_mul_of_pos_right h3 hk
      _ = 180 := by field_simp

theorem sso_derived_eq (sun : Int → ℝ) (o : Sso) (hv : Sso.Valid o) (dM dR : ℝ) :
    o.derived sun dM dR = .ok ⟨o.altitude, npMod (o.trueAnomaly + dM) 360, o.epoch, o.inclination,
      npMod (o.raan sun + dR) 360⟩ := by
  unfold Sso.derived
  rw [meanToTrue_zero, trueToMean_zero, circular_make_ok]
  have := sso_inclination_range o hv
  exact ⟨npMod_inTurn _, ⟨by linarith, this.2⟩, npMod_inTurn _, rfl⟩

/-- C31, sun-synchronous orbits (the result is a circular orbit with the same elements). -/
theorem C31_sso (sun : Int → ℝ) (o : Sso) (hv : Sso.Valid o) (dM dRaan : ℝ) :
    ∃ d, o.derived sun dM dRaan = .ok d ∧ Circular.Valid d ∧
      DerivedFrom o.altitude o.inclination o.trueAnomaly (o.raan sun) o.epoch dM dRaan d := by
  have hi := sso_inclination_range o hv
  exact ⟨_, sso_derived_eq sun o hv dM dRaan, ⟨npMod_inTurn _, ⟨by linarith, hi.2⟩, npMod_inTurn _⟩, rfl, rfl, rfl,
    npMod_inTurn _, npMod_sameAngle _, npMod_inTurn _, npMod_sameAngle _⟩

/-- C31: deriving again from the derived orbit. -/
theorem C31_sso_compose (sun : Int → ℝ) (o : Sso) (hv : Sso.Valid o) (d : Circular) (a b a' b' : ℝ)
    (h : o.derived sun a b = .ok d) : d.derived a' b' = o.derived sun (a + a') (b + b') := by
  have hi := sso_inclination_range o hv
  rw [sso_derived_eq sun o hv, Except.ok.injEq] at h
  subst h
  rw [derived_eq _ _ _ ⟨by show 0 ≤ o.inclination; linarith, hi.2⟩, sso_derived_eq sun o hv]
  simp only [npMod_add_npMod _ _ (by norm_num : (0 : ℝ) < 360), add_assoc]

example : Sso.Valid ⟨700000, 0, 0, 0.5, true⟩ := by
  have := meanRadius_lt
  refine ⟨⟨?_, ?_⟩, ?_, ?_⟩
  · norm_num
  · norm_num
  · norm_num
  · show (700000 : ℝ) < 12352000 - meanRadius; linarith

/-! ## C32 -/

/-- The series in radians. -/
noncomputable def series (e m : ℝ) : ℝ :=
  m + (2 * e - 1 / 4 * e ^ 3) * Real.sin m + 5 / 4 * e ^ 2 * Real.sin (2 * m) +
    13 / 12 * e ^ 3 * Real.sin (3 * m)

theorem meanToTrue_series (x e : ℝ) : meanToTrue x e = degrees (series e (radians x)) := rfl

/-- The factor of the sine. -/
theorem series_eq (e m : ℝ) : series e m = m + Real.sin m *
    (2 * e - 4 / 3 * e ^ 3 + 5 / 2 * e ^ 2 * Real.cos m + 13 / 3 * e ^ 3 * Real.cos m ^ 2) := by
  unfold series
  have h := Real.sin_sq_add_cos_sq m
  rw [Real.sin_two_mul, Real.sin_three_mul]
  linear_combination (-13 / 3 * e ^ 3 * Real.sin m) * h

theorem series_lower (e m : ℝ) (he0 : 0 ≤ e) (he1 : e ≤ 1) (hm0 : 0 ≤ m) (hm1 : m ≤ Real.pi) :
    m ≤ series e m := by
  have hs := Real.sin_nonneg_of_nonneg_of_le_pi hm0 hm1
  rw [series_eq]
  have hB : 0 ≤ 2 * e - 4 / 3 * e ^ 3 + 5 / 2 * e ^ 2 * Real.cos m + 13 / 3 * e ^ 3 * Real.cos m ^ 2 := by
    have : 2 * e - 4 / 3 * e ^ 3 + 5 / 2 * e ^ 2 * Real.cos m + 13 / 3 * e ^ 3 * Real.cos m ^ 2 =
        e * (2 - 4 / 3 * e ^ 2 + 5 / 2 * (e * Real.cos m) + 13 / 3 * (e * Real.cos m) ^ 2) := by ring
    rw [this]
    apply mul_nonneg he0
    nlinarith [sq_nonneg (e * Real.cos m + 15 / 52)]
  have := mul_nonneg hs hB
  linarith

theorem sin_cos_sq (s c : ℝ) (h : s ^ 2 + c ^ 2 = 1) (hs : 0 ≤ s) : s * c ^ 2 ≤ 2 / 5 := by
  have hc : c ^ 2 = 1 - s ^ 2 := by linarith
  rw [hc]
  nlinarith [mul_nonneg (sq_nonneg (s - 0.577)) (by linarith : (0 : ℝ) ≤ s + 1.154)]

theorem series_upper (e m : ℝ) (he0 : 0 ≤ e) (he1 : e ≤ 1) (hm0 : 0 ≤ m) (hm1 : m ≤ Real.pi) :
    series e m < 2 * Real.pi := by
  have hs := Real.sin_nonneg_of_nonneg_of_le_pi hm0 hm1
  have hs1 := Real.sin_le_one m
  have hsc := Real.sin_sq_add_cos_sq m
  have hpi := Real.pi_gt_d2
  rw [series_eq]
  set s := Real.sin m
  set c := Real.cos m with hc
  have h1 : 2 * e - 4 / 3 * e ^ 3 ≤ 0.95 := by
    nlinarith [mul_nonneg (sq_nonneg (e - 0.7071)) (by linarith : (0 : ℝ) ≤ e + 1.4142)]
  have h1' : s * (2 * e - 4 / 3 * e ^ 3) ≤ 0.95 := by
    by_cases h : 0 ≤ 2 * e - 4 / 3 * e ^ 3
    · calc s * (2 * e - 4 / 3 * e ^ 3) ≤ 1 * (2 * e - 4 / 3 * e ^ 3) := mul_le_mul_of_nonneg_right hs1 h
        _ ≤ 0.95 := by linarith
    · have := mul_nonpos_of_nonneg_of_nonpos hs (by linarith : 2 * e - 4 / 3 * e ^ 3 ≤ 0)
      linarith
  have he3 : e ^ 3 ≤ 1 := pow_le_one₀ he0 he1
  have he2 : e ^ 2 ≤ 1 := pow_le_one₀ he0 he1
  have he3' : 0 ≤ e ^ 3 := by positivity
  have he2' : 0 ≤ e ^ 2 := by positivity
  have h3 : s * (13 / 3 * e ^ 3 * c ^ 2) ≤ 26 / 15 := by
    have hk := sin_cos_sq s c hsc hs
    have hk0 : 0 ≤ s * c ^ 2 := by positivity
    have : e ^ 3 * (s * c ^ 2) ≤ 1 * (2 / 5) := mul_le_mul he3 hk hk0 (by norm_num)
    nlinarith
  rcases le_total m (Real.pi / 2) with hq | hq
  · have hcn : 0 ≤ c := Real.cos_nonneg_of_neg_pi_div_two_le_of_le (by linarith) hq
    have h2 : s * (5 / 2 * e ^ 2 * c) ≤ 5 / 4 := by
      have hk : s * c ≤ 1 / 2 := by nlinarith [sq_nonneg (s - c)]
      have hk0 : 0 ≤ s * c := mul_nonneg hs hcn
      have : e ^ 2 * (s * c) ≤ 1 * (1 / 2) := mul_le_mul he2 hk hk0 (by norm_num)
      nlinarith
    nlinarith
  · have hcn : c ≤ 0 := Real.cos_nonpos_of_pi_div_two_le_of_le hq (by linarith)
    have h2 : s * (5 / 2 * e ^ 2 * c) ≤ 0 :=
      mul_nonpos_of_nonneg_of_nonpos hs (mul_nonpos_of_nonneg_of_nonpos (by positivity) hcn)
    nlinarith

theorem series_reflect (e m : ℝ) : series e (2 * Real.pi - m) = 2 * Real.pi - series e m := by
  rw [series_eq, series_eq, Real.sin_two_pi_sub, Real.cos_two_pi_sub]
  ring

theorem series_range (e m : ℝ) (he0 : 0 ≤ e) (he1 : e ≤ 1) (hm0 : 0 ≤ m) (hm1 : m < 2 * Real.pi) :
    0 ≤ series e m ∧ series e m < 2 * Real.pi := by
  rcases le_total m Real.pi with h | h
  · exact ⟨le_trans hm0 (series_lower e m he0 he1 hm0 h), series_upper e m he0 he1 hm0 h⟩
  · have h1 := series_lower e (2 * Real.pi - m) he0 he1 (by linarith) (by linarith)
    have h2 := series_upper e (2 * Real.pi - m) he0 he1 (by linarith) (by linarith)
    rw [series_reflect] at h1 h2
    constructor <;> linarith

/-- The conversion keeps one turn, for eccentricities up to one. -/
theorem meanToTrue_inTurn (x e : ℝ) (he0 : 0 ≤ e) (he1 : e ≤ 1) (hx : InTurn x) : InTurn (meanToTrue x e) := by
  have hpi := Real.pi_pos
  have hr0 : 0 ≤ radians x := mul_nonneg hx.1 (by positivity)
  have hr1 : radians x < 2 * Real.pi := by
    unfold radians
    calc x * (Real.pi / 180) < 360 * (Real.pi / 180) := mul_lt_mul_of_pos_right hx.2 (by positivity)
      _ = 2 * Real.pi := by ring
  obtain ⟨h0, h1⟩ := series_range e _ he0 he1 hr0 hr1
  rw [meanToTrue_series]
  unfold degrees
  refine ⟨mul_nonneg h0 (by positivity), ?_⟩
  calc series e (radians x) * (180 / Real.pi) < 2 * Real.pi * (180 / Real.pi) :=
        mul_lt_mul_of_pos_right h1 (by positivity)
    _ = 360 := by field_simp; norm_num

/-- A Keplerian orbit the schema accepts: the eccentricity has no upper bound. -/
def Keplerian.Valid (o : Keplerian) : Prop :=
  Circular.Valid o.toCircular ∧ 0 ≤ o.eccentricity ∧ InTurn o.perigee

theorem keplerian_make_ok (a t : ℝ) (ep : Int) (i r e p : ℝ) (o : Keplerian) :
    Keplerian.make a t ep i r e p = .ok o ↔
      (0 ≤ t ∧ t < 360) ∧ (0 ≤ i ∧ i < 180) ∧ (0 ≤ r ∧ r < 360) ∧ 0 ≤ e ∧ (0 ≤ p ∧ p < 360) ∧
        o = ⟨⟨a, t, ep, i, r⟩, e, p⟩ := by
  unfold Keplerian.make
  simp only [bind_eq_ok, require_eq_ok, pure, Except.pure, Except.ok.injEq, circular_make_ok]
  constructor
  · rintro ⟨c, ⟨h1, h2, h3, rfl⟩, _, h4, _, h5, h6⟩; exact ⟨h1, h2, h3, h4, h5, h6.symm⟩
  · rintro ⟨h1, h2, h3, h4, h5, h6⟩; exact ⟨_, ⟨h1, h2, h3, rfl⟩, (), h4, (), h5, h6.symm⟩

theorem keplerian_valid_iff (o : Keplerian) : Keplerian.Valid o ↔
    Keplerian.make o.altitude o.trueAnomaly o.epoch o.inclination o.raan o.eccentricity o.perigee = .ok o := by
  rw [keplerian_make_ok]
  exact ⟨fun h => ⟨h.1.1, h.1.2.1, h.1.2.2, h.2.1, h.2.2, rfl⟩,
    fun h => ⟨⟨h.1, h.2.1, h.2.2.1⟩, h.2.2.2.1, h.2.2.2.2.1⟩⟩

/-- C32, full statement: deriving from any accepted Keplerian orbit succeeds.  Proved for
eccentricities up to one; it is false beyond (below). -/
theorem C32_derived_valid_partial (o : Keplerian) (hv : Keplerian.Valid o) (he : o.eccentricity ≤ 1)
    (dM dRaan : ℝ) :
    ∃ d, o.derived dM dRaan = .ok d ∧ Keplerian.Valid d ∧
      d.altitude = o.altitude ∧ d.inclination = o.inclination ∧ d.epoch = o.epoch ∧
      d.eccentricity = o.eccentricity ∧ d.perigee = o.perigee ∧ SameAngle d.raan (o.raan + dRaan) := by
  have ht := meanToTrue_inTurn _ _ hv.2.1 he (npMod_inTurn (o.meanAnomaly + dM))
  refine ⟨_, (keplerian_make_ok _ _ _ _ _ _ _ _).mpr
    ⟨ht, hv.1.2.1, npMod_inTurn _, hv.2.1, hv.2.2, rfl⟩, ⟨⟨ht, hv.1.2.1, npMod_inTurn _⟩, hv.2⟩,
    rfl, rfl, rfl, rfl, rfl, npMod_sameAngle _⟩

example : Keplerian.Valid ⟨⟨500000, 120, 0, 51.6, 10⟩, 0.7, 270⟩ := by
  refine ⟨⟨⟨?_, ?_⟩, ⟨?_, ?_⟩, ?_, ?_⟩, ?_, ?_, ?_⟩ <;> norm_num

/-- An accepted orbit with eccentricity 2 from which deriving fails: the true anomaly is negative. -/
theorem C32_derived_valid_false :
    ∃ o : Keplerian, Keplerian.Valid o ∧ o.derived 90 0 = .error .validationError := by
  refine ⟨⟨⟨0, 0, 0, 0, 0⟩, 2, 0⟩, ?_, ?_⟩
  · refine ⟨⟨⟨?_, ?_⟩, ⟨?_, ?_⟩, ?_, ?_⟩, ?_, ?_, ?_⟩ <;> norm_num
  · have hpi := Real.pi_lt_d2
    have hpos := Real.pi_pos
    have hM : Keplerian.meanAnomaly ⟨⟨0, 0, 0, 0, 0⟩, 2, 0⟩ = 0 := by
      simp [Keplerian.meanAnomaly, trueToMean, radians, degrees]
    have hmod : npMod (Keplerian.meanAnomaly ⟨⟨0, 0, 0, 0, 0⟩, 2, 0⟩ + 90) 360 = 90 := by
      rw [hM, zero_add, npMod_self_of_range (by norm_num) (by norm_num)]
    have hr : radians 90 = Real.pi / 2 := by unfold radians; ring
    have hneg : meanToTrue 90 2 < 0 := by
      rw [meanToTrue_series, hr, series_eq, Real.sin_pi_div_two, Real.cos_pi_div_two]
      unfold degrees
      apply mul_neg_of_neg_of_pos
      · norm_num; linarith
      · positivity
    unfold Keplerian.derived
    rw [hmod]
    unfold Keplerian.make Circular.make require
    rw [if_neg (by push Not; intro h; linarith)]
    rfl

/-! ## C33 -/

theorem molniya_make_ok (a t : ℝ) (ep : Int) (i r : ℝ) (per : Option ℝ) (p : ℝ) (o : Molniya) :
    Molniya.make a t ep i r per p = .ok o ↔
      (0 ≤ t ∧ t < 360) ∧ (0 ≤ i ∧ i < 180) ∧ (0 ≤ r ∧ r < 360) ∧ 0 < per.getD 43080 ∧ (0 ≤ p ∧ p < 360) ∧
        o = ⟨a, t, ep, i, r, per.getD 43080, p⟩ := by
  unfold Molniya.make
  simp only [bind_eq_ok, require_eq_ok, pure, Except.pure, Except.ok.injEq]
  constructor
  · rintro ⟨_, h1, _, h2, _, h3, _, h4, _, h5, h6⟩; exact ⟨h1, h2, h3, h4, h5, h6.symm⟩
  · rintro ⟨h1, h2, h3, h4, h5, h6⟩; exact ⟨(), h1, (), h2, (), h3, (), h4, (), h5, h6.symm⟩

theorem tundra_make_ok (a t : ℝ) (ep : Int) (i r : ℝ) (per : Option ℝ) (p e : ℝ) (o : Tundra) :
    Tundra.make a t ep i r per p e = .ok o ↔
      (0 ≤ t ∧ t < 360) ∧ (0 ≤ i ∧ i < 180) ∧ (0 ≤ r ∧ r < 360) ∧ 0 < per.getD 86400 ∧ (0 ≤ p ∧ p < 360) ∧
        0 ≤ e ∧ o = ⟨a, t, ep, i, r, per.getD 86400, p, e⟩ := by
  unfold Tundra.make
  simp only [bind_eq_ok, require_eq_ok, pure, Except.pure, Except.ok.injEq]
  constructor
  · rintro ⟨_, h1, _, h2, _, h3, _, h4, _, h5, _, h6, h7⟩; exact ⟨h1, h2, h3, h4, h5, h6, h7.symm⟩
  · rintro ⟨h1, h2, h3, h4, h5, h6, h7⟩; exact ⟨(), h1, (), h2, (), h3, (), h4, (), h5, (), h6, h7.symm⟩

/-- C33, full statement: a derived orbit keeps the period as well.  It does exactly when the period is
the default one. -/
theorem C33_molniya_partial (o d : Molniya) (dM dRaan : ℝ) (h : o.derived dM dRaan = .ok d) :
    d.altitude = o.altitude ∧ d.inclination = o.inclination ∧ d.perigee = o.perigee ∧ d.epoch = o.epoch ∧
      (d.period = o.period ↔ o.period = 43080) := by
  unfold Molniya.derived at h
  obtain ⟨-, -, -, -, -, rfl⟩ := (molniya_make_ok _ _ _ _ _ _ _ _).mp h
  exact ⟨rfl, rfl, rfl, rfl, eq_comm⟩

theorem C33_tundra_partial (o d : Tundra) (dM dRaan : ℝ) (h : o.derived dM dRaan = .ok d) :
    d.altitude = o.altitude ∧ d.inclination = o.inclination ∧ d.perigee = o.perigee ∧ d.epoch = o.epoch ∧
      d.eccentricity = o.eccentricity ∧ (d.period = o.period ↔ o.period = 86400) := by
  unfold Tundra.derived at h
  obtain ⟨-, -, -, -, -, -, rfl⟩ := (tundra_make_ok _ _ _ _ _ _ _ _ _).mp h
  exact ⟨rfl, rfl, rfl, rfl, rfl, eq_comm⟩

theorem meanToTrue_at_zero (e : ℝ) : meanToTrue (npMod (trueToMean 0 e + 0) 360) e = 0 := by
  have h1 : trueToMean 0 e = 0 := by simp [trueToMean, radians, degrees]
  have h2 : meanToTrue 0 e = 0 := by simp [meanToTrue, radians, degrees]
  rw [h1, add_zero, npMod_self_of_range (le_refl _) (by norm_num), h2]

/-- Accepted orbits of each kind that lose their period when derived by nothing at all. -/
theorem C33_period_false :
    (∃ o d : Molniya, Molniya.make 0 0 0 0 0 (some 40000) 0 = .ok o ∧ o.derived 0 0 = .ok d ∧
      o.period = 40000 ∧ d.period = 43080) ∧
    (∃ o d : Tundra, Tundra.make 0 0 0 0 0 (some 40000) 0 0 = .ok o ∧ o.derived 0 0 = .ok d ∧
      o.period = 40000 ∧ d.period = 86400) := by
  have hz : npMod (0 + 0 : ℝ) 360 = 0 := by rw [add_zero, npMod_self_of_range (le_refl _) (by norm_num)]
  constructor
  · refine ⟨⟨0, 0, 0, 0, 0, 40000, 0⟩, ⟨0, 0, 0, 0, 0, 43080, 0⟩, ?_, ?_, rfl, rfl⟩
    · rw [molniya_make_ok]; norm_num
    · unfold Molniya.derived
      rw [molniya_make_ok]
      simp only [meanToTrue_at_zero, hz]
      norm_num
  · refine ⟨⟨0, 0, 0, 0, 0, 40000, 0, 0⟩, ⟨0, 0, 0, 0, 0, 86400, 0, 0⟩, ?_, ?_, rfl, rfl⟩
    · rw [tundra_make_ok]; norm_num
    · unfold Tundra.derived
      rw [tundra_make_ok]
      simp only [meanToTrue_at_zero, hz]
      norm_num

end Tatc.Props
