import Verif.Lemmas.Ieee
import Verif.Props.Derived
import Verif.Props.Walker

/-!
# C140, C141: derived orbits and numbers of satellites, computed with double precision numbers
-/

namespace Tatc.Props
open Tatc.Num Tatc.Spec Tatc.Orbit Tatc.Ieee Tatc.Constellation
open scoped Classical

/-! ## C141: satellites in a plane -/

theorem double_nat {n : Nat} (h : n < 2 ^ 53) : IsDouble n := by
  have := double_int (n := (n : ℤ)) (by rw [abs_of_nonneg (by omega)]; exact_mod_cast h)
  exact_mod_cast this

/-- A rounded quotient of positive integers below 2⁵³ has the ceiling of the quotient. -/
theorem ceil_fl_div {a b : Nat} (hb : 1 ≤ b) (hb2 : b < 2 ^ 53) (ha : a < 2 ^ 53) : ⌈fl ((a : ℝ) / b)⌉ = ⌈(a : ℝ) / b⌉ := by
  have hbR : (1 : ℝ) ≤ b := by exact_mod_cast hb
  have hb0 : (0 : ℝ) < b := by linarith
  have haR : (a : ℝ) < 2 ^ 53 := by exact_mod_cast ha
  set m := ⌈(a : ℝ) / b⌉ with hm
  have hm0 : 0 ≤ m := Int.ceil_nonneg (by positivity)
  obtain ⟨h1, h2⟩ := Int.ceil_eq_iff.mp hm.symm
  have hma : m ≤ a := by
    rw [hm, Int.ceil_le, div_le_iff₀ hb0]
    have : (a : ℝ) * 1 ≤ a * b := mul_le_mul_of_nonneg_left hbR (by positivity)
    push_cast
    linarith
  rw [Int.ceil_eq_iff]
  constructor
  · -- the integer below is farther away than rounding reaches
    by_cases hm1 : m ≤ 0
    · have h0 : m = 0 := le_antisymm hm1 hm0
      have := le_fl double_zero (show (0 : ℝ) ≤ (a : ℝ) / b by positivity)
      rw [h0]
      push_cast
      linarith
    push Not at hm1
    have hlt : ((m - 1 : ℤ) : ℝ) * b < a := by
      rw [lt_div_iff₀ hb0] at h1
      push_cast
      exact h1
    have hle : ((m - 1 : ℤ) : ℝ) * b + 1 ≤ a := by
      have : (m - 1) * b < (a : ℤ) := by exact_mod_cast hlt
      have : (m - 1) * b + 1 ≤ (a : ℤ) := by omega
      exact_mod_cast this
    have hpos : 0 < (a : ℝ) / b := by
      have : (0 : ℝ) < m := by exact_mod_cast hm1
      by_contra hle
      push Not at hle
      have : (a : ℝ) / b = 0 := le_antisymm hle (by positivity)
      rw [this] at hm
      simp at hm
      omega
    -- relative error
    have hplace : (2 : ℝ) ^ lastPlace ((a : ℝ) / b) / 2 ≤ (a : ℝ) / b / 2 ^ 53 := by
      have ha1 : (1 : ℝ) ≤ a := by
        have : 0 < a := by
          by_contra h0
          have : a = 0 := by omega
          rw [this] at hpos
          simp at hpos
        exact_mod_cast this
      have hb2R : (b : ℝ) < 2 ^ 53 := by exact_mod_cast hb2
      have hge : (2 : ℝ) ^ (-53 : ℤ) ≤ |(a : ℝ) / b| := by
        rw [abs_of_pos hpos, le_div_iff₀ hb0]
        have e : (2 : ℝ) ^ (-53 : ℤ) = 1 / 2 ^ 53 := by rw [zpow_neg]; norm_num
        rw [e, one_div_mul_eq_div, div_le_iff₀ (by positivity)]
        have : (2 : ℝ) ^ 53 * 1 ≤ 2 ^ 53 * a := mul_le_mul_of_nonneg_left ha1 (by positivity)
        linarith
      have hlp : -53 < lastPlace ((a : ℝ) / b) + 53 :=
        (zpow_lt_zpow_iff_right₀ (by norm_num : (1 : ℝ) < 2)).mp (hge.trans_lt (lt_place _))
      have h1 := place_le hpos.ne' (by omega)
      rw [two_zpow_add, abs_of_pos hpos] at h1
      rw [le_div_iff₀ (by positivity)]
      norm_num at h1 ⊢
      linarith
    have herr := abs_le.mp (fl_error ((a : ℝ) / b))
    have h3 : (a : ℝ) / b / 2 ^ 53 < 1 / b := by
      rw [div_div, mul_comm, ← div_div]
      apply div_lt_div_of_pos_right _ hb0
      rw [div_lt_one (by positivity)]
      exact haR
    have h4 : ((m - 1 : ℤ) : ℝ) + 1 / b ≤ (a : ℝ) / b := by
      rw [le_div_iff₀ hb0, add_mul, one_div_mul_cancel hb0.ne']
      exact hle
    push_cast at h4
    linarith [herr.1]
  · exact_mod_cast fl_le (double_int (n := m) (by rw [abs_of_nonneg hm0]; omega)) h2

/-- C141, full statement: the number of satellites in a plane is the least with which the planes hold all satellites, as
computed with double precision numbers.  Proved for fewer than 2⁵³ satellites: there it is what the model with exact
quotients has. -/
theorem C141_per_plane_partial {I : Type} (w : Walker I) (hw : Walker.Accepted w) (hn : w.satellites < 2 ^ 53) :
    Ieee.satellitesPerPlane w.satellites w.planes = w.satellitesPerPlane ∧
    (w.satellites : ℤ) ≤ w.planes * Ieee.satellitesPerPlane w.satellites w.planes ∧
    ∀ s : ℤ, (w.satellites : ℤ) ≤ w.planes * s → Ieee.satellitesPerPlane w.satellites w.planes ≤ s := by
  obtain ⟨⟨h1, h2⟩, -⟩ := hw
  have hp : (0 : ℝ) < w.planes := by exact_mod_cast h1
  have h := ceil_fl_div h1 (lt_of_le_of_lt h2 hn) hn
  unfold Ieee.satellitesPerPlane
  rw [h]
  refine ⟨?_, ?_, ?_⟩
  · unfold Walker.satellitesPerPlane
    have e : ⌈(w.satellites : ℝ) / w.planes⌉ = ⌈(w.satellites : ℚ) / w.planes⌉ := by
      rw [← Rat.ceil_cast (α := ℝ)]
      push_cast
      rfl
    rw [e, Int.toNat_of_nonneg (Int.ceil_nonneg (by positivity))]
  · have := Int.le_ceil ((w.satellites : ℝ) / w.planes)
    rw [div_le_iff₀ hp] at this
    have : ((w.satellites : ℤ) : ℝ) ≤ ((w.planes * ⌈(w.satellites : ℝ) / w.planes⌉ : ℤ) : ℝ) := by push_cast; linarith
    exact_mod_cast this
  · intro s hs
    rw [Int.ceil_le, div_le_iff₀ hp]
    have : ((w.satellites : ℤ) : ℝ) ≤ ((w.planes * s : ℤ) : ℝ) := by exact_mod_cast hs
    push_cast at this
    linarith

/-- Refuted for larger numbers: one satellite more than 2⁵³ planes would be put at one in each plane. -/
theorem C141_per_plane_false : ∃ w : Walker Unit, Walker.Accepted w ∧ w.satellites = 2 ^ 53 + 1 ∧ w.planes = 2 ^ 53 ∧
    w.planes * Ieee.satellitesPerPlane w.satellites w.planes < w.satellites := by
  refine ⟨⟨[], .circular ⟨500000, 0, 0, 0, 0⟩, (), false, 2 ^ 53 + 1, 2 ^ 53, 0⟩, ⟨⟨by norm_num, by norm_num⟩, by norm_num⟩,
    rfl, rfl, ?_⟩
  show ((2 ^ 53 : ℕ) : ℤ) * Ieee.satellitesPerPlane (2 ^ 53 + 1) (2 ^ 53) < ((2 ^ 53 + 1 : ℕ) : ℤ)
  have h : fl (((2 ^ 53 + 1 : ℕ) : ℝ) / (2 ^ 53 : ℕ)) = 1 := by
    set x := ((2 ^ 53 + 1 : ℕ) : ℝ) / (2 ^ 53 : ℕ) with hx
    have hx1 : x = 1 + 1 / 2 ^ 53 := by rw [hx]; push_cast; norm_num
    have hx0 : 0 < x := by rw [hx1]; positivity
    have hlp : lastPlace x = -52 := by
      apply lastPlace_eq (by norm_num)
      · rw [abs_of_pos hx0, hx1]; norm_num
      · rw [abs_of_pos hx0, hx1]; norm_num
    unfold fl
    rw [hlp]
    have hf : ⌊x / 2 ^ (-52 : ℤ)⌋ = 2 ^ 52 := by rw [Int.floor_eq_iff, hx1]; norm_num
    have : roundHalfEven (x / 2 ^ (-52 : ℤ)) = 2 ^ 52 := by
      unfold roundHalfEven
      simp only
      rw [hf, hx1]
      norm_num
    rw [this]
    norm_num
  unfold Ieee.satellitesPerPlane
  rw [h, Int.ceil_one]
  norm_num

/-- The hypotheses are met. -/
example : Walker.Accepted (⟨[], .circular ⟨500000, 0, 0, 0, 0⟩, (), false, 49, 3, 1⟩ : Walker Unit) ∧ (49 : ℕ) < 2 ^ 53 :=
  ⟨⟨⟨by decide, by decide⟩, by decide⟩, by decide⟩

/-! ## C140: derived orbits -/

theorem double_360 : IsDouble 360 := by
  have := double_int (n := 360) (by norm_num)
  exact_mod_cast this

/-- Double precision numbers below 360 are at least 2⁻⁴⁴ below it. -/
theorem double_lt_360 {z : ℝ} (hz : IsDouble z) (h : z < 360) : z ≤ 360 - 1 / 2 ^ 44 := by
  obtain ⟨m, k, hm, hk, rfl⟩ := hz
  have hm' : (m : ℝ) < 2 ^ 53 := by
    have : m < 2 ^ 53 := (abs_lt.mp hm).2
    exact_mod_cast this
  by_cases h44 : -44 ≤ k
  · -- a multiple of the step
    have e : (m : ℝ) * 2 ^ k = ((m * 2 ^ (k + 44).toNat : ℤ) : ℝ) / 2 ^ 44 := by
      push_cast
      rw [← zpow_natCast (2 : ℝ) (k + 44).toNat, Int.toNat_of_nonneg (by omega), two_zpow_add]
      norm_num
      ring
    rw [e] at h ⊢
    rw [div_lt_iff₀ (by positivity)] at h
    have h' : m * 2 ^ (k + 44).toNat < (360 * 2 ^ 44 : ℤ) := by exact_mod_cast h
    have h'' : m * 2 ^ (k + 44).toNat ≤ (360 * 2 ^ 44 - 1 : ℤ) := by omega
    have : ((m * 2 ^ (k + 44).toNat : ℤ) : ℝ) ≤ ((360 * 2 ^ 44 - 1 : ℤ) : ℝ) := by exact_mod_cast h''
    rw [div_le_iff₀ (by positivity)]
    refine this.trans (le_of_eq ?_)
    push_cast
    norm_num
  · have h1 : (m : ℝ) * 2 ^ k ≤ 256 := by
      have h2 : (2 : ℝ) ^ k ≤ 2 ^ (-45 : ℤ) := two_zpow_le (by omega)
      have hp := two_zpow_pos k
      calc (m : ℝ) * 2 ^ k ≤ 2 ^ 53 * 2 ^ k := mul_le_mul_of_nonneg_right hm'.le hp.le
        _ ≤ 2 ^ 53 * 2 ^ (-45 : ℤ) := mul_le_mul_of_nonneg_left h2 (by positivity)
        _ = 256 := by norm_num
    have : (1 : ℝ) / 2 ^ 44 ≤ 1 := by norm_num
    linarith

/-- The sum with 360 of a negative remainder is 360 exactly when the remainder is tiny. -/
theorem fl_add_360 {r : ℝ} (h2 : r < 0) :
    fl (r + 360) = 360 ↔ -(1 / 2 ^ 45) ≤ r := by
  by_cases hbig : r + 360 < 256
  · have hd : IsDouble 256 := by have := double_int (n := 256) (by norm_num); exact_mod_cast this
    have := fl_le hd hbig.le
    constructor
    · intro h; rw [h] at this; norm_num at this
    · intro h
      have : (1 : ℝ) / 2 ^ 45 < 1 := by norm_num
      linarith
  push Not at hbig
  have hlp : lastPlace (r + 360) = -44 := by
    apply lastPlace_eq (by norm_num)
    · rw [abs_of_pos (by linarith)]; norm_num; linarith
    · rw [abs_of_pos (by linarith)]; norm_num; linarith
  have hfl : fl (r + 360) = roundHalfEven ((r + 360) / 2 ^ (-44 : ℤ)) * 2 ^ (-44 : ℤ) := by
    unfold fl; rw [hlp]
  have hdiv : (r + 360) / 2 ^ (-44 : ℤ) = (r + 360) * 2 ^ 44 := by
    rw [zpow_neg, div_inv_eq_mul]; norm_cast
  rw [hfl, hdiv]
  constructor
  · intro h
    have hR : roundHalfEven ((r + 360) * 2 ^ 44) = 360 * 2 ^ 44 := by
      have : (roundHalfEven ((r + 360) * 2 ^ 44) : ℝ) = ((360 * 2 ^ 44 : ℤ) : ℝ) := by
        have e : (2 : ℝ) ^ (-44 : ℤ) = 1 / 2 ^ 44 := by rw [zpow_neg]; norm_num
        rw [e, mul_one_div, div_eq_iff (by positivity)] at h
        rw [h]; push_cast; ring
      exact_mod_cast this
    have := (abs_le.mp (rhe_error ((r + 360) * 2 ^ 44))).2
    rw [hR] at this
    push_cast at this
    norm_num at this ⊢
    linarith
  · intro h
    have : roundHalfEven ((r + 360) * 2 ^ 44) = 360 * 2 ^ 44 := by
      apply rhe_tie (by norm_num)
      · push_cast; norm_num at h ⊢; linarith
      · push_cast; norm_num; linarith
    rw [this]
    push_cast
    norm_num

/-- A negative angle less than 2⁻⁴⁵ degrees (3·10⁻¹⁴) below a whole number of turns. -/
def JustBelow (a : ℝ) : Prop := a < 0 ∧ ∃ k : ℤ, a < 360 * k ∧ 360 * k ≤ a + 1 / 2 ^ 45

theorem mod360_range (a : ℝ) (ha : IsDouble a) :
    0 ≤ mod360 a ∧ mod360 a ≤ 360 ∧ (mod360 a = 360 ↔ JustBelow a) ∧ (mod360 a < 360 → mod360 a ≤ 360 - 1 / 2 ^ 44) := by
  unfold mod360
  by_cases h0 : 0 ≤ a
  · rw [if_pos h0]
    obtain ⟨h1, h2⟩ := npMod_inTurn a
    refine ⟨h1, h2.le, ⟨fun e => absurd e h2.ne, fun h => absurd h.1 (not_lt.mpr h0)⟩, fun _ => ?_⟩
    -- the remainder is exact
    obtain ⟨m, k, hm, hk, rfl⟩ := ha
    have hm' : (m : ℝ) < 2 ^ 53 := by
      have : m < 2 ^ 53 := (abs_lt.mp hm).2
      exact_mod_cast this
    by_cases h44 : -44 ≤ k
    · have e : npMod ((m : ℝ) * 2 ^ k) 360 =
          ((m * 2 ^ (k + 44).toNat - 360 * 2 ^ 44 * ⌊(m : ℝ) * 2 ^ k / 360⌋ : ℤ) : ℝ) / 2 ^ 44 := by
        unfold npMod
        push_cast
        rw [← zpow_natCast (2 : ℝ) (k + 44).toNat, Int.toNat_of_nonneg (by omega), two_zpow_add, sub_div]
        congr 1
        · norm_num; ring
        · norm_num; ring
      rw [e] at h2 ⊢
      generalize (m * 2 ^ (k + 44).toNat - 360 * 2 ^ 44 * ⌊(m : ℝ) * 2 ^ k / 360⌋ : ℤ) = n at h2 ⊢
      rw [div_lt_iff₀ (by positivity)] at h2
      have h' : n < (360 * 2 ^ 44 : ℤ) := by exact_mod_cast h2
      have h'' : n ≤ (360 * 2 ^ 44 - 1 : ℤ) := by omega
      have : (n : ℝ) ≤ ((360 * 2 ^ 44 - 1 : ℤ) : ℝ) := by exact_mod_cast h''
      rw [div_le_iff₀ (by positivity)]
      refine this.trans (le_of_eq ?_)
      push_cast
      norm_num
    · have h3 : (m : ℝ) * 2 ^ k ≤ 256 := by
        have h2 : (2 : ℝ) ^ k ≤ 2 ^ (-45 : ℤ) := two_zpow_le (by omega)
        have hp := two_zpow_pos k
        calc (m : ℝ) * 2 ^ k ≤ 2 ^ 53 * 2 ^ k := mul_le_mul_of_nonneg_right hm'.le hp.le
          _ ≤ 2 ^ 53 * 2 ^ (-45 : ℤ) := mul_le_mul_of_nonneg_left h2 (by positivity)
          _ = 256 := by norm_num
      rw [npMod_self_of_range h0 (by linarith)]
      have : (1 : ℝ) / 2 ^ 44 ≤ 1 := by norm_num
      linarith
  · rw [if_neg h0]
    push Not at h0
    obtain ⟨r1, r2⟩ := npMod_inTurn (-a)
    obtain ⟨l, hl⟩ := npMod_spec (-a) 360
    simp only
    split_ifs with hr
    · have ha0 : npMod (-a) 360 = 0 := by linarith
      rw [ha0] at hl
      refine ⟨le_rfl, by norm_num, ⟨fun h => by norm_num at h, ?_⟩, fun _ => by norm_num⟩
      rintro ⟨-, k, k1, k2⟩
      exfalso
      have e : a = 360 * (l : ℝ) := by linarith
      rw [e] at k1 k2
      have a1 : (l : ℝ) < k := by linarith
      have a2 : (k : ℝ) < l + 1 := by
        have : (1 : ℝ) / 2 ^ 45 < 360 := by norm_num
        linarith
      have : l < k := by exact_mod_cast a1
      have : k < l + 1 := by exact_mod_cast a2
      omega
    · have hr0 : 0 < npMod (-a) 360 := lt_of_le_of_ne r1 (fun h => hr (by rw [← h]; norm_num))
      refine ⟨le_fl double_zero (by linarith), fl_le double_360 (by linarith), ?_, fun h => double_lt_360 (fl_double _) h⟩
      rw [fl_add_360 (by linarith)]
      have e : a = -npMod (-a) 360 + 360 * (l : ℝ) := by linarith
      constructor
      · intro h
        exact ⟨h0, l, by linarith, by linarith⟩
      · rintro ⟨-, k, k1, k2⟩
        have : k = l := by
          have a1 : (l : ℝ) - 1 < k := by linarith
          have a2 : (k : ℝ) < l + 1 := by
            have : (1 : ℝ) / 2 ^ 45 < 360 := by norm_num
            linarith
          have : l - 1 < k := by exact_mod_cast a1
          have : k < l + 1 := by exact_mod_cast a2
          omega
        subst this
        linarith

theorem thereAndBack_mono {x y : ℝ} (h : x ≤ y) : thereAndBack x ≤ thereAndBack y := by
  have h1 : 0 ≤ radianFactor := by unfold radianFactor; positivity
  have h2 : 0 ≤ degreeFactor := by unfold degreeFactor; positivity
  exact fl_mono (mul_le_mul_of_nonneg_right (fl_mono (mul_le_mul_of_nonneg_right h h1)) h2)

theorem thereAndBack_zero : thereAndBack 0 = 0 := by
  unfold thereAndBack
  rw [zero_mul, fl_zero, zero_mul, fl_zero]

theorem thereAndBack_360 : thereAndBack 360 = 360 := by
  unfold thereAndBack
  have h1 : fl (360 * radianFactor) = (7074237752028440 : ℤ) * 2 ^ (-50 : ℤ) := by
    apply fl_eq_of (by norm_num) <;> unfold radianFactor
    · rw [abs_of_pos (by positivity)]; norm_num
    · rw [abs_of_pos (by positivity)]; norm_num
    · rw [abs_lt]; norm_num
  have h2 : fl ((7074237752028440 : ℤ) * 2 ^ (-50 : ℤ) * degreeFactor) = (6333186975989760 : ℤ) * 2 ^ (-44 : ℤ) := by
    apply fl_eq_of (by norm_num) <;> unfold degreeFactor
    · rw [abs_of_pos (by positivity)]; norm_num
    · rw [abs_of_pos (by positivity)]; norm_num
    · rw [abs_lt]; norm_num
  rw [h1, h2]; norm_num

theorem thereAndBack_below : thereAndBack (360 - 1 / 2 ^ 44) = 360 - 1 / 2 ^ 44 := by
  unfold thereAndBack
  have h1 : fl ((360 - 1 / 2 ^ 44) * radianFactor) = (7074237752028439 : ℤ) * 2 ^ (-50 : ℤ) := by
    apply fl_eq_of (by norm_num) <;> unfold radianFactor
    · rw [abs_of_pos (by norm_num)]; norm_num
    · rw [abs_of_pos (by norm_num)]; norm_num
    · rw [abs_lt]; norm_num
  have h2 : fl ((7074237752028439 : ℤ) * 2 ^ (-50 : ℤ) * degreeFactor) = (6333186975989759 : ℤ) * 2 ^ (-44 : ℤ) := by
    apply fl_eq_of (by norm_num) <;> unfold degreeFactor
    · rw [abs_of_pos (by norm_num)]; norm_num
    · rw [abs_of_pos (by norm_num)]; norm_num
    · rw [abs_lt]; norm_num
  rw [h1, h2]; norm_num

/-- C140, full statement: every derived orbit is valid, up to rounding the given orbit with its angles increased, and deriving
by nothing changes nothing, when all operations are rounded to double precision.  Proved: exactly when deriving succeeds
(`JustBelow` says when it does not); the angles then differ from the exact ones by rounding only (`C140_close`). -/
theorem C140_valid_iff_partial (o : Circular) (hv : Circular.Valid o) (dM dRaan : ℝ) :
    (∃ d, Ieee.derived o dM dRaan = .ok d ∧ Circular.Valid d ∧ d.altitude = o.altitude ∧ d.epoch = o.epoch ∧
      d.inclination = o.inclination) ↔
    ¬ JustBelow (fl (thereAndBack o.trueAnomaly + dM)) ∧ ¬ JustBelow (fl (o.raan + dRaan)) := by
  obtain ⟨a1, a2, a3, a4⟩ := mod360_range _ (fl_double (thereAndBack o.trueAnomaly + dM))
  obtain ⟨b1, b2, b3, b4⟩ := mod360_range _ (fl_double (o.raan + dRaan))
  set A := mod360 (fl (thereAndBack o.trueAnomaly + dM)) with hA
  set B := mod360 (fl (o.raan + dRaan)) with hB
  rw [← a3, ← b3]
  have hT0 : 0 ≤ thereAndBack A := by rw [← thereAndBack_zero]; exact thereAndBack_mono a1
  constructor
  · rintro ⟨d, hd, -⟩
    unfold Ieee.derived Circular.make at hd
    simp only [bind_eq_ok, require_eq_ok, pure, Except.pure] at hd
    obtain ⟨_, ⟨-, h1⟩, _, -, _, ⟨-, h2⟩, -⟩ := hd
    refine ⟨fun e => ?_, fun e => ?_⟩
    · rw [← hA, e, thereAndBack_360] at h1; norm_num at h1
    · rw [← hB, e] at h2; norm_num at h2
  · rintro ⟨hA', hB'⟩
    have hB1 : B < 360 := lt_of_le_of_ne b2 hB'
    have hA1 := a4 (lt_of_le_of_ne a2 hA')
    have hT1 : thereAndBack A < 360 := by
      refine lt_of_le_of_lt (thereAndBack_mono hA1) ?_
      rw [thereAndBack_below]
      norm_num
    refine ⟨⟨o.altitude, thereAndBack A, o.epoch, o.inclination, B⟩, ?_, ⟨⟨hT0, hT1⟩, hv.2.1, ⟨b1, hB1⟩⟩, rfl, rfl, rfl⟩
    unfold Ieee.derived Circular.make
    simp only [bind_eq_ok, require_eq_ok, pure, Except.pure]
    exact ⟨(), ⟨hT0, hT1⟩, (), hv.2.1, (), ⟨b1, hB1⟩, rfl⟩

/-- In particular deriving forwards always succeeds (as in Walker constellations). -/
theorem C140_forward_partial (o : Circular) (hv : Circular.Valid o) (dM dRaan : ℝ) (h1 : 0 ≤ dM) (h2 : 0 ≤ dRaan) :
    ∃ d, Ieee.derived o dM dRaan = .ok d ∧ Circular.Valid d ∧ d.altitude = o.altitude ∧ d.epoch = o.epoch ∧
      d.inclination = o.inclination := by
  rw [C140_valid_iff_partial o hv]
  have hT : 0 ≤ thereAndBack o.trueAnomaly := by rw [← thereAndBack_zero]; exact thereAndBack_mono hv.1.1
  have hr := hv.2.2.1
  exact ⟨fun h => absurd h.1 (not_lt.mpr (le_fl double_zero (by linarith))),
    fun h => absurd h.1 (not_lt.mpr (le_fl double_zero (by linarith)))⟩

theorem tiny_le : (2 : ℝ) ^ (-1075 : ℤ) ≤ 1 / 2 ^ 100 := by
  have h : (2 : ℝ) ^ (-1075 : ℤ) ≤ 2 ^ (-100 : ℤ) := two_zpow_le (by norm_num)
  refine h.trans (le_of_eq ?_)
  rw [zpow_neg]; norm_num

theorem mod360_close (a : ℝ) : ∃ k : ℤ, |mod360 a - (a + 360 * k)| ≤ 1 / 2 ^ 44 := by
  unfold mod360
  split_ifs with h0
  · obtain ⟨k, hk⟩ := npMod_spec a 360
    exact ⟨k, by rw [hk]; simp⟩
  · obtain ⟨k, hk⟩ := npMod_spec (-a) 360
    obtain ⟨r1, r2⟩ := npMod_inTurn (-a)
    simp only
    split_ifs with hr
    · refine ⟨-k, ?_⟩
      have : a + 360 * ((-k : ℤ) : ℝ) = 0 := by push_cast; linarith
      rw [this]; simp
    · refine ⟨-k + 1, ?_⟩
      have e : a + 360 * ((-k + 1 : ℤ) : ℝ) = -npMod (-a) 360 + 360 := by push_cast; linarith
      rw [e]
      refine (fl_close _).trans ?_
      have h1 : |-npMod (-a) 360 + 360| ≤ 360 := by rw [abs_of_nonneg (by linarith)]; linarith
      have h2 := tiny_le
      have h3 : |-npMod (-a) 360 + 360| / 2 ^ 53 ≤ 360 / 2 ^ 53 := div_le_div_of_nonneg_right h1 (by positivity)
      norm_num at h2 h3 ⊢
      linarith

theorem thereAndBack_close {x : ℝ} (h0 : 0 ≤ x) (h1 : x ≤ 360) : |thereAndBack x - x| ≤ 1 / 10 ^ 12 := by
  unfold thereAndBack
  have r0 : 0 < radianFactor := by unfold radianFactor; positivity
  have r1 : radianFactor ≤ 0.0175 := by unfold radianFactor; norm_num
  have d0 : 0 < degreeFactor := by unfold degreeFactor; positivity
  have d1 : degreeFactor ≤ 57.3 := by unfold degreeFactor; norm_num
  have rd : |radianFactor * degreeFactor - 1| ≤ 1 / 2 ^ 52 := by
    unfold radianFactor degreeFactor; rw [abs_le]; norm_num
  have ht := tiny_le
  have e1 := fl_close (x * radianFactor)
  have hxr : |x * radianFactor| ≤ 6.3 := by
    rw [abs_of_nonneg (by positivity)]
    calc x * radianFactor ≤ 360 * 0.0175 := mul_le_mul h1 r1 r0.le (by norm_num)
      _ = 6.3 := by norm_num
  set f := fl (x * radianFactor) with hf
  have e1' : |f - x * radianFactor| ≤ 8 / 2 ^ 53 := by
    have : |x * radianFactor| / 2 ^ 53 ≤ 6.3 / 2 ^ 53 := div_le_div_of_nonneg_right hxr (by positivity)
    have c : (6.3 : ℝ) / 2 ^ 53 + 1 / 2 ^ 100 ≤ 8 / 2 ^ 53 := by norm_num
    exact e1.trans ((add_le_add this ht).trans c)
  have e2 := fl_close (f * degreeFactor)
  have hfd : |f * degreeFactor - x| ≤ 1300 / 2 ^ 53 := by
    have : f * degreeFactor - x = (f - x * radianFactor) * degreeFactor + x * (radianFactor * degreeFactor - 1) := by ring
    rw [this]
    refine (abs_add_le _ _).trans ?_
    rw [abs_mul, abs_mul, abs_of_pos d0, abs_of_nonneg h0]
    have a1 : |f - x * radianFactor| * degreeFactor ≤ 8 / 2 ^ 53 * 57.3 := mul_le_mul e1' d1 d0.le (by positivity)
    have a2 : x * |radianFactor * degreeFactor - 1| ≤ 360 * (1 / 2 ^ 52) := mul_le_mul h1 rd (abs_nonneg _) (by norm_num)
    norm_num at a1 a2 ⊢
    linarith
  have hfd' : |f * degreeFactor| ≤ 361 := by
    have h3 := abs_le.mp hfd
    rw [abs_le]
    norm_num at h3
    constructor <;> linarith
  have e2' : |f * degreeFactor| / 2 ^ 53 ≤ 361 / 2 ^ 53 := div_le_div_of_nonneg_right hfd' (by positivity)
  have := abs_sub_le (fl (f * degreeFactor)) (f * degreeFactor) x
  norm_num at this e2 e2' hfd ht ⊢
  linarith

theorem sum_close {a b c : ℝ} (hac : |a - c| ≤ 1 / 10 ^ 12) (hc0 : 0 ≤ c) (hc1 : c ≤ 360) (hb : |b| ≤ 1000000) :
    ∃ k : ℤ, |mod360 (fl (a + b)) - (c + b + 360 * k)| ≤ 9 / 10 ^ 10 := by
  obtain ⟨k, hk⟩ := mod360_close (fl (a + b))
  refine ⟨k, ?_⟩
  have h1 := fl_close (a + b)
  have ht := tiny_le
  have h2 : |a + b| ≤ 1000361 := by
    have := abs_le.mp hac
    have := abs_le.mp hb
    rw [abs_le]
    norm_num at *
    constructor <;> linarith
  have h3 : |a + b| / 2 ^ 53 ≤ 1000361 / 2 ^ 53 := div_le_div_of_nonneg_right h2 (by positivity)
  have e : mod360 (fl (a + b)) - (c + b + 360 * k) =
      (mod360 (fl (a + b)) - (fl (a + b) + 360 * k)) + (fl (a + b) - (a + b)) + (a - c) := by ring
  rw [e]
  have h4 := abs_add_three (mod360 (fl (a + b)) - (fl (a + b) + 360 * k)) (fl (a + b) - (a + b)) (a - c)
  norm_num at h1 ht h3 hk hac h4 ⊢
  linarith

/-- The angles of a derived orbit are those of the given orbit, increased, within 10⁻⁹ degrees (a tenth of a millimetre on
the ground) and up to whole turns, for increases up to a million degrees. -/
theorem C140_close (o d : Circular) (hv : Circular.Valid o) (dM dRaan : ℝ) (h1 : |dM| ≤ 1000000) (h2 : |dRaan| ≤ 1000000)
    (hd : Ieee.derived o dM dRaan = .ok d) :
    (∃ k : ℤ, |d.trueAnomaly - (o.trueAnomaly + dM + 360 * k)| ≤ 1 / 10 ^ 9) ∧
    ∃ k : ℤ, |d.raan - (o.raan + dRaan + 360 * k)| ≤ 1 / 10 ^ 9 := by
  unfold Ieee.derived Circular.make at hd
  simp only [bind_eq_ok, require_eq_ok, pure, Except.pure, Except.ok.injEq] at hd
  obtain ⟨_, -, _, -, _, -, rfl⟩ := hd
  constructor
  · obtain ⟨k, hk⟩ := sum_close (thereAndBack_close hv.1.1 hv.1.2.le) hv.1.1 hv.1.2.le h1
    refine ⟨k, ?_⟩
    obtain ⟨a1, a2, -⟩ := mod360_range _ (fl_double (thereAndBack o.trueAnomaly + dM))
    have h3 := thereAndBack_close a1 a2
    have h4 := abs_sub_le (thereAndBack (mod360 (fl (thereAndBack o.trueAnomaly + dM))))
      (mod360 (fl (thereAndBack o.trueAnomaly + dM))) (o.trueAnomaly + dM + 360 * k)
    show |thereAndBack (mod360 (fl (thereAndBack o.trueAnomaly + dM))) - (o.trueAnomaly + dM + 360 * k)| ≤ _
    norm_num at hk h3 h4 ⊢
    linarith
  · obtain ⟨k, hk⟩ := sum_close (a := o.raan) (c := o.raan) (by simp) hv.2.2.1 hv.2.2.2.le h2
    refine ⟨k, ?_⟩
    show |mod360 (fl (o.raan + dRaan)) - (o.raan + dRaan + 360 * k)| ≤ _
    norm_num at hk ⊢
    linarith

/-- The double precision number that `0.3` is. -/
noncomputable def double03 : ℝ := 5404319552844595 / 2 ^ 54
/-- The double precision number that `0.1 + 0.2` is. -/
noncomputable def double0102 : ℝ := 5404319552844596 / 2 ^ 54

/-- Refuted: a valid orbit with its node at 0.3 degrees cannot be turned back by 0.1 + 0.2 degrees; the node would be at
360.0 degrees, which is refused. -/
theorem C140_backward_false : Circular.Valid ⟨500000, 0, 0, 50, double03⟩ ∧ IsDouble double03 ∧ IsDouble double0102 ∧
    Ieee.derived ⟨500000, 0, 0, 50, double03⟩ 0 (-double0102) = .error .validationError := by
  have hv : Circular.Valid ⟨500000, 0, 0, 50, double03⟩ := by
    unfold Circular.Valid InTurn double03; norm_num
  refine ⟨hv, ⟨5404319552844595, -54, by norm_num, by norm_num, by unfold double03; norm_num⟩,
    ⟨5404319552844596, -54, by norm_num, by norm_num, by unfold double0102; norm_num⟩, ?_⟩
  have e : double03 + -double0102 = -2 ^ (-54 : ℤ) := by unfold double03 double0102; norm_num
  have hj : JustBelow (fl (double03 + -double0102)) := by
    rw [e, fl_of_double (double_neg (double_zpow (by norm_num)))]
    refine ⟨by norm_num, 0, ?_, ?_⟩ <;> norm_num
  have hm : mod360 (fl (double03 + -double0102)) = 360 := (mod360_range _ (fl_double _)).2.2.1.mpr hj
  have hz : thereAndBack (mod360 (fl (thereAndBack 0 + 0))) = 0 := by
    rw [thereAndBack_zero, add_zero, fl_zero]
    unfold mod360
    rw [if_pos le_rfl, npMod_self_of_range le_rfl (by norm_num), thereAndBack_zero]
  unfold Ieee.derived Circular.make
  simp only [hm, hz]
  norm_num [require, bind, Except.bind]

/-- Refuted: deriving by nothing (as for the first member of a constellation) moves a satellite at 3 degrees on, to the
next double precision number. -/
theorem C140_nothing_false : Circular.Valid ⟨500000, 3, 0, 50, 0⟩ ∧
    ∃ d, Ieee.derived ⟨500000, 3, 0, 50, 0⟩ 0 0 = .ok d ∧ d.trueAnomaly = 3 + 2 ^ (-51 : ℤ) := by
  have hv : Circular.Valid ⟨500000, 3, 0, 50, 0⟩ := by unfold Circular.Valid InTurn; norm_num
  refine ⟨hv, ?_⟩
  obtain ⟨d, hd, -⟩ := C140_forward_partial _ hv 0 0 le_rfl le_rfl
  refine ⟨d, hd, ?_⟩
  have h3 : thereAndBack 3 = 3 + 2 ^ (-51 : ℤ) := by
    unfold thereAndBack
    have h1 : fl (3 * radianFactor) = (7545853602163670 : ℤ) * 2 ^ (-57 : ℤ) := by
      unfold fl
      rw [lastPlace_eq (e := -57) (by norm_num), rhe_tie (n := 7545853602163670) (by norm_num)] <;> unfold radianFactor
      · norm_num
      · norm_num
      · rw [abs_of_pos (by positivity)]; norm_num
      · rw [abs_of_pos (by positivity)]; norm_num
    have h2 : fl ((7545853602163670 : ℤ) * 2 ^ (-57 : ℤ) * degreeFactor) = (6755399441055745 : ℤ) * 2 ^ (-51 : ℤ) := by
      apply fl_eq_of (by norm_num) <;> unfold degreeFactor
      · rw [abs_of_pos (by norm_num)]; norm_num
      · rw [abs_of_pos (by norm_num)]; norm_num
      · rw [abs_lt]; norm_num
    rw [h1, h2]; norm_num
  have h3' : thereAndBack (3 + 2 ^ (-51 : ℤ)) = 3 + 2 ^ (-51 : ℤ) := by
    unfold thereAndBack
    have h1 : fl ((3 + 2 ^ (-51 : ℤ)) * radianFactor) = (7545853602163671 : ℤ) * 2 ^ (-57 : ℤ) := by
      apply fl_eq_of (by norm_num) <;> unfold radianFactor
      · rw [abs_of_pos (by positivity)]; norm_num
      · rw [abs_of_pos (by positivity)]; norm_num
      · rw [abs_lt]; norm_num
    have h2 : fl ((7545853602163671 : ℤ) * 2 ^ (-57 : ℤ) * degreeFactor) = (6755399441055745 : ℤ) * 2 ^ (-51 : ℤ) := by
      apply fl_eq_of (by norm_num) <;> unfold degreeFactor
      · rw [abs_of_pos (by norm_num)]; norm_num
      · rw [abs_of_pos (by norm_num)]; norm_num
      · rw [abs_lt]; norm_num
    rw [h1, h2]; norm_num
  have hdbl : IsDouble (3 + 2 ^ (-51 : ℤ)) := ⟨6755399441055745, -51, by norm_num, by norm_num, by norm_num⟩
  unfold Ieee.derived Circular.make at hd
  simp only [bind_eq_ok, require_eq_ok, pure, Except.pure, Except.ok.injEq] at hd
  obtain ⟨_, -, _, -, _, -, rfl⟩ := hd
  show thereAndBack (mod360 (fl (thereAndBack 3 + 0))) = _
  have hm : mod360 (3 + 2 ^ (-51 : ℤ)) = 3 + 2 ^ (-51 : ℤ) := by
    unfold mod360
    rw [if_pos (by positivity), npMod_self_of_range (by positivity) (by norm_num)]
  rw [add_zero, h3, fl_of_double hdbl, hm, h3']

example : ∃ o d : Circular, Circular.Valid o ∧ Ieee.derived o 120 240 = .ok d ∧ d.raan = 30 := by
  have hv : Circular.Valid ⟨500000, 350, 0, 50, 150⟩ := by unfold Circular.Valid InTurn; norm_num
  obtain ⟨d, hd, -⟩ := C140_forward_partial _ hv 120 240 (by norm_num) (by norm_num)
  refine ⟨_, d, hv, hd, ?_⟩
  unfold Ieee.derived Circular.make at hd
  simp only [bind_eq_ok, require_eq_ok, pure, Except.pure, Except.ok.injEq] at hd
  obtain ⟨_, -, _, -, _, -, rfl⟩ := hd
  show mod360 (fl (150 + 240)) = 30
  have h : IsDouble (150 + 240 : ℝ) := by
    have := double_int (n := 390) (by norm_num)
    norm_num at this ⊢
    exact this
  rw [fl_of_double h]
  unfold mod360
  rw [if_pos (by norm_num)]
  have : (150 + 240 : ℝ) = 30 + 360 * ((1 : ℤ) : ℝ) := by norm_num
  rw [this, npMod_eq_of_add _ (by norm_num), npMod_self_of_range (by norm_num) (by norm_num)]

end Tatc.Props
