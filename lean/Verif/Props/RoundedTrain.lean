import Verif.Props.RoundedWalker
import Verif.Props.RoundedPeriod
import Verif.Props.Times
import Verif.Model.IeeeTrain

/-! C181: trains of satellites in double precision. -/

namespace Tatc.Props
open Tatc Tatc.Num Tatc.Ieee Tatc.Spec Tatc.Orbit Tatc.Constellation

theorem rhe_neg (x : ℝ) : roundHalfEven (-x) = -roundHalfEven x := by
  have h1 := Int.floor_le x
  have h2 := Int.lt_floor_add_one x
  rcases h1.lt_or_eq with h | h
  · have e : ⌊-x⌋ = -⌊x⌋ - 1 := by
      rw [Int.floor_eq_iff]; push_cast; constructor <;> linarith
    unfold roundHalfEven
    simp only [e]
    push_cast
    generalize ⌊x⌋ = f at *
    rcases lt_trichotomy (x - f) (1 / 2) with c | c | c
    · rw [if_neg (by linarith), if_pos (by linarith), if_pos c]; ring
    · rw [if_neg (by linarith), if_neg (by linarith), if_neg (show ¬ x - f < 1 / 2 by linarith),
        if_neg (show ¬ 1 / 2 < x - f by linarith)]
      split_ifs <;> omega
    · rw [if_pos (by linarith), if_neg (by linarith), if_pos c]; ring
  · rw [← h, rhe_intCast, show (-(⌊x⌋ : ℝ)) = ((-⌊x⌋ : ℤ) : ℝ) by push_cast; rfl, rhe_intCast]

theorem fl_neg (x : ℝ) : fl (-x) = -fl x := by
  unfold fl
  have e : lastPlace (-x) = lastPlace x := by unfold lastPlace; rw [abs_neg]
  rw [e, neg_div, rhe_neg]
  push_cast
  ring

theorem mean_motion_low {h : ℝ} (hf : Flying h) : 1 / 128 ≤ Ieee.meanMotion h := by
  obtain ⟨p0, -, p2⟩ := C168_period h hf
  obtain ⟨-, u⟩ := period_bounds hf
  have hp : (0 : ℝ) < Ieee.orbitPeriod h := by exact_mod_cast p0
  have p3 := (abs_le.mp p2).2
  unfold Ieee.meanMotion
  generalize (Ieee.orbitPeriod h : ℝ) = P at *
  have d : IsDouble (128 : ℝ) := by exact_mod_cast double_int (n := 128) (by norm_num)
  have a : fl (P / 86400000000) ≤ 128 := fl_le d (by rw [div_le_iff₀ (by norm_num)]; norm_num at *; linarith)
  have a0 : 0 ≤ fl (P / 86400000000) := le_fl double_zero (by positivity)
  have b : 0 < fl (P / 86400000000) := by
    rcases a0.lt_or_eq with hh | hh
    · exact hh
    · exfalso
      have d' : IsDouble ((2 : ℝ) ^ (-40 : ℤ)) := double_zpow (by norm_num)
      have h1 : (1 : ℝ) ≤ P := by
        have : 1 ≤ Ieee.orbitPeriod h := p0
        norm_num at *; obtain ⟨l, -⟩ := period_bounds hf
        have := (abs_le.mp p2).1
        norm_num at *; linarith
      have := le_fl d' (show (2 : ℝ) ^ (-40 : ℤ) ≤ P / 86400000000 by
        rw [le_div_iff₀ (by norm_num)]; norm_num; linarith)
      rw [← hh] at this
      norm_num at this
  exact le_fl ⟨1, -7, by norm_num, by norm_num, by norm_num⟩ (by
    rw [div_le_div_iff₀ (by norm_num) b]; linarith)

/-- A multiple of the product of a positive factor and a rounded number of days, in either direction. -/
theorem multiple_close (i : ℕ) (s : ℤ) {M c : ℝ} (hM : 1 / 128 ≤ M) (hc : Rel 1 c M) :
    |fl (i * fl (c * fl (s / 86400000000))) - i * (M * (s / 86400000000))| ≤ |i * (M * (s / 86400000000))| * 1.2e-15 := by
  have key : ∀ m : ℕ, |fl (i * fl (c * fl (m / 86400000000))) - i * (M * (m / 86400000000))| ≤
      |i * (M * (m / 86400000000))| * 1.2e-15 := by
    intro m
    rcases Nat.eq_zero_or_pos i with rfl | hi
    · simp [fl_zero]
    rcases Nat.eq_zero_or_pos m with rfl | hm
    · simp [fl_zero]
    have i1 : (1 : ℝ) ≤ i := by exact_mod_cast hi
    have m1 : (1 : ℝ) ≤ m := by exact_mod_cast hm
    have D : (1e-11 : ℝ) ≤ m / 86400000000 := by rw [le_div_iff₀ (by norm_num)]; norm_num; linarith
    have D0 : (0 : ℝ) < m / 86400000000 := by positivity
    have r1 : Rel 1 (fl (m / 86400000000)) (m / 86400000000) := (Rel.refl D0).fl' (by norm_num) (by norm_num at *; linarith)
    have y1 : (1e-14 : ℝ) ≤ M * (m / 86400000000) := by
      have := mul_le_mul hM D (by norm_num) (by linarith)
      norm_num at *; linarith
    have r2 := (hc.mul r1).fl' (by norm_num) (by norm_num at *; linarith)
    have y2 : (1e-14 : ℝ) ≤ i * (M * (m / 86400000000)) := by
      have := mul_le_mul i1 y1 (by norm_num) (by linarith)
      norm_num at *; linarith
    have r3 := ((Rel.refl (show (0 : ℝ) < i by linarith)).mul r2).fl' (by norm_num) (by norm_num at *; linarith)
    have := r3.few (by norm_num)
    rwa [abs_of_pos (a := (i * (M * (m / 86400000000)) : ℝ)) r3.pos]
  obtain ⟨m, rfl | rfl⟩ := s.eq_nat_or_neg
  · simpa using key m
  · have := key m
    push_cast
    rw [neg_div, fl_neg, mul_neg, fl_neg, mul_neg, fl_neg, mul_neg, mul_neg, abs_neg, neg_sub_neg, abs_sub_comm]
    exact this

/-- The interval of a train in days. -/
noncomputable def intervalDays {I : Type} (t : Train I) : ℝ := t.interval / 86400000000

theorem train_mean {I : Type} (o : Circular) (t : Train I) (hf : Flying o.altitude) (i : ℕ) :
    |fl (i * trainDeltaMean (.circular o) t) - (-(i * (360 * Ieee.meanMotion o.altitude * intervalDays t)))| ≤
      |i * (360 * Ieee.meanMotion o.altitude * intervalDays t)| * 1.2e-15 := by
  have hM := mean_motion_low hf
  have r : Rel 1 (fl (360 * Ieee.meanMotion o.altitude)) (360 * Ieee.meanMotion o.altitude) :=
    (Rel.refl (by linarith)).fl' (by norm_num) (by norm_num at *; linarith)
  have := multiple_close i t.interval (by linarith) r
  unfold trainDeltaMean trainDays intervalDays DoubleLead.altitude
  rw [neg_mul, fl_neg, neg_mul, fl_neg, mul_neg, fl_neg, neg_sub_neg, abs_sub_comm]
  exact this

theorem train_raan {I : Type} (t : Train I) (i : ℕ) :
    |fl (i * trainDeltaRaan t) - (if t.repeatGroundTrack then i * (360 * intervalDays t) else 0)| ≤
      |i * (360 * intervalDays t)| * 1.2e-15 := by
  unfold trainDeltaRaan trainDays intervalDays
  split_ifs
  · have r : Rel 0 (360 : ℝ) 360 := Rel.refl (by norm_num)
    exact multiple_close i t.interval (by norm_num) (r.weaken (by norm_num))
  · simp only [mul_zero, fl_zero, sub_zero, abs_zero]
    positivity

theorem make_or (a b : ℝ) (c : Int) (d e : ℝ) : (∃ o, Circular.make a b c d e = .ok o) ∨ Circular.make a b c d e = .error .validationError := by
  unfold Circular.make require
  simp only [bind, Except.bind]
  split_ifs <;> first | exact .inr rfl | exact .inl ⟨_, rfl⟩

/-- The anomaly of member `i` behind the first one (degrees), when the mean motion is `n` revolutions a day: it passes
every point `i` intervals after the first one. -/
noncomputable def behind {I : Type} (n : ℝ) (t : Train I) (i : ℕ) : ℝ := i * (360 * n * intervalDays t)

/-- The right ascension of member `i` ahead of the first one (degrees): what the Earth turns in `i` intervals. -/
noncomputable def nodeAhead {I : Type} (t : Train I) (i : ℕ) : ℝ := if t.repeatGroundTrack then i * (360 * intervalDays t) else 0

/-- The members of a train reach over less than 2500 turns, of the orbit and of the Earth. -/
def Short {I : Type} (n : ℝ) (t : Train I) : Prop :=
  ∀ i < t.satellites, |behind n t i| ≤ 900000 ∧ |i * (360 * intervalDays t)| ≤ 900000

theorem train_bounds {I : Type} (o : Circular) (t : Train I) (hf : Flying o.altitude) (n : ℝ)
    (hn : Orbit.meanMotion o.altitude = .ok n) (hs : Short n t) {i : ℕ} (hi : i < t.satellites) :
    |fl (i * trainDeltaMean (.circular o) t)| ≤ 1000000 ∧ |fl (i * trainDeltaRaan t)| ≤ 1000000 ∧
    |fl (i * trainDeltaMean (.circular o) t) - (-behind n t i)| ≤ |behind n t i| * 3.1e-10 ∧
    |fl (i * trainDeltaRaan t) - nodeAhead t i| ≤ 1.1e-9 := by
  obtain ⟨n', e, hc⟩ := C168_mean_motion o.altitude hf
  rw [hn, Except.ok.injEq] at e
  subst e
  have a := train_mean o t hf i
  have b := train_raan t i
  obtain ⟨s1, s2⟩ := hs i hi
  have hm := mean_motion_low hf
  have n0 : 0 < n := by
    have := (abs_le.mp hc).2
    norm_num at *
    by_contra hcon
    push Not at hcon
    nlinarith
  have c : |i * (360 * Ieee.meanMotion o.altitude * intervalDays t) - behind n t i| ≤ |behind n t i| * 3e-10 := by
    have e1 : i * (360 * Ieee.meanMotion o.altitude * intervalDays t) - behind n t i =
        (i * (360 * intervalDays t)) * (Ieee.meanMotion o.altitude - n) := by unfold behind; ring
    have e2 : behind n t i = (i * (360 * intervalDays t)) * n := by unfold behind; ring
    rw [e1, e2, abs_mul _ (Ieee.meanMotion o.altitude - n), abs_mul _ n, abs_of_pos n0, mul_assoc]
    exact mul_le_mul_of_nonneg_left hc (abs_nonneg _)
  change |_ - nodeAhead t i| ≤ _ at b
  have nb : |nodeAhead t i| ≤ 900000 := by
    unfold nodeAhead
    split_ifs
    · exact s2
    · norm_num
  generalize i * (360 * Ieee.meanMotion o.altitude * intervalDays t) = X' at *
  generalize behind n t i = X at *
  generalize nodeAhead t i = N at *
  generalize (i : ℝ) * (360 * intervalDays t) = R at *
  generalize fl (i * trainDeltaMean (.circular o) t) = x at *
  generalize fl (i * trainDeltaRaan t) = r at *
  have k1 := abs_sub_abs_le_abs_sub X' X
  have k2 : x - -X = (x - -X') + -(X' - X) := by ring
  have k3 : |x - -X| ≤ |x - -X'| + |X' - X| := by
    rw [k2]; refine (abs_add_le _ _).trans ?_; rw [abs_neg]
  have k4 : |x| ≤ |x - -X| + |X| := by
    have := abs_sub_abs_le_abs_sub x (-X)
    rw [abs_neg] at this
    linarith
  have k5 : |r| ≤ |r - N| + |N| := by
    have := abs_sub_abs_le_abs_sub r N
    linarith
  have k6 := abs_nonneg X
  generalize |X| = A at *
  generalize |R| = B at *
  generalize |x - -X| = C at *
  generalize |x - -X'| = D at *
  clear k2
  norm_num at *
  refine ⟨by linarith, by linarith, by linarith, by linarith⟩

/-- C181, full statement: `generate_members` of a train returns as many valid orbits as requested, in order, each on its place:
member `i` follows the lead by `i` intervals.  Proved: where all members can be generated.  The anomaly is that of the exact
mean motion up to a relative error of `4·10⁻¹⁰` (the period is rounded to microseconds) and `2·10⁻⁹` degrees. -/
theorem C181_members_partial {I : Type} (t : Train I) (o : Circular) (hv : Circular.Valid o) (hf : Flying o.altitude) (n : ℝ)
    (hn : Orbit.meanMotion o.altitude = .ok n) (hs : Short n t) (members : List (Satellite I))
    (hm : trainMembers (.circular o) t = .ok members) :
    ∃ orbits : Nat → Circular,
      members = (List.range t.satellites).map (fun i =>
        ⟨zeroPad t.name t.satellites (i + 1), .circular (orbits i), t.instruments⟩) ∧
      ∀ i < t.satellites, Circular.Valid (orbits i) ∧ (orbits i).altitude = o.altitude ∧
        (orbits i).inclination = o.inclination ∧ (orbits i).epoch = o.epoch ∧
        SameWithin (|behind n t i| * 4e-10 + 2e-9) (orbits i).trueAnomaly (o.trueAnomaly - behind n t i) ∧
        SameWithin 3e-9 (orbits i).raan (o.raan + nodeAhead t i) := by
  have all := (mapM_forall₂ _ _ _).mp hm
  have key : ∀ i, ∃ d : Circular, i < t.satellites →
      Ieee.derived o (fl (i * trainDeltaMean (.circular o) t)) (fl (i * trainDeltaRaan t)) = .ok d := by
    intro i
    by_cases hi : i < t.satellites
    · have hlen := all.length_eq
      have := (List.forall₂_iff_get.mp all).2 i (by simpa using hi) (by rw [← hlen]; simpa using hi)
      simp only [List.get_eq_getElem, List.getElem_range, DoubleLead.derived, bind_eq_ok] at this
      obtain ⟨d, hd, -⟩ := this
      exact ⟨d, fun _ => hd⟩
    · exact ⟨o, fun h => absurd h hi⟩
  choose f hf' using key
  refine ⟨f, ?_, fun i hi => ?_⟩
  · have : trainMembers (.circular o) t = .ok ((List.range t.satellites).map fun i =>
        ⟨zeroPad t.name t.satellites (i + 1), .circular (f i), t.instruments⟩) := by
      unfold trainMembers
      apply mapM_ok
      intro i hi
      simp only [DoubleLead.derived, hf' i (List.mem_range.mp hi)]
      rfl
    rw [hm, Except.ok.injEq] at this
    exact this
  · have hd := hf' i hi
    obtain ⟨b1, b2, b3, b4⟩ := train_bounds o t hf n hn hs hi
    obtain ⟨⟨k, hk⟩, l, hl⟩ := C140_close o (f i) hv _ _ b1 b2 hd
    have shape : Circular.Valid (f i) ∧ (f i).altitude = o.altitude ∧ (f i).inclination = o.inclination ∧ (f i).epoch = o.epoch := by
      unfold Ieee.derived Circular.make at hd
      simp only [bind_eq_ok, require_eq_ok, pure, Except.pure, Except.ok.injEq] at hd
      obtain ⟨_, h1, _, h2, _, h3, e⟩ := hd
      rw [← e]
      exact ⟨⟨h1, h2, h3⟩, rfl, rfl, rfl⟩
    refine ⟨shape.1, shape.2.1, shape.2.2.1, shape.2.2.2, ⟨k, ?_⟩, ⟨l, ?_⟩⟩
    · have a1 := abs_le.mp hk
      have a2 := abs_le.mp b3
      have a3 := abs_nonneg (behind n t i)
      generalize |behind n t i| = A at *
      norm_num at *
      rw [abs_le]; constructor <;> linarith
    · have a1 := abs_le.mp hl
      have a2 := abs_le.mp b4
      norm_num at *
      rw [abs_le]; constructor <;> linarith

/-- An angle that is refused is the same as 0, but for rounding. -/
theorem same_of_justBelow {a c x b X e : ℝ} (ha : |a - c| ≤ 1 / 10 ^ 12) (hb : |b| ≤ 1000000) (hX : |b - X| ≤ e)
    (hc0 : 0 ≤ c) (hc1 : c ≤ 360) (hx : x = c + X) (h : JustBelow (fl (a + b))) : SameWithin (e + 1e-9) x 0 := by
  obtain ⟨-, k, h1, h2⟩ := h
  refine ⟨k, ?_⟩
  have f := fl_close' (a + b)
  have a1 := abs_le.mp ha
  have b1 := abs_le.mp hb
  have x1 := abs_le.mp hX
  have s : |a + b| ≤ 1000361 := by rw [abs_le]; norm_num at *; constructor <;> linarith
  have f1 := abs_le.mp f
  subst hx
  generalize |a + b| = A at *
  clear f ha hb hX
  norm_num at *
  rw [abs_le]; constructor <;> linarith

/-- C181: all members are generated unless one of them, other than the first, comes to be at the anomaly or the right ascension
of zero, but for rounding. -/
theorem C181_apart_partial {I : Type} (t : Train I) (o : Circular) (hv : Circular.Valid o) (hf : Flying o.altitude) (n : ℝ)
    (hn : Orbit.meanMotion o.altitude = .ok n) (hs : Short n t)
    (hfar : ∀ i, 0 < i → i < t.satellites →
      ¬ SameWithin (|behind n t i| * 4e-10 + 2e-9) (o.trueAnomaly - behind n t i) 0 ∧
      ¬ SameWithin 3e-9 (o.raan + nodeAhead t i) 0) :
    ∃ members, trainMembers (.circular o) t = .ok members ∧ members.length = t.satellites := by
  have key : ∀ i, ∃ d : Circular, i < t.satellites →
      Ieee.derived o (fl (i * trainDeltaMean (.circular o) t)) (fl (i * trainDeltaRaan t)) = .ok d := by
    intro i
    by_cases hi : i < t.satellites
    · rcases Nat.eq_zero_or_pos i with rfl | h0
      · obtain ⟨d, hd, -⟩ := C140_forward_partial o hv 0 0 le_rfl le_rfl
        exact ⟨d, fun _ => by simpa [fl_zero] using hd⟩
      · obtain ⟨b1, b2, b3, b4⟩ := train_bounds o t hf n hn hs hi
        obtain ⟨f1, f2⟩ := hfar i h0 hi
        obtain ⟨d, hd, -⟩ := (C140_valid_iff_partial o hv (fl (i * trainDeltaMean (.circular o) t)) (fl (i * trainDeltaRaan t))).mpr ⟨
          fun h => f1 (by
            obtain ⟨k, hk⟩ := same_of_justBelow (thereAndBack_close hv.1.1 hv.1.2.le) b1 b3 hv.1.1 hv.1.2.le (sub_eq_add_neg _ _) h
            refine ⟨k, hk.trans ?_⟩
            have h3 := abs_nonneg (behind n t i)
            generalize |behind n t i| = A at *
            norm_num at *; linarith),
          fun h => f2 (by
            obtain ⟨k, hk⟩ := same_of_justBelow (a := o.raan) (c := o.raan) (by simp) b2 b4 hv.2.2.1 hv.2.2.2.le rfl h
            exact ⟨k, hk.trans (by norm_num)⟩)⟩
        exact ⟨d, fun _ => hd⟩
    · exact ⟨o, fun h => absurd h hi⟩
  choose f hf' using key
  refine ⟨(List.range t.satellites).map fun i => ⟨zeroPad t.name t.satellites (i + 1), .circular (f i), t.instruments⟩, ?_, by simp⟩
  unfold trainMembers
  apply mapM_ok
  intro i hi
  simp only [DoubleLead.derived, hf' i (List.mem_range.mp hi)]
  rfl

/-- Refuted: a train of four satellites with an interval of minus 24 seconds, whose lead has its node at 0.3 degrees, cannot be
generated: the node of the fourth satellite would be at 360.0 degrees, which is refused. -/
theorem C181_members_false : Circular.Valid ⟨500000, 0, 0, 50, double03⟩ ∧ IsDouble double03 ∧
    trainMembers (.circular ⟨500000, 0, 0, 50, double03⟩) (I := Unit)
      ⟨[], .circular ⟨500000, 0, 0, 50, double03⟩, (), 4, -24000000, true⟩ = .error .validationError := by
  have hv : Circular.Valid ⟨500000, 0, 0, 50, double03⟩ := by
    unfold Circular.Valid InTurn double03; norm_num
  refine ⟨hv, ⟨5404319552844595, -54, by norm_num, by norm_num, by unfold double03; norm_num⟩, ?_⟩
  have e1 : fl (((-24000000 : ℤ) : ℝ) / 86400000000) = -(0x123456789abcdf / 2 ^ 64) := by
    rw [show (((-24000000 : ℤ) : ℝ) / 86400000000) = -(1 / 3600) by norm_num, fl_neg,
      fl_eq_of (n := 0x123456789abcdf) (e := -64) (by norm_num) (by rw [abs_of_pos] <;> norm_num)
        (by rw [abs_of_pos] <;> norm_num) (by rw [abs_lt]; norm_num)]
    norm_num
  have e2 : fl (360 * -(0x123456789abcdf / 2 ^ 64)) = -(0x1999999999999a / 2 ^ 56) := by
    rw [mul_neg, fl_neg, fl_eq_of (n := 0x1999999999999a) (e := -56) (by norm_num) (by rw [abs_of_pos] <;> norm_num)
        (by rw [abs_of_pos] <;> norm_num) (by rw [abs_lt]; norm_num)]
    norm_num
  have e3 : fl (3 * -(0x1999999999999a / 2 ^ 56)) = -double0102 := by
    rw [mul_neg, fl_neg]
    congr 1
    unfold fl
    rw [lastPlace_eq (e := -54) (by norm_num) (by rw [abs_of_pos] <;> norm_num) (by rw [abs_of_pos] <;> norm_num),
      rhe_tie (n := 5404319552844596) (by norm_num) (by norm_num) (by norm_num)]
    unfold double0102
    norm_num
  have e : double03 + -double0102 = -2 ^ (-54 : ℤ) := by unfold double03 double0102; norm_num
  have hj : JustBelow (fl (double03 + -double0102)) := by
    rw [e, fl_of_double (double_neg (double_zpow (by norm_num)))]
    refine ⟨by norm_num, 0, ?_, ?_⟩ <;> norm_num
  have hm : mod360 (fl (double03 + -double0102)) = 360 := (mod360_range _ (fl_double _)).2.2.1.mpr hj
  unfold trainMembers
  apply mapM_error
  · intro i _
    simp only [DoubleLead.derived, Ieee.derived]
    rcases make_or 500000 (thereAndBack (mod360 (fl (thereAndBack 0 + fl (i * trainDeltaMean (I := Unit)
        (.circular ⟨500000, 0, 0, 50, double03⟩) ⟨[], .circular ⟨500000, 0, 0, 50, double03⟩, (), 4, -24000000, true⟩))))) 0 50
        (mod360 (fl (double03 + fl (i * trainDeltaRaan (I := Unit) ⟨[], .circular ⟨500000, 0, 0, 50, double03⟩, (), 4, -24000000, true⟩))))
      with ⟨d, hd⟩ | hd
    · exact .inl ⟨_, by rw [hd]; rfl⟩
    · exact .inr (by rw [hd]; rfl)
  · refine ⟨3, by simp, ?_⟩
    have hr : fl (((3 : ℕ) : ℝ) * trainDeltaRaan (I := Unit) ⟨[], .circular ⟨500000, 0, 0, 50, double03⟩, (), 4, -24000000, true⟩) =
        -double0102 := by
      unfold trainDeltaRaan trainDays
      simp only [if_true]
      rw [e1, e2]
      exact_mod_cast e3
    simp only [DoubleLead.derived, Ieee.derived, hr, hm]
    unfold Circular.make require
    simp only [bind, Except.bind]
    split_ifs <;> first | rfl | (exfalso; norm_num at *)

theorem mean_motion_range {h : ℝ} (hf : Flying h) : ∃ n, Orbit.meanMotion h = .ok n ∧ 0 < n ∧ n ≤ 17.3 := by
  obtain ⟨l, u⟩ := period_bounds hf
  obtain ⟨n, hn, hc⟩ := C168_mean_motion h hf
  refine ⟨n, hn, ?_⟩
  have d := rhe_error (Orbit.orbitPeriodSeconds h * 1000000)
  have e : (Orbit.orbitPeriod h : ℝ) = (roundHalfEven (Orbit.orbitPeriodSeconds h * 1000000) : ℝ) := rfl
  rw [← e, abs_le] at d
  have d1 := d.1; have d2 := d.2
  have hP : (4999999999 : ℝ) ≤ Orbit.orbitPeriod h := by norm_num at *; linarith
  unfold Orbit.meanMotion at hn
  simp only [bind_eq_ok, require_eq_ok, pure, Except.pure, Except.ok.injEq] at hn
  obtain ⟨_, -, _, -, rfl⟩ := hn
  rw [one_div_div]
  exact ⟨by positivity, by rw [div_le_iff₀ (by linarith)]; norm_num at *; linarith⟩

/-- Four satellites a minute apart at 500 km, the first at an anomaly of 90 degrees with its node at 10 degrees. -/
example : ∃ n, Circular.Valid ⟨500000, 90, 0, 50, 10⟩ ∧ Flying 500000 ∧ Orbit.meanMotion 500000 = .ok n ∧
    Short (I := Unit) n ⟨[], .circular ⟨500000, 90, 0, 50, 10⟩, (), 4, 60000000, true⟩ ∧
    (∀ i, 0 < i → i < 4 →
      ¬ SameWithin (|behind (I := Unit) n ⟨[], .circular ⟨500000, 90, 0, 50, 10⟩, (), 4, 60000000, true⟩ i| * 4e-10 + 2e-9)
        (90 - behind (I := Unit) n ⟨[], .circular ⟨500000, 90, 0, 50, 10⟩, (), 4, 60000000, true⟩ i) 0 ∧
      ¬ SameWithin 3e-9 (10 + nodeAhead (I := Unit) ⟨[], .circular ⟨500000, 90, 0, 50, 10⟩, (), 4, 60000000, true⟩ i) 0) := by
  have hf : Flying 500000 := ⟨by norm_num, by norm_num⟩
  obtain ⟨n, hn, n0, n1⟩ := mean_motion_range hf
  have turn : ∀ (x e : ℝ), 5 ≤ x → x ≤ 100 → e ≤ 1 → ¬ SameWithin e x 0 := by
    rintro x e h1 h2 h3 ⟨k, hk⟩
    have := abs_le.mp hk
    rcases lt_trichotomy k 0 with h | h | h
    · have : (k : ℝ) ≤ -1 := by exact_mod_cast (show k ≤ -1 by omega)
      linarith
    · subst h; norm_num at *; linarith
    · have : (1 : ℝ) ≤ k := by exact_mod_cast h
      linarith
  have b : ∀ i < 4, 0 ≤ behind (I := Unit) n ⟨[], .circular ⟨500000, 90, 0, 50, 10⟩, (), 4, 60000000, true⟩ i ∧
      behind (I := Unit) n ⟨[], .circular ⟨500000, 90, 0, 50, 10⟩, (), 4, 60000000, true⟩ i ≤ 20 := by
    intro i hi
    unfold behind intervalDays
    interval_cases i <;> norm_num at * <;> (try constructor) <;> linarith
  refine ⟨n, ?_, hf, hn, ?_, ?_⟩
  · unfold Circular.Valid InTurn; norm_num
  · intro i hi
    obtain ⟨b0, b1⟩ := b i hi
    refine ⟨by rw [abs_of_nonneg b0]; linarith, ?_⟩
    unfold intervalDays
    have hi : i < 4 := hi
    interval_cases i <;> norm_num
  · intro i h0 hi
    obtain ⟨b0, b1⟩ := b i hi
    refine ⟨turn _ _ (by linarith) (by linarith) (by rw [abs_of_nonneg b0]; norm_num; linarith), turn _ _ ?_ ?_ (by norm_num)⟩ <;>
    · unfold nodeAhead intervalDays
      interval_cases i <;> norm_num

end Tatc.Props
