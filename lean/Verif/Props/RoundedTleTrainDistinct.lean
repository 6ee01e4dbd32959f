import Verif.Props.RoundedTleTrain
import Verif.Props.RoundedTleDistinct

/-! C188: members of trains around element sets differ as written. -/

namespace Tatc.Props
open Tatc Tatc.Num Tatc.Ieee Tatc.Spec Tatc.Orbit Tatc.Constellation

/-- What is written, against the place in the train (degrees). -/
theorem written_behind {d x y p : ℝ} (h : SameRadians 4e-11 d (x - radians y)) (hp : Written d p) :
    SameWithin 5.11e-5 p (degrees x - y) := by
  obtain ⟨k, hk⟩ := h
  obtain ⟨l, hl⟩ := hp
  refine ⟨k + l, ?_⟩
  have pp := Real.pi_pos
  have p1 := Real.pi_gt_d2
  have f : |degrees d - (degrees x - y + 360 * k)| ≤ 4e-11 * 60 := by
    have e : degrees d - (degrees x - y + 360 * k) = (d - (x - radians y + 2 * Real.pi * k)) * (180 / Real.pi) := by
      unfold degrees radians; field_simp; ring
    rw [e, abs_mul, abs_of_pos (show 0 < 180 / Real.pi by positivity)]
    refine mul_le_mul hk ?_ (by positivity) (by norm_num)
    rw [div_le_iff₀ pp]; norm_num at *; linarith
  have a1 := abs_le.mp f
  have a2 := abs_le.mp hl
  push_cast
  norm_num at *
  rw [abs_le]; constructor <;> linarith

/-- C188: no two members of a train around element sets are written at the same mean anomaly, when an interval is at least
0.00011 degrees (two milliseconds in a low orbit) and all members are within 359 degrees of the lead. -/
theorem C188_apart {I : Type} (t : Train I) (first : TleElements) (others : List TleElements) (n : ℝ) (hf : first.meanMotion = n)
    (hn : 1e-4 ≤ n) (hs : Short n t) (ha : ∀ s ∈ first :: others, |s.meanAnomaly| ≤ 20 ∧ |s.node| ≤ 20)
    (wide : 1.1e-4 ≤ |behind n t 1|) (turn : ∀ i < t.satellites, |behind n t i| ≤ 359)
    (members : List (Satellite I)) (hm : tleTrainMembers (first :: others) t = .ok members)
    (i j k : Nat) (m m' : Satellite I) (hi : members[i]? = some m) (hj : members[j]? = some m')
    (E E' : List TleElements) (hE : m.orbit = .tle E) (hE' : m'.orbit = .tle E')
    (d d' : TleElements) (hd : E[k]? = some d) (hd' : E'[k]? = some d')
    (anomaly anomaly' : ℝ) (w1 : Written d.meanAnomaly anomaly) (w2 : Written d'.meanAnomaly anomaly') (hne : i ≠ j) :
    anomaly ≠ anomaly' := by
  obtain ⟨f, hf, hg⟩ := C186_train t first others n hf hn hs ha
  rw [hf] at hm
  obtain rfl := Except.ok.inj hm
  simp only [List.getElem?_map, Option.map_eq_some_iff, List.getElem?_eq_some_iff, List.length_range, List.getElem_range] at hi hj
  obtain ⟨_, ⟨hi, rfl⟩, rfl⟩ := hi
  obtain ⟨_, ⟨hj, rfl⟩, rfl⟩ := hj
  simp only [Lead.tle.injEq] at hE hE'
  subst hE hE'
  have gi := hg i hi
  have gj := hg j hj
  have li := gi.length_eq
  obtain ⟨ki, rfl⟩ := List.getElem?_eq_some_iff.mp hd
  obtain ⟨kj, rfl⟩ := List.getElem?_eq_some_iff.mp hd'
  have ks : k < (first :: others).length := by omega
  obtain ⟨-, -, ta, -⟩ := (List.forall₂_iff_get.mp gi).2 k ks ki
  obtain ⟨-, -, tb, -⟩ := (List.forall₂_iff_get.mp gj).2 k ks kj
  simp only [List.get_eq_getElem] at ta tb
  obtain ⟨a, ha'⟩ := written_behind ta w1
  obtain ⟨b, hb'⟩ := written_behind tb w2
  rintro rfl
  generalize degrees (first :: others)[k].meanAnomaly = M at *
  have lin : ∀ i : Nat, behind n t i = i * behind n t 1 := by intro i; unfold behind; push_cast; ring
  -- members that are further along
  have key : ∀ {i j : Nat} {a b : ℤ}, i < t.satellites → j < t.satellites → i < j →
      |anomaly - (M - behind n t i + 360 * a)| ≤ 5.11e-5 → |anomaly - (M - behind n t j + 360 * b)| ≤ 5.11e-5 → False := by
    intro i j a b hi hj hij h1 h2
    have h : |(behind n t j - behind n t i) - 360 * ((b - a : ℤ) : ℝ)| ≤ 1.03e-4 := by
      have a1 := abs_le.mp h1
      have a2 := abs_le.mp h2
      push_cast
      norm_num at *
      rw [abs_le]; constructor <;> linarith
    have e : behind n t j - behind n t i = ((j - i : Nat) : ℝ) * behind n t 1 := by
      rw [lin i, lin j, Nat.cast_sub hij.le]; ring
    have lo : 1.1e-4 ≤ |behind n t j - behind n t i| := by
      rw [e, abs_mul, Nat.abs_cast]
      have : (1 : ℝ) ≤ ((j - i : Nat) : ℝ) := by exact_mod_cast (show 1 ≤ j - i by omega)
      exact wide.trans (le_mul_of_one_le_left (abs_nonneg _) this)
    have hi' : |behind n t j - behind n t i| ≤ 359 := by
      have := turn j hj
      rw [e, abs_mul, Nat.abs_cast]
      rw [lin j, abs_mul, Nat.abs_cast] at this
      refine le_trans (mul_le_mul_of_nonneg_right ?_ (abs_nonneg _)) this
      exact_mod_cast (show j - i ≤ j by omega)
    generalize behind n t j - behind n t i = D at *
    generalize b - a = c at *
    by_cases hc : c = 0
    · subst hc
      rw [Int.cast_zero, mul_zero, sub_zero] at h
      generalize |D| = X at *
      norm_num at *; linarith
    · have h1 : (1 : ℝ) ≤ |(c : ℝ)| := by exact_mod_cast Int.one_le_abs hc
      have h2 := abs_sub_abs_le_abs_sub (360 * (c : ℝ)) D
      rw [abs_sub_comm (360 * (c : ℝ)) D, abs_mul, abs_of_pos (show (0 : ℝ) < 360 by norm_num)] at h2
      generalize |D| = X at *
      generalize |D - 360 * (c : ℝ)| = Y at *
      generalize |(c : ℝ)| = Z at *
      norm_num at *; linarith
  rcases Nat.lt_or_gt_of_ne hne with h | h
  · exact key hi hj h ha' hb'
  · exact key hj hi h hb' ha'

/-- One radian and less than a millionth of a degree more or less is written as 57.2958. -/
theorem written_one {d y : ℝ} (hy : |y| ≤ 1e-6) (h : SameRadians 4e-11 d (1 + radians y)) : Written d 57.2958 := by
  obtain ⟨k, hk⟩ := h
  refine ⟨-k, ?_⟩
  have pp := Real.pi_pos
  have p1 := Real.pi_gt_d6
  have p2 := Real.pi_lt_d6
  have f : |degrees d - (180 / Real.pi + y + 360 * k)| ≤ 4e-11 * 60 := by
    have e : degrees d - (180 / Real.pi + y + 360 * k) = (d - (1 + radians y + 2 * Real.pi * k)) * (180 / Real.pi) := by
      unfold degrees radians; field_simp; ring
    rw [e, abs_mul, abs_of_pos (show 0 < 180 / Real.pi by positivity)]
    refine mul_le_mul hk ?_ (by positivity) (by norm_num)
    rw [div_le_iff₀ pp]; norm_num at *; linarith
  have q1 : 180 / Real.pi ≤ 57.2959 - 7e-5 := by rw [div_le_iff₀ pp]; norm_num at *; linarith
  have q2 : 57.2957 ≤ 180 / Real.pi - 5.3e-5 := by rw [le_sub_iff_add_le, le_div_iff₀ pp]; norm_num at *; linarith
  have a1 := abs_le.mp f
  have a2 := abs_le.mp hy
  push_cast
  norm_num at *
  rw [abs_le]; constructor <;> linarith

/-- Without a least interval the claim is false: two satellites a microsecond apart are written at the same mean anomaly (57.2958)
and with the same node. -/
theorem C188_short_false : let t : Train Unit := ⟨[], .tle [⟨1, 1, 15.5, 0⟩], (), 2, 1, true⟩
    ∃ m m' : Satellite Unit, ∃ d d' : TleElements, tleTrainMembers [⟨1, 1, 15.5, 0⟩] t = .ok [m, m'] ∧
      m.orbit = .tle [d] ∧ m'.orbit = .tle [d'] ∧ Written d.meanAnomaly 57.2958 ∧ Written d'.meanAnomaly 57.2958 ∧
      Written d.node 57.2958 ∧ Written d'.node 57.2958 := by
  intro t
  have sh : Short 15.5 t := by
    intro i hi
    have : (i : ℝ) ≤ 2 := by exact_mod_cast hi.le
    have h0 : (0 : ℝ) ≤ i := Nat.cast_nonneg i
    unfold behind intervalDays
    constructor <;> rw [abs_le] <;> constructor <;> norm_num [t] <;> linarith
  obtain ⟨f, hf, hg⟩ := C186_train t ⟨1, 1, 15.5, 0⟩ [] 15.5 rfl (by norm_num) sh (by
    intro s hs; rw [List.mem_singleton] at hs; subst hs; constructor <;> norm_num)
  have one : ∀ i < 2, ∃ d, f i = [d] ∧ Written d.meanAnomaly 57.2958 ∧ Written d.node 57.2958 := by
    intro i hi
    have g := hg i hi
    rw [List.forall₂_cons_left_iff] at g
    obtain ⟨d, l, ⟨-, -, h1, h2⟩, h3, e⟩ := g
    rw [List.forall₂_nil_left_iff] at h3
    subst h3
    refine ⟨d, e, ?_, ?_⟩
    all_goals
      have i2 : (i : ℝ) ≤ 1 := by exact_mod_cast Nat.le_of_lt_succ hi
      have i0 : (0 : ℝ) ≤ i := Nat.cast_nonneg i
      have pp := Real.pi_pos
      have p1 := Real.pi_gt_d6
      have p2 := Real.pi_lt_d6
    · obtain ⟨k, hk⟩ := h1
      refine written_one (y := -behind 15.5 t i) ?_ ⟨k, ?_⟩
      · unfold behind intervalDays; rw [abs_le]; constructor <;> norm_num [t] <;> linarith
      · have : radians (-behind 15.5 t i) = -radians (behind 15.5 t i) := by unfold radians; ring
        rwa [this, ← sub_eq_add_neg]
    · obtain ⟨k, hk⟩ := h2
      refine written_one (y := nodeAhead t i) ?_ ⟨k, hk⟩
      unfold nodeAhead intervalDays; rw [abs_le]; constructor <;> norm_num [t] <;> linarith
  obtain ⟨d, e1, a1, b1⟩ := one 0 (by norm_num)
  obtain ⟨d', e2, a2, b2⟩ := one 1 (by norm_num)
  refine ⟨_, _, d, d', hf, ?_, ?_, a1, a2, b1, b2⟩
  · exact congrArg Lead.tle e1
  · exact congrArg Lead.tle e2

/-- A train of four satellites a minute apart, at fifteen and a half revolutions a day. -/
example : let t : Train Unit := ⟨[], .tle [⟨5.67, 4.32, 15.5, 0⟩], (), 4, 60000000, true⟩
    1.1e-4 ≤ |behind 15.5 t 1| ∧ ∀ i < t.satellites, |behind 15.5 t i| ≤ 359 := by
  refine ⟨?_, fun i hi => ?_⟩
  · unfold behind intervalDays; norm_num
  · have : (i : ℝ) ≤ 4 := by exact_mod_cast hi.le
    have h0 : (0 : ℝ) ≤ i := Nat.cast_nonneg i
    unfold behind intervalDays
    rw [abs_le]
    constructor <;> norm_num <;> linarith

end Tatc.Props
