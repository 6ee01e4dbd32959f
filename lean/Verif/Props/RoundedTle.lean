import Verif.Props.RoundedWalkerKeplerian
import Verif.Model.IeeeTle

/-! C185: derived element sets in double precision. -/

namespace Tatc.Props
open Tatc Tatc.Num Tatc.Ieee Tatc.Spec Tatc.Orbit Tatc.Constellation

/-- Two angles (radians) are the same within `error`, but for whole turns. -/
def SameRadians (error a b : ℝ) : Prop := ∃ turns : ℤ, |a - (b + 2 * Real.pi * turns)| ≤ error

theorem fullTurn_pos : 0 < fullTurn := by unfold fullTurn; positivity

theorem fullTurn_double : IsDouble fullTurn := ⟨7074237752028440, -50, by norm_num, by norm_num, by unfold fullTurn; norm_num⟩

theorem fullTurn_close : |fullTurn - 2 * Real.pi| ≤ 3e-16 := by
  have p1 := Real.pi_gt_d20
  have p2 := Real.pi_lt_d20
  unfold fullTurn
  rw [abs_le]
  norm_num at *
  constructor <;> linarith

theorem modTurn_range (a : ℝ) : 0 ≤ modTurn a ∧ modTurn a ≤ fullTurn := by
  unfold modTurn
  have r1 := npMod_nonneg (-a) fullTurn_pos
  have r2 := npMod_lt (-a) fullTurn_pos
  split_ifs with h0
  · exact ⟨npMod_nonneg a fullTurn_pos, (npMod_lt a fullTurn_pos).le⟩
  · simp only
    split_ifs with hr
    · exact ⟨le_rfl, fullTurn_pos.le⟩
    · exact ⟨fl_nonneg (by linarith), fl_le fullTurn_double (by linarith)⟩

theorem modTurn_close (a : ℝ) (ha : |a| ≤ 18000) : SameRadians 2e-12 (modTurn a) a := by
  have tp := fullTurn_pos
  have t6 : 6.28 ≤ fullTurn := by unfold fullTurn; norm_num
  have t7 : fullTurn ≤ 6.29 := by unfold fullTurn; norm_num
  -- a whole number of turns of the machine is that number of turns, but for little
  have key : ∀ (x y : ℝ) (k : ℤ), |x - (a + fullTurn * k)| ≤ 1e-15 → 0 ≤ x → x ≤ fullTurn → SameRadians 2e-12 x a := by
    intro x y k h x0 x1
    refine ⟨k, ?_⟩
    have h' := abs_le.mp h
    have a' := abs_le.mp ha
    have kb : |(k : ℝ)| ≤ 2900 := by
      rw [abs_le]
      constructor
      · by_contra hcon
        push Not at hcon
        have : fullTurn * k ≤ fullTurn * -2900 := mul_le_mul_of_nonneg_left hcon.le tp.le
        norm_num at *; linarith
      · by_contra hcon
        push Not at hcon
        have : fullTurn * 2900 ≤ fullTurn * k := mul_le_mul_of_nonneg_left hcon.le tp.le
        norm_num at *; linarith
    have d : |(fullTurn - 2 * Real.pi) * k| ≤ 3e-16 * 2900 := by
      rw [abs_mul]; exact mul_le_mul fullTurn_close kb (abs_nonneg _) (by norm_num)
    have e : x - (a + 2 * Real.pi * k) = (x - (a + fullTurn * k)) + (fullTurn - 2 * Real.pi) * k := by ring
    rw [e]
    refine (abs_add_le _ _).trans ((add_le_add h d).trans (by norm_num))
  obtain ⟨m0, m1⟩ := modTurn_range a
  have r1 := npMod_nonneg (-a) fullTurn_pos
  have r2 := npMod_lt (-a) fullTurn_pos
  obtain ⟨k, hk⟩ := npMod_spec (-a) fullTurn
  obtain ⟨l, hl⟩ := npMod_spec a fullTurn
  unfold modTurn at *
  split_ifs at * with h0
  · exact key _ 0 l (by rw [hl]; simp; norm_num) m0 m1
  · simp only at *
    split_ifs at * with hr
    · refine key _ 0 (-k) ?_ m0 m1
      have : a + fullTurn * ((-k : ℤ) : ℝ) = 0 := by push_cast; linarith
      rw [this]; norm_num
    · refine key _ 0 (-k + 1) ?_ m0 m1
      have e : a + fullTurn * ((-k + 1 : ℤ) : ℝ) = -npMod (-a) fullTurn + fullTurn := by push_cast; linarith
      rw [e]
      refine (fl_close' _).trans ?_
      have h1 : |-npMod (-a) fullTurn + fullTurn| ≤ 6.29 := by rw [abs_of_nonneg (by linarith)]; linarith
      generalize |-npMod (-a) fullTurn + fullTurn| = A at *
      norm_num at *
      linarith

/-- An angle of an element set, increased. -/
theorem tle_angle (x d : ℝ) (hx : |x| ≤ 20) (hd : |d| ≤ 1000000) :
    SameRadians 1e-11 (modTurn (fl (x + fl (d * radianFactor)))) (x + radians d) := by
  have f1 := fl_close' (d * radianFactor)
  have f2 := fl_close' (x + fl (d * radianFactor))
  have rf : |radianFactor - Real.pi / 180| ≤ 1e-18 := by
    have p1 := Real.pi_gt_d20
    have p2 := Real.pi_lt_d20
    unfold radianFactor
    rw [abs_le]
    norm_num at *
    constructor <;> linarith
  have r1 : |radianFactor| ≤ 0.01746 := by unfold radianFactor; rw [abs_of_pos (by positivity)]; norm_num
  have g1 : |d * radianFactor| ≤ 17460 := by
    rw [abs_mul]
    calc |d| * |radianFactor| ≤ 1000000 * 0.01746 := mul_le_mul hd r1 (abs_nonneg _) (by norm_num)
      _ = 17460 := by norm_num
  have g2 : |d * radianFactor - radians d| ≤ 1e-12 := by
    have : d * radianFactor - radians d = d * (radianFactor - Real.pi / 180) := by unfold radians; ring
    rw [this, abs_mul]
    calc |d| * |radianFactor - Real.pi / 180| ≤ 1000000 * 1e-18 := mul_le_mul hd rf (abs_nonneg _) (by norm_num)
      _ = 1e-12 := by norm_num
  have g3 : |fl (d * radianFactor)| ≤ 17461 := by
    have := abs_sub_abs_le_abs_sub (fl (d * radianFactor)) (d * radianFactor)
    generalize |d * radianFactor| = A at *
    generalize |fl (d * radianFactor)| = B at *
    generalize |fl (d * radianFactor) - d * radianFactor| = C at *
    norm_num at *; linarith
  have g4 : |x + fl (d * radianFactor)| ≤ 17481 := (abs_add_le _ _).trans (by linarith)
  have g5 : |fl (x + fl (d * radianFactor))| ≤ 18000 := by
    have := abs_sub_abs_le_abs_sub (fl (x + fl (d * radianFactor))) (x + fl (d * radianFactor))
    generalize |x + fl (d * radianFactor)| = A at *
    generalize |fl (x + fl (d * radianFactor))| = B at *
    generalize |fl (x + fl (d * radianFactor)) - (x + fl (d * radianFactor))| = C at *
    norm_num at *; linarith
  obtain ⟨k, hk⟩ := modTurn_close _ g5
  refine ⟨k, ?_⟩
  generalize |x + fl (d * radianFactor)| = A at *
  generalize |d * radianFactor| = B at *
  have h1 := abs_le.mp f1
  have h2 := abs_le.mp f2
  have h3 := abs_le.mp g2
  have h4 := abs_le.mp hk
  clear f1 f2 g2 hk g3 g5 rf r1 hx hd
  norm_num at *
  rw [abs_le]; constructor <;> linarith

/-- C185: the angles of a derived element set are from 0 to the double precision number next to a full turn, and the exact ones
within `10⁻¹¹` radians and up to whole turns, for increases up to a million degrees.  All else is kept. -/
theorem C185_derived (sets : List TleElements) (hs : ∀ s ∈ sets, |s.meanAnomaly| ≤ 20 ∧ |s.node| ≤ 20) (dM dRaan : ℝ)
    (h1 : |dM| ≤ 1000000) (h2 : |dRaan| ≤ 1000000) :
    List.Forall₂ (fun s d : TleElements => d.meanMotion = s.meanMotion ∧ d.rest = s.rest ∧
      (0 ≤ d.meanAnomaly ∧ d.meanAnomaly ≤ 2 * Real.pi) ∧ (0 ≤ d.node ∧ d.node ≤ 2 * Real.pi) ∧
      SameRadians 1e-11 d.meanAnomaly (s.meanAnomaly + radians dM) ∧ SameRadians 1e-11 d.node (s.node + radians dRaan))
      sets (Ieee.tleDerived sets dM dRaan) := by
  have le : fullTurn ≤ 2 * Real.pi := by
    have := Real.pi_gt_d20
    unfold fullTurn
    norm_num at *; linarith
  unfold Ieee.tleDerived
  rw [List.forall₂_map_right_iff, List.forall₂_same]
  intro s hs'
  obtain ⟨m, n⟩ := hs s hs'
  obtain ⟨a1, a2⟩ := modTurn_range (fl (s.meanAnomaly + fl (dM * radianFactor)))
  obtain ⟨b1, b2⟩ := modTurn_range (fl (s.node + fl (dRaan * radianFactor)))
  exact ⟨rfl, rfl, ⟨a1, a2.trans le⟩, ⟨b1, b2.trans le⟩, tle_angle _ _ m h1, tle_angle _ _ n h2⟩

/-- C185: the members of a Walker constellation around element sets are in their places in the pattern within `3·10⁻¹¹` radians
(less than a millimetre). -/
theorem C185_walker {I : Type} (w : Walker I) (hw : Walker.Accepted w) (hn : w.satellites ≤ 10 ^ 9) (hp : w.planes ≤ 2700)
    (sets : List TleElements) (hs : ∀ s ∈ sets, |s.meanAnomaly| ≤ 20 ∧ |s.node| ≤ 20) :
    ∃ elements : Nat → List TleElements,
      tleWalkerMembers sets w = (List.range w.satellites).map (fun i =>
        ⟨zeroPad w.name w.satellites (i + 1), .tle (elements i), w.instruments⟩) ∧
      ∀ i < w.satellites, List.Forall₂ (fun s d : TleElements => d.meanMotion = s.meanMotion ∧ d.rest = s.rest ∧
        SameRadians 3e-11 d.meanAnomaly (s.meanAnomaly + radians (slotAnomaly w.satellites w.planes w.spacing i)) ∧
        SameRadians 3e-11 d.node (s.node + radians (slotNode w.star w.satellites w.planes i))) sets (elements i) := by
  refine ⟨fun i => Ieee.tleDerived sets (walkerIncrements w i).1 (walkerIncrements w i).2, rfl, fun i hi => ?_⟩
  obtain ⟨m0, m1, n0, n1, cm, cn⟩ := increments_close w hw hn hp hi
  have p2 := Real.pi_lt_d2
  have move : ∀ {a x y z : ℝ}, |y - z| ≤ 9e-10 → SameRadians 1e-11 a (x + radians y) → SameRadians 3e-11 a (x + radians z) := by
    rintro a x y z h ⟨k, hk⟩
    refine ⟨k, ?_⟩
    have e : radians y - radians z = (y - z) * (Real.pi / 180) := by unfold radians; ring
    have f : |radians y - radians z| ≤ 9e-10 * 0.0175 := by
      rw [e, abs_mul, abs_of_pos (show 0 < Real.pi / 180 by positivity)]
      exact mul_le_mul h (by norm_num at *; linarith) (by positivity) (by norm_num)
    have h1 := abs_le.mp hk
    have h2 := abs_le.mp f
    norm_num at *
    rw [abs_le]; constructor <;> linarith
  exact (C185_derived sets hs _ _ (by rw [abs_of_nonneg m0]; exact m1) (by rw [abs_of_nonneg n0]; exact n1)).imp
    fun s d ⟨a, b, _, _, c, e⟩ => ⟨a, b, move cm c, move cn e⟩

/-- Refuted: angles of derived element sets are less than a full turn of the machine.  A mean anomaly of zero decreased by
`2⁻⁵⁵` degrees comes out as `2 * np.pi`, which is written as 360.0000. -/
theorem C185_turn_false : ∃ s : TleElements, |s.meanAnomaly| ≤ 20 ∧
    (Ieee.tleDerived [s] (-1 / 2 ^ 55) 0).map (·.meanAnomaly) = [fullTurn] := by
  refine ⟨⟨0, 0, 15, 0⟩, by norm_num, ?_⟩
  have a : fl (-1 / 2 ^ 55 * radianFactor) = -1 / 2 ^ 55 * radianFactor :=
    fl_of_double ⟨-5030569068109113, -113, by norm_num, by norm_num, by unfold radianFactor; norm_num⟩
  have b : modTurn (-1 / 2 ^ 55 * radianFactor) = fullTurn := by
    have neg : ¬ 0 ≤ -1 / 2 ^ 55 * radianFactor := by unfold radianFactor; norm_num
    have self : npMod (-(-1 / 2 ^ 55 * radianFactor)) fullTurn = -(-1 / 2 ^ 55 * radianFactor) :=
      npMod_self_of_range (by unfold radianFactor; norm_num) (by unfold radianFactor fullTurn; norm_num)
    unfold modTurn
    rw [if_neg neg, self]
    simp only
    rw [if_neg (by unfold radianFactor; norm_num)]
    have : fl (-(-(-1 / 2 ^ 55 * radianFactor)) + fullTurn) = (7074237752028440 : ℤ) * 2 ^ (-50 : ℤ) := by
      apply fl_eq_of (by norm_num) <;> unfold radianFactor fullTurn
      · rw [abs_of_pos (by norm_num)]; norm_num
      · rw [abs_of_pos (by norm_num)]; norm_num
      · rw [abs_lt]; norm_num
    rw [this]
    unfold fullTurn
    norm_num
  simp only [Ieee.tleDerived, List.map_cons, List.map_nil, zero_add, a, b]

/-- The elements of the space station, in radians. -/
example : ∀ s ∈ [(⟨5.67, 4.32, 15.5, 0⟩ : TleElements)], |s.meanAnomaly| ≤ 20 ∧ |s.node| ≤ 20 := by
  intro s hs
  simp only [List.mem_cons, List.not_mem_nil, or_false] at hs
  subst hs
  norm_num [abs_of_pos]

end Tatc.Props
