import Verif.Props.RoundedTle
import Verif.Props.RoundedTrain

/-! C186: trains around element sets in double precision. -/

namespace Tatc.Props
open Tatc Tatc.Num Tatc.Ieee Tatc.Spec Tatc.Orbit Tatc.Constellation

/-- C186: all members of a train around element sets are generated, in order; the mean anomaly of member `i` is `i` intervals
behind at the mean motion `n` of the first set, and its node where the Earth has turned to in `i` intervals (or that of the lead),
within `4·10⁻¹¹` radians (a quarter of a millimetre on the ground) and up to whole turns. -/
theorem C186_train {I : Type} (t : Train I) (first : TleElements) (others : List TleElements) (n : ℝ) (hf : first.meanMotion = n)
    (hn : 1e-4 ≤ n) (hs : Short n t) (ha : ∀ s ∈ first :: others, |s.meanAnomaly| ≤ 20 ∧ |s.node| ≤ 20) :
    ∃ elements : Nat → List TleElements,
      tleTrainMembers (first :: others) t = .ok ((List.range t.satellites).map (fun i =>
        ⟨zeroPad t.name t.satellites (i + 1), .tle (elements i), t.instruments⟩)) ∧
      ∀ i < t.satellites, List.Forall₂ (fun s d : TleElements => d.meanMotion = s.meanMotion ∧ d.rest = s.rest ∧
        SameRadians 4e-11 d.meanAnomaly (s.meanAnomaly - radians (behind n t i)) ∧
        SameRadians 4e-11 d.node (s.node + radians (nodeAhead t i))) (first :: others) (elements i) := by
  refine ⟨fun i => Ieee.tleDerived (first :: others) (fl (i * fl (fl (-360 * first.meanMotion) * trainDays t)))
    (fl (i * trainDeltaRaan t)), rfl, fun i hi => ?_⟩
  subst hf
  obtain ⟨s1, s2⟩ := hs i hi
  have r : Rel 1 (fl (360 * first.meanMotion)) (360 * first.meanMotion) :=
    (Rel.refl (by norm_num at *; linarith)).fl' (by norm_num) (by norm_num at *; linarith)
  have A : |fl (i * fl (fl (-360 * first.meanMotion) * trainDays t)) - -behind first.meanMotion t i| ≤
      |behind first.meanMotion t i| * 1.2e-15 := by
    have := multiple_close i t.interval (by norm_num at *; linarith) r
    unfold trainDays behind intervalDays
    rw [neg_mul, fl_neg, neg_mul, fl_neg, mul_neg, fl_neg, neg_sub_neg, abs_sub_comm]
    exact this
  have B := train_raan t i
  change |_ - nodeAhead t i| ≤ _ at B
  have nb : |nodeAhead t i| ≤ 900000 := by
    unfold nodeAhead
    split_ifs
    · exact s2
    · norm_num
  have a1 : |fl (i * fl (fl (-360 * first.meanMotion) * trainDays t))| ≤ 1000000 := by
    have := abs_sub_abs_le_abs_sub (fl (i * fl (fl (-360 * first.meanMotion) * trainDays t))) (-behind first.meanMotion t i)
    rw [abs_neg] at this
    generalize |behind first.meanMotion t i| = X at *
    generalize |fl (i * fl (fl (-360 * first.meanMotion) * trainDays t))| = Y at *
    generalize abs (fl (i * fl (fl (-360 * first.meanMotion) * trainDays t)) - -behind first.meanMotion t i) = Z at *
    norm_num at *; linarith
  have b1 : |fl (i * trainDeltaRaan t)| ≤ 1000000 := by
    have := abs_sub_abs_le_abs_sub (fl (i * trainDeltaRaan t)) (nodeAhead t i)
    generalize |nodeAhead t i| = X at *
    generalize |fl (i * trainDeltaRaan t)| = Y at *
    generalize |i * (360 * intervalDays t)| = W at *
    generalize abs (fl (i * trainDeltaRaan t) - nodeAhead t i) = Z at *
    norm_num at *; linarith
  have a2 : |fl (i * fl (fl (-360 * first.meanMotion) * trainDays t)) - -behind first.meanMotion t i| ≤ 1.2e-9 := by
    refine A.trans ?_
    generalize |behind first.meanMotion t i| = X at *
    norm_num at *; linarith
  have b2 : |fl (i * trainDeltaRaan t) - nodeAhead t i| ≤ 1.2e-9 := by
    refine B.trans ?_
    generalize |i * (360 * intervalDays t)| = W at *
    norm_num at *; linarith
  have p2 := Real.pi_lt_d2
  have move : ∀ {a x y z : ℝ}, |y - z| ≤ 1.2e-9 → SameRadians 1e-11 a (x + radians y) → SameRadians 4e-11 a (x + radians z) := by
    rintro a x y z h ⟨k, hk⟩
    refine ⟨k, ?_⟩
    have e : radians y - radians z = (y - z) * (Real.pi / 180) := by unfold radians; ring
    have f : |radians y - radians z| ≤ 1.2e-9 * 0.0175 := by
      rw [e, abs_mul, abs_of_pos (show 0 < Real.pi / 180 by positivity)]
      exact mul_le_mul h (by norm_num at *; linarith) (by positivity) (by norm_num)
    have h1 := abs_le.mp hk
    have h2 := abs_le.mp f
    norm_num at *
    rw [abs_le]; constructor <;> linarith
  refine (C185_derived (first :: others) ha _ _ a1 b1).imp fun s d ⟨a, b, _, _, c, e⟩ => ⟨a, b, ?_, move b2 e⟩
  have := move a2 c
  have g : radians (-behind first.meanMotion t i) = -radians (behind first.meanMotion t i) := by unfold radians; ring
  rwa [g, ← sub_eq_add_neg] at this

/-- A train of four satellites a minute apart, at fifteen and a half revolutions a day. -/
example : Short (I := Unit) 15.5 ⟨[], .tle [⟨5.67, 4.32, 15.5, 0⟩], (), 4, 60000000, true⟩ := by
  intro i hi
  have hi : i < 4 := hi
  unfold behind intervalDays
  interval_cases i <;> norm_num [abs_of_pos]

end Tatc.Props
