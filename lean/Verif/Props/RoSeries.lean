import Verif.Props.RoArcs
import Verif.Props.RoGeometry

/-!
# C57 and C77 for the motion of a transmitter and a receiver
-/

namespace Tatc.Props
open Tatc.Ro Tatc.Spec Tatc.Num
open scoped Classical

/-- The satellites at a time occult: the point of the ray that is orthogonal to it lies strictly between them, its
elevation is strictly inside the range, and the transmitter's yaw is accepted. -/
def Occults (geo : Geodetic) (t : Transmitter) (rx w : Int → V3) (maxYaw lo hi : ℝ) (time : Int) : Prop :=
  (∃ r, 0 < r ∧ r < 1 ∧ (onRay (t.position time) (rx time) r).dot (sub (t.position time) (rx time)) = 0 ∧
    ∃ v, Moves (fun a => tangentPoint ((t.position time).add ((t.velocity time).smul a))
      ((rx time).add ((w time).smul a))) v 0 ∧
    lo < (geo time (onRay (t.position time) (rx time) r) v).2.2 ∧
    (geo time (onRay (t.position time) (rx time) r) v).2.2 < hi) ∧
  yawAccepted (yaw (t.position time) (rx time) (w time)) maxYaw = true

theorem onRay_orthogonal_unique {tx rx : V3} (h : tx ≠ rx) {r q : ℝ}
    (hr : (onRay tx rx r).dot (sub tx rx) = 0) (hq : (onRay tx rx q).dot (sub tx rx) = 0) : r = q := by
  have hd := sub_dot_self_pos h
  have : (r - q) * (sub tx rx).dot (sub tx rx) = 0 := by
    have := sub_eq_zero.mpr (hr.trans hq.symm)
    rw [← this]
    simp only [onRay, sub, V3.dot]; ring
  rcases mul_eq_zero.mp this with h' | h'
  · linarith
  · exact absurd h' hd.ne'

theorem moves_line (p v : V3) : Moves (fun a => p.add (v.smul a)) v 0 :=
  ⟨(((hasDerivAt_id 0).mul_const v.x).const_add p.x).congr_deriv (one_mul _),
    (((hasDerivAt_id 0).mul_const v.y).const_add p.y).congr_deriv (one_mul _),
    (((hasDerivAt_id 0).mul_const v.z).const_add p.z).congr_deriv (one_mul _)⟩

theorem line_zero (p v : V3) : p.add (v.smul 0) = p := by
  ext <;> simp [V3.add, V3.smul]

theorem moves_unique {p : ℝ → V3} {u v : V3} {t : ℝ} (h1 : Moves p u t) (h2 : Moves p v t) : u = v :=
  V3.ext (h1.1.unique h2.1) (h1.2.1.unique h2.2.1) (h1.2.2.unique h2.2.2)

theorem counts_iff (geo : Geodetic) (t : Transmitter) (rx w : Int → V3) (maxYaw lo hi : ℝ) (time : Int)
    (h : t.position time ≠ rx time) :
    Counts lo hi (sampleAt geo t rx w maxYaw time) ↔ Occults geo t rx w maxYaw lo hi time := by
  obtain ⟨r, hr, horth, -, hsign⟩ := C58_tangent_point (t.position time) (rx time) h
  have horth' : (onRay (t.position time) (rx time) r).dot (sub (t.position time) (rx time)) = 0 := by
    rw [hr] at horth; exact horth
  have hvel := C59_tangent_velocity (fun a => (t.position time).add ((t.velocity time).smul a))
    (fun a => (rx time).add ((w time).smul a)) (t.velocity time) (w time) 0 (moves_line _ _) (moves_line _ _)
    (by simpa only [line_zero] using h)
  simp only [line_zero] at hvel
  unfold Counts Occults sampleAt valid
  simp only [Bool.and_eq_true, decide_eq_true_iff, hsign]
  constructor
  · rintro ⟨⟨⟨h0, h1⟩, hy⟩, hl, hh⟩
    exact ⟨⟨r, h0, h1, horth', _, hvel, hr ▸ hl, hr ▸ hh⟩, hy⟩
  · rintro ⟨⟨q, h0, h1, hq, v, hv, hl, hh⟩, hy⟩
    obtain rfl := onRay_orthogonal_unique h horth' hq
    obtain rfl := moves_unique hvel hv
    exact ⟨⟨⟨h0, h1⟩, hy⟩, hr.symm ▸ hl, hr.symm ▸ hh⟩

/-- A receiver and a transmitter on the two sides of the earth's limb, the receiver moving towards the transmitter,
occult. -/
theorem occults_sample : Occults (fun _ _ _ => (0, 0, 0)) ⟨"G01", fun _ => ⟨1, 0, 1⟩, fun _ => ⟨0, 1, 0⟩, fun _ _ => 0⟩
    (fun _ => ⟨-1, 0, 1⟩) (fun _ => ⟨1, 0, 0⟩) 65 (-1) 1 0 := by
  have hne : (⟨1, 0, 1⟩ : V3) ≠ ⟨-1, 0, 1⟩ := fun h => by have := congrArg V3.x h; norm_num at this
  refine ⟨⟨1 / 2, by norm_num, by norm_num, by norm_num [onRay, sub, V3.dot], _,
    C59_tangent_velocity _ _ _ _ 0 (moves_line _ _) (moves_line _ _) (by simpa only [line_zero] using hne),
    by norm_num, by norm_num⟩, ?_⟩
  have hyaw : yaw ⟨1, 0, 1⟩ ⟨-1, 0, 1⟩ ⟨1, 0, 0⟩ = 0 := by
    have e2 : Real.sqrt 2 * Real.sqrt 2 = 2 := Real.mul_self_sqrt (by norm_num)
    have h2 : Real.sqrt 2 ≠ 0 := by intro h0; rw [h0] at e2; norm_num at e2
    unfold yaw arctan2 degrees
    have hz : (⟨(sub (sub ⟨1, 0, 1⟩ ⟨-1, 0, 1⟩) ((up ⟨-1, 0, 1⟩ ⟨1, 0, 0⟩).smul
          ((up ⟨-1, 0, 1⟩ ⟨1, 0, 0⟩).dot (sub ⟨1, 0, 1⟩ ⟨-1, 0, 1⟩)))).dot (along ⟨-1, 0, 1⟩ ⟨1, 0, 0⟩),
        (sub (sub ⟨1, 0, 1⟩ ⟨-1, 0, 1⟩) ((up ⟨-1, 0, 1⟩ ⟨1, 0, 0⟩).smul
          ((up ⟨-1, 0, 1⟩ ⟨1, 0, 0⟩).dot (sub ⟨1, 0, 1⟩ ⟨-1, 0, 1⟩)))).dot (across ⟨-1, 0, 1⟩ ⟨1, 0, 0⟩)⟩ : ℂ) =
        ((1 : ℝ) : ℂ) := by
      apply Complex.ext
      · norm_num [sub, up, along, unit, V3.dot, V3.smul]
        field_simp
        rw [sq, e2]; norm_num
      · norm_num [sub, up, across, unit, V3.dot, V3.smul, V3.cross]
    simp only
    rw [hz, Complex.arg_ofReal_of_nonneg zero_le_one, zero_mul]
  show yawAccepted (yaw ⟨1, 0, 1⟩ ⟨-1, 0, 1⟩ ⟨1, 0, 0⟩) 65 = true
  rw [hyaw, C60_yaw_partial 65 0 (by norm_num) (by norm_num) (by norm_num)]
  left; norm_num

/-- C57 for the motion: the arcs of a transmitter are, in order, exactly the maximal runs of times at which it
occults, with one sample for each time of the run. -/
theorem C57_series (geo : Geodetic) (t : Transmitter) (rx w : Int → V3) (times : List Int) (maxYaw lo hi : ℝ)
    (h : ∀ time, t.position time ≠ rx time) :
    ∃ runs : List (Nat × Nat),
      (collectSeries geo rx w times maxYaw lo hi t).map (fun a => (a.tx, a.points.map (·.time))) =
        runs.map (fun r => (t.name, (List.range' r.1 (r.2 - r.1)).map fun i => times.getD i 0)) ∧
      runs.Pairwise (fun a b => a.2 < b.1) ∧
      ∀ a e, (a, e) ∈ runs ↔
        MaximalRun (fun i => Occults geo t rx w maxYaw lo hi (times.getD i 0)) times.length a e := by
  obtain ⟨runs, heq, hpair, hmem⟩ := C57_arcs t.name times.length
    (fun j => sampleAt geo t rx w maxYaw (times.getD j 0)) lo hi
  refine ⟨runs, ?_, hpair, ?_⟩
  · unfold collectSeries
    rw [heq, List.map_map]
    apply List.map_congr_left
    intro r _
    simp only [Function.comp, List.map_map]
    rfl
  · intro a e
    rw [hmem]
    have : (fun i => Counts lo hi (sampleAt geo t rx w maxYaw (times.getD i 0))) =
        fun i => Occults geo t rx w maxYaw lo hi (times.getD i 0) := by
      funext i
      exact propext (counts_iff geo t rx w maxYaw lo hi _ (h _))
    rw [this]

/-- C77 for the motion: an arc is rising exactly when, at the time of its first sample, the transmitter is ahead of the
receiver. -/
theorem C77_series (geo : Geodetic) (t : Transmitter) (rx w : Int → V3) (times : List Int) (maxYaw lo hi : ℝ)
    (h : ∀ time, t.position time ≠ rx time) (hw : ∀ time, w time ≠ ⟨0, 0, 0⟩)
    (arc : Arc) (harc : arc ∈ collectSeries geo rx w times maxYaw lo hi t) :
    ∃ p, arc.points.head? = some p ∧ p.time ∈ times ∧
      (arc.isRising = true ↔ 0 < ((t.position p.time).x - (rx p.time).x) * (w p.time).x +
        ((t.position p.time).y - (rx p.time).y) * (w p.time).y +
        ((t.position p.time).z - (rx p.time).z) * (w p.time).z) := by
  obtain ⟨runs, heq, hpair, hmem⟩ := C57_arcs t.name times.length
    (fun j => sampleAt geo t rx w maxYaw (times.getD j 0)) lo hi
  unfold collectSeries at harc
  rw [heq, List.mem_map] at harc
  obtain ⟨⟨a, e⟩, hr, rfl⟩ := harc
  obtain ⟨h1, h2, h3, -⟩ := (hmem a e).mp hr
  obtain ⟨m, hm⟩ : ∃ m, e - a = m + 1 := ⟨e - a - 1, by omega⟩
  refine ⟨sampleAt geo t rx w maxYaw (times.getD a 0), ?_, ?_, ?_⟩
  · simp only [hm, List.range'_succ, List.map_cons, List.head?_cons]
  · show times.getD a 0 ∈ times
    rw [List.getD_eq_getElem?_getD, List.getElem?_eq_getElem (show a < times.length by omega), Option.getD_some]
    exact List.getElem_mem _
  · have hc := h3 a le_rfl h1
    have hv := hc.1
    simp only [sampleAt, valid, Bool.and_eq_true, decide_eq_true_iff] at hv
    show decide (pitch (t.position (times.getD a 0)) (rx (times.getD a 0)) (w (times.getD a 0)) > -90) = true ↔ _
    rw [decide_eq_true_iff]
    exact C77_rising _ _ _ (h _) (hw _) hv.1

end Tatc.Props
