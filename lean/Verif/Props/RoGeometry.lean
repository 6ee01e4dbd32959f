import Verif.Model.Ro
import Mathlib.Analysis.Calculus.Deriv.Add
import Mathlib.Analysis.Calculus.Deriv.Mul
import Mathlib.Analysis.Calculus.Deriv.Inv
import Mathlib.Tactic.LinearCombination
import Mathlib.Tactic.FieldSimp
import Verif.Lemmas.Real

/-!
# C58, C59, C60 and C77: the tangent point, its velocity, and the angles of the transmitter
-/

namespace Tatc.Props
open Tatc.Ro Tatc.Num
open scoped Classical

/-- The point at parameter `t` of the line from the receiver (`t = 0`) to the transmitter (`t = 1`). -/
def onRay (tx rx : V3) (t : ℝ) : V3 :=
  ⟨rx.x + t * (tx.x - rx.x), rx.y + t * (tx.y - rx.y), rx.z + t * (tx.z - rx.z)⟩

/-- The square of the distance from the centre of the earth. -/
def range2 (p : V3) : ℝ := p.x ^ 2 + p.y ^ 2 + p.z ^ 2

theorem sub_dot_self_pos {tx rx : V3} (h : tx ≠ rx) : 0 < (sub tx rx).dot (sub tx rx) := by
  have : tx.x - rx.x ≠ 0 ∨ tx.y - rx.y ≠ 0 ∨ tx.z - rx.z ≠ 0 := by
    by_contra hc
    push Not at hc
    exact h (V3.ext (by linarith [hc.1]) (by linarith [hc.2.1]) (by linarith [hc.2.2]))
  simp only [sub, V3.dot]
  rcases this with h | h | h
  · have := mul_self_pos.mpr h
    nlinarith [mul_self_nonneg (tx.y - rx.y), mul_self_nonneg (tx.z - rx.z)]
  · have := mul_self_pos.mpr h
    nlinarith [mul_self_nonneg (tx.x - rx.x), mul_self_nonneg (tx.z - rx.z)]
  · have := mul_self_pos.mpr h
    nlinarith [mul_self_nonneg (tx.y - rx.y), mul_self_nonneg (tx.x - rx.x)]

/-- The parameter of the tangent point on the line. -/
noncomputable def tangentParameter (tx rx : V3) : ℝ := 1 - tx.dot (sub tx rx) / (sub tx rx).dot (sub tx rx)

theorem tangentPoint_onRay (tx rx : V3) : tangentPoint tx rx = onRay tx rx (tangentParameter tx rx) := by
  unfold tangentPoint tangentParameter onRay
  simp only
  generalize tx.dot (sub tx rx) / (sub tx rx).dot (sub tx rx) = r
  ext <;> simp only [sub, V3.smul] <;> ring

theorem range2_onRay (tx rx : V3) (h : tx ≠ rx) (t : ℝ) :
    range2 (onRay tx rx t) = range2 (tangentPoint tx rx) +
      (t - tangentParameter tx rx) ^ 2 * (sub tx rx).dot (sub tx rx) := by
  have hd := sub_dot_self_pos h
  have hp : (sub tx rx).dot (sub tx rx) * (1 - tangentParameter tx rx) = tx.dot (sub tx rx) := by
    unfold tangentParameter; field_simp; ring
  rw [tangentPoint_onRay]
  generalize tangentParameter tx rx = r at hp
  simp only [range2, onRay, sub, V3.dot] at hp ⊢
  linear_combination (-2 * (t - r)) * hp

/-- C58: for all different positions, the tangent point lies on the line through transmitter and receiver, is
orthogonal to it, and is the only point of the line nearest the centre; the sign is negative exactly when the tangent
point lies strictly between receiver and transmitter. -/
theorem C58_tangent_point (tx rx : V3) (h : tx ≠ rx) :
    ∃ t, tangentPoint tx rx = onRay tx rx t ∧
      (tangentPoint tx rx).dot ⟨tx.x - rx.x, tx.y - rx.y, tx.z - rx.z⟩ = 0 ∧
      (∀ t', t' ≠ t → range2 (tangentPoint tx rx) < range2 (onRay tx rx t')) ∧
      (tangentSign tx rx < 0 ↔ 0 < t ∧ t < 1) := by
  have hd := sub_dot_self_pos h
  refine ⟨tangentParameter tx rx, tangentPoint_onRay tx rx, ?_, ?_, ?_⟩
  · have hp : (sub tx rx).dot (sub tx rx) * (1 - tangentParameter tx rx) = tx.dot (sub tx rx) := by
      unfold tangentParameter; field_simp; ring
    rw [tangentPoint_onRay]
    generalize tangentParameter tx rx = r at hp
    simp only [onRay, sub, V3.dot] at hp ⊢
    linear_combination -hp
  · intro t' ht'
    rw [range2_onRay tx rx h t']
    have : 0 < (t' - tangentParameter tx rx) ^ 2 := by
      have : t' - tangentParameter tx rx ≠ 0 := sub_ne_zero.mpr ht'
      positivity
    have := mul_pos this hd
    linarith
  · have hval : (sub (tangentPoint tx rx) tx).dot (sub (tangentPoint tx rx) rx) =
        -(tangentParameter tx rx * (1 - tangentParameter tx rx)) * (sub tx rx).dot (sub tx rx) := by
      rw [tangentPoint_onRay]
      generalize tangentParameter tx rx = r
      simp only [onRay, sub, V3.dot]
      ring
    have hneg : tangentSign tx rx < 0 ↔ (sub (tangentPoint tx rx) tx).dot (sub (tangentPoint tx rx) rx) < 0 := by
      unfold tangentSign sign
      simp only
      split_ifs with h1 h2
      · constructor
        · intro hh; norm_num at hh
        · intro hh; linarith
      · simp [h2]
      · simp [h2]
    rw [hneg, hval]
    generalize tangentParameter tx rx = r
    generalize (sub tx rx).dot (sub tx rx) = m at hd
    constructor
    · intro hh
      have hpos : 0 < r * (1 - r) := by
        by_contra hc
        push Not at hc
        nlinarith
      constructor <;> nlinarith [sq_nonneg r, sq_nonneg (1 - r)]
    · rintro ⟨h1, h2⟩
      have := mul_pos (mul_pos h1 (show 0 < 1 - r by linarith)) hd
      linarith

/-- A receiver and a transmitter on opposite sides of the earth: the ray's tangent point is between them. -/
example : tangentSign ⟨26560000, 2000000, 6400000⟩ ⟨-2000000, 1000000, 6400000⟩ < 0 := by
  obtain ⟨t, ht, -, -, hs⟩ := C58_tangent_point ⟨26560000, 2000000, 6400000⟩ ⟨-2000000, 1000000, 6400000⟩
    (by intro h; have := congrArg V3.x h; norm_num at this)
  rw [hs]
  have hx := congrArg V3.x ht
  rw [tangentPoint_onRay] at hx
  simp only [onRay, tangentParameter, sub, V3.dot] at hx
  norm_num at hx
  constructor <;> linarith

/-! ## C59 -/

/-- A moving point and its velocity at a time. -/
def Moves (p : ℝ → V3) (v : V3) (t : ℝ) : Prop :=
  HasDerivAt (fun a => (p a).x) v.x t ∧ HasDerivAt (fun a => (p a).y) v.y t ∧ HasDerivAt (fun a => (p a).z) v.z t

/-- C59: for all motions of transmitter and receiver, the velocity reported for the tangent point is the derivative of
its position. -/
theorem C59_tangent_velocity (tx rx : ℝ → V3) (u w : V3) (t : ℝ) (htx : Moves tx u t) (hrx : Moves rx w t)
    (h : tx t ≠ rx t) :
    Moves (fun a => tangentPoint (tx a) (rx a)) (tangentVelocity (tx t) (rx t) u w) t := by
  obtain ⟨ax, ay, az⟩ := htx
  obtain ⟨bx, b_y, bz⟩ := hrx
  have hd := sub_dot_self_pos h
  have dx := ax.sub bx
  have dy := ay.sub b_y
  have dz := az.sub bz
  have hnum : HasDerivAt (fun a => (tx a).dot (sub (tx a) (rx a)))
      (u.dot (sub (tx t) (rx t)) + (tx t).dot (sub u w)) t := by
    have := ((ax.mul dx).add (ay.mul dy)).add (az.mul dz)
    refine this.congr_deriv ?_
    simp only [V3.dot, sub, Pi.sub_apply]; ring
  have hden : HasDerivAt (fun a => (sub (tx a) (rx a)).dot (sub (tx a) (rx a)))
      (2 * (sub u w).dot (sub (tx t) (rx t))) t := by
    have := ((dx.mul dx).add (dy.mul dy)).add (dz.mul dz)
    refine this.congr_deriv ?_
    simp only [V3.dot, sub, Pi.sub_apply]; ring
  have hr := hnum.div hden hd.ne'
  have key : ((u.dot (sub (tx t) (rx t)) + (tx t).dot (sub u w)) * (sub (tx t) (rx t)).dot (sub (tx t) (rx t)) -
        (tx t).dot (sub (tx t) (rx t)) * (2 * (sub u w).dot (sub (tx t) (rx t)))) /
        (sub (tx t) (rx t)).dot (sub (tx t) (rx t)) ^ 2 =
      (u.dot (sub (tx t) (rx t)) + (tx t).dot (sub u w)) / (sub (tx t) (rx t)).dot (sub (tx t) (rx t)) -
        2 * ((sub u w).dot (sub (tx t) (rx t)) * (tx t).dot (sub (tx t) (rx t)) /
          (sub (tx t) (rx t)).dot (sub (tx t) (rx t)) ^ 2) := by
    field_simp
  rw [key] at hr
  refine ⟨?_, ?_, ?_⟩
  · refine (ax.sub (hr.mul dx)).congr_deriv ?_
    simp only [tangentVelocity, sub, V3.smul, Pi.sub_apply, Pi.div_apply]; ring
  · refine (ay.sub (hr.mul dy)).congr_deriv ?_
    simp only [tangentVelocity, sub, V3.smul, Pi.sub_apply, Pi.div_apply]; ring
  · refine (az.sub (hr.mul dz)).congr_deriv ?_
    simp only [tangentVelocity, sub, V3.smul, Pi.sub_apply, Pi.div_apply]; ring

/-- Satellites moving uniformly have the velocities of their motion. -/
example (p v : V3) (t : ℝ) : Moves (fun a => p.add (v.smul a)) v t := by
  refine ⟨?_, ?_, ?_⟩
  · exact (((hasDerivAt_id t).mul_const v.x).const_add p.x).congr_deriv (one_mul _)
  · exact (((hasDerivAt_id t).mul_const v.y).const_add p.y).congr_deriv (one_mul _)
  · exact (((hasDerivAt_id t).mul_const v.z).const_add p.z).congr_deriv (one_mul _)

/-! ## C60 -/

theorem npMod_of_lt {a m : ℝ} (h0 : 0 ≤ a) (h1 : a < m) : npMod a m = a := by
  have hm : 0 < m := by linarith
  have : ⌊a / m⌋ = 0 := by
    rw [Int.floor_eq_zero_iff]
    exact ⟨by positivity, by rwa [div_lt_one hm]⟩
  rw [npMod, this]; simp

theorem npMod_of_lt_two {a m : ℝ} (hm : 0 < m) (h0 : m ≤ a) (h1 : a < 2 * m) : npMod a m = a - m := by
  have : ⌊a / m⌋ = 1 := by
    rw [Int.floor_eq_iff]
    refine ⟨?_, ?_⟩
    · rw [le_div_iff₀ hm]; push_cast; linarith
    · rw [div_lt_iff₀ hm]; push_cast; linarith
  rw [npMod, this]; push_cast; ring

/-- Within `m` degrees of the forward direction (yaw 0), or of the backward direction (yaw ±180). -/
def ForeOrAft (m yaw : ℝ) : Prop := |yaw| < m ∨ 180 - |yaw| < m

/-- C60, where it holds: for every limit below 90 degrees and every yaw other than exactly backward (180) and exactly
at the limit of the backward sector, a yaw is accepted exactly when it is within the limit of forward or
backward.  Missing: these two yaws. -/
theorem C60_yaw_partial (m yaw : ℝ) (h1 : m < 90) (hy : |yaw| < 180) (hb : |yaw| ≠ 180 - m) :
    yawAccepted yaw m = true ↔ ForeOrAft m yaw := by
  unfold yawAccepted ForeOrAft
  rw [decide_eq_true_iff]
  rcases lt_or_gt_of_ne hb with h | h
  · rw [npMod_of_lt (abs_nonneg _) h]
    constructor
    · intro hh; exact Or.inl hh
    · rintro (hh | hh)
      · exact hh
      · linarith
  · rw [npMod_of_lt_two (by linarith) h.le (by linarith)]
    constructor
    · intro _; right; linarith
    · intro _; linarith

/-- C60 does not hold: for every limit below 90 degrees a transmitter exactly behind the receiver (yaw 180) is not
accepted, while every yaw a little less is; and a transmitter exactly at the limit is rejected in front and accepted
behind. -/
theorem C60_yaw_false (m : ℝ) (h0 : 0 < m) (h1 : m < 90) :
    (yawAccepted 180 m = false ∧ ForeOrAft m 180 ∧ ∀ y, 180 - m < y → y < 180 → yawAccepted y m = true) ∧
      yawAccepted m m = false ∧ yawAccepted (180 - m) m = true := by
  refine ⟨⟨?_, ?_, ?_⟩, ?_, ?_⟩
  · unfold yawAccepted
    rw [decide_eq_false_iff_not, not_lt]
    by_cases h60 : 180 < 2 * (180 - m)
    · rw [abs_of_pos (by norm_num), npMod_of_lt_two (by linarith) (by linarith) h60]; linarith
    · exfalso; linarith
  · right; rw [abs_of_pos (by norm_num : (0:ℝ) < 180)]; linarith
  · intro y hy1 hy2
    have hyp : 0 < y := by linarith
    rw [C60_yaw_partial m y h1 (by rw [abs_of_pos hyp]; exact hy2) (by rw [abs_of_pos hyp]; linarith)]
    right; rw [abs_of_pos hyp]; linarith
  · unfold yawAccepted
    rw [decide_eq_false_iff_not, not_lt, abs_of_pos h0, npMod_of_lt h0.le (by linarith)]
  · unfold yawAccepted
    rw [decide_eq_true_iff, abs_of_pos (by linarith), npMod_of_lt_two (by linarith) le_rfl (by linarith)]
    linarith

/-- For limits from 90 degrees every yaw is accepted. -/
theorem C60_wide_partial (m yaw : ℝ) (h1 : 90 ≤ m) (h2 : m < 180) : yawAccepted yaw m = true := by
  unfold yawAccepted
  rw [decide_eq_true_iff]
  have hpos : 0 < 180 - m := by linarith
  have := Int.lt_floor_add_one (|yaw| / (180 - m))
  rw [div_lt_iff₀ hpos] at this
  unfold npMod
  nlinarith

/-! ## C77 -/

theorem smul_dot (c : ℝ) (a b : V3) : (V3.smul c a).dot b = c * a.dot b := by simp only [V3.smul, V3.dot]; ring
theorem dot_comm' (a b : V3) : a.dot b = b.dot a := by simp only [V3.dot]; ring
theorem sub_dot (a b c : V3) : (sub a b).dot c = a.dot c - b.dot c := by simp only [sub, V3.dot]; ring
theorem cross_dot_left (a b : V3) : (a.cross b).dot a = 0 := by simp only [V3.cross, V3.dot]; ring
theorem cross_dot_right (a b : V3) : (a.cross b).dot b = 0 := by simp only [V3.cross, V3.dot]; ring

/-- Taking away the part across the orbit does not change the parts up and along. -/
theorem plane_dot_up (d rx w : V3) : (sub d ((across rx w).smul ((across rx w).dot d))).dot (up rx w) =
    (1 / Real.sqrt (rx.dot rx)) * d.dot rx := by
  rw [sub_dot, smul_dot]
  unfold across up unit
  rw [smul_dot, dot_comm' _ (V3.smul _ rx), dot_comm' _ (V3.smul _ rx), smul_dot, smul_dot, dot_comm' rx (V3.smul _ _), smul_dot,
    cross_dot_left, dot_comm' rx d]
  ring

theorem plane_dot_along (d rx w : V3) : (sub d ((across rx w).smul ((across rx w).dot d))).dot (along rx w) =
    (1 / Real.sqrt (w.dot w)) * d.dot w := by
  rw [sub_dot, smul_dot]
  unfold across along unit
  rw [smul_dot, dot_comm' _ (V3.smul _ w), dot_comm' _ (V3.smul _ w), smul_dot, smul_dot, dot_comm' w (V3.smul _ _), smul_dot,
    cross_dot_right, dot_comm' w d]
  ring

/-- C77: for every geometry whose tangent point is between the satellites, an arc that starts there is rising exactly
when the transmitter is ahead of the receiver: its direction has a positive part along the receiver's velocity. -/
theorem C77_rising (tx rx w : V3) (h : tx ≠ rx) (hw : w ≠ ⟨0, 0, 0⟩) (hs : tangentSign tx rx < 0) :
    pitch tx rx w > -90 ↔ 0 < (tx.x - rx.x) * w.x + (tx.y - rx.y) * w.y + (tx.z - rx.z) * w.z := by
  have hd := sub_dot_self_pos h
  obtain ⟨t, ht, horth, -, hiff⟩ := C58_tangent_point tx rx h
  obtain ⟨t0, t1⟩ := hiff.mp hs
  have hdown : (sub tx rx).dot rx < 0 := by
    rw [ht] at horth
    simp only [onRay, V3.dot, sub] at horth hd ⊢
    nlinarith
  have hrx : 0 < rx.dot rx := by
    have h0 : rx ≠ ⟨0, 0, 0⟩ := by
      intro h0
      rw [h0] at hdown
      simp [V3.dot] at hdown
    have := sub_dot_self_pos h0
    simpa [sub, V3.dot] using this
  have hww : 0 < w.dot w := by simpa [sub, V3.dot] using sub_dot_self_pos hw
  unfold pitch
  simp only
  rw [plane_dot_up, plane_dot_along]
  have c1 : 0 < 1 / Real.sqrt (rx.dot rx) := by have := Real.sqrt_pos.mpr hrx; positivity
  have c2 : 0 < 1 / Real.sqrt (w.dot w) := by have := Real.sqrt_pos.mpr hww; positivity
  have hneg : (1 / Real.sqrt (rx.dot rx)) * (sub tx rx).dot rx < 0 := mul_neg_of_pos_of_neg c1 hdown
  have hdeg : degrees (arctan2 ((1 / Real.sqrt (rx.dot rx)) * (sub tx rx).dot rx)
      ((1 / Real.sqrt (w.dot w)) * (sub tx rx).dot w)) > -90 ↔
      -(Real.pi / 2) < arctan2 ((1 / Real.sqrt (rx.dot rx)) * (sub tx rx).dot rx)
      ((1 / Real.sqrt (w.dot w)) * (sub tx rx).dot w) := by
    have hpi := Real.pi_pos
    have h180 : 0 < 180 / Real.pi := by positivity
    have e : (-90 : ℝ) = -(Real.pi / 2) * (180 / Real.pi) := by field_simp; norm_num
    unfold degrees
    rw [e, gt_iff_lt, mul_lt_mul_iff_of_pos_right h180]
  rw [hdeg]
  unfold arctan2
  rw [Complex.neg_pi_div_two_lt_arg_iff]
  simp only
  constructor
  · rintro (hh | hh)
    · have := (pos_iff_pos_of_mul_pos hh).mp c2
      simpa [sub, V3.dot] using this
    · linarith
  · intro hh
    left
    apply mul_pos c2
    simpa [sub, V3.dot] using hh

/-- A receiver moving towards the transmitter beyond the limb: the occultation is rising. -/
example : pitch ⟨26560000, 2000000, 6400000⟩ ⟨-2000000, 1000000, 6400000⟩ ⟨7500, 0, 0⟩ > -90 := by
  rw [C77_rising _ _ _ (by intro h; have := congrArg V3.x h; norm_num at this)
    (by intro h; have := congrArg V3.x h; norm_num at this)]
  · norm_num
  · obtain ⟨t, ht, -, -, hs⟩ := C58_tangent_point ⟨26560000, 2000000, 6400000⟩ ⟨-2000000, 1000000, 6400000⟩
      (by intro h; have := congrArg V3.x h; norm_num at this)
    rw [hs]
    have hx := congrArg V3.x ht
    rw [tangentPoint_onRay] at hx
    simp only [onRay, tangentParameter, sub, V3.dot] at hx
    norm_num at hx
    constructor <;> linarith

/-! ## C78 -/

theorem arctan2_polar (y x : ℝ) : ∃ r, 0 ≤ r ∧ x = r * Real.cos (arctan2 y x) ∧ y = r * Real.sin (arctan2 y x) := by
  refine ⟨‖(⟨x, y⟩ : ℂ)‖, norm_nonneg _, ?_, ?_⟩
  · exact (Complex.norm_mul_cos_arg ⟨x, y⟩).symm
  · exact (Complex.norm_mul_sin_arg ⟨x, y⟩).symm

theorem radians_degrees' (x : ℝ) : radians (degrees x) = x := by
  unfold radians degrees
  have := Real.pi_ne_zero
  field_simp

/-- C78: for every receiver that moves horizontally and every transmitter, the pitch is the angle of the transmitter's
direction above the velocity in the plane of the orbit, and the yaw its angle from the velocity towards the normal of the
orbit in the horizontal plane. -/
theorem C78_angles (tx rx w : V3) (hrx : rx ≠ ⟨0, 0, 0⟩) (hw : w ≠ ⟨0, 0, 0⟩) (hperp : rx.dot w = 0) :
    let d : V3 := ⟨tx.x - rx.x, tx.y - rx.y, tx.z - rx.z⟩
    let h := rx.cross w
    (∃ r, 0 ≤ r ∧ d.dot w = r * Real.cos (radians (pitch tx rx w)) * Real.sqrt (w.dot w) ∧
      d.dot rx = r * Real.sin (radians (pitch tx rx w)) * Real.sqrt (rx.dot rx)) ∧
    (∃ r, 0 ≤ r ∧ d.dot w = r * Real.cos (radians (yaw tx rx w)) * Real.sqrt (w.dot w) ∧
      d.dot h = r * Real.sin (radians (yaw tx rx w)) * Real.sqrt (h.dot h)) := by
  have hrr : 0 < rx.dot rx := by simpa [sub, V3.dot] using sub_dot_self_pos hrx
  have hww : 0 < w.dot w := by simpa [sub, V3.dot] using sub_dot_self_pos hw
  have hhh : (rx.cross w).dot (rx.cross w) = rx.dot rx * w.dot w - (rx.dot w) ^ 2 := by
    simp only [V3.cross, V3.dot]; ring
  have hh : 0 < (rx.cross w).dot (rx.cross w) := by rw [hhh, hperp]; have := mul_pos hrr hww; linarith
  have s1 := Real.sqrt_pos.mpr hrr
  have s2 := Real.sqrt_pos.mpr hww
  have s3 := Real.sqrt_pos.mpr hh
  have hd : (⟨tx.x - rx.x, tx.y - rx.y, tx.z - rx.z⟩ : V3) = sub tx rx := rfl
  simp only [hd]
  constructor
  · obtain ⟨r, hr, h1, h2⟩ := arctan2_polar
      ((sub (sub tx rx) ((across rx w).smul ((across rx w).dot (sub tx rx)))).dot (up rx w))
      ((sub (sub tx rx) ((across rx w).smul ((across rx w).dot (sub tx rx)))).dot (along rx w))
    refine ⟨r, hr, ?_, ?_⟩
    · unfold pitch
      simp only [radians_degrees']
      rw [← h1, plane_dot_along]
      field_simp
    · unfold pitch
      simp only [radians_degrees']
      rw [← h2, plane_dot_up]
      field_simp
  · obtain ⟨r, hr, h1, h2⟩ := arctan2_polar
      ((sub (sub tx rx) ((up rx w).smul ((up rx w).dot (sub tx rx)))).dot (across rx w))
      ((sub (sub tx rx) ((up rx w).smul ((up rx w).dot (sub tx rx)))).dot (along rx w))
    have e1 : (sub (sub tx rx) ((up rx w).smul ((up rx w).dot (sub tx rx)))).dot (along rx w) =
        (1 / Real.sqrt (w.dot w)) * (sub tx rx).dot w := by
      rw [sub_dot, smul_dot]
      unfold up along unit
      rw [dot_comm' _ (V3.smul _ w), smul_dot, dot_comm' (V3.smul _ rx) (V3.smul _ w), smul_dot, smul_dot, dot_comm' w (V3.smul _ rx),
        smul_dot, hperp, dot_comm' w (sub tx rx)]
      ring
    have e2 : (sub (sub tx rx) ((up rx w).smul ((up rx w).dot (sub tx rx)))).dot (across rx w) =
        (1 / Real.sqrt ((rx.cross w).dot (rx.cross w))) * (sub tx rx).dot (rx.cross w) := by
      rw [sub_dot, smul_dot]
      unfold up across unit
      rw [dot_comm' _ (V3.smul _ (rx.cross w)), smul_dot, dot_comm' (V3.smul _ rx) (V3.smul _ (rx.cross w)), smul_dot, smul_dot,
        dot_comm' (rx.cross w) (V3.smul _ rx), smul_dot, dot_comm' rx (rx.cross w), cross_dot_left,
        dot_comm' (rx.cross w) (sub tx rx)]
      ring
    refine ⟨r, hr, ?_, ?_⟩
    · unfold yaw
      simp only [radians_degrees']
      rw [← h1, e1]
      field_simp
    · unfold yaw
      simp only [radians_degrees']
      rw [← h2, e2]
      field_simp

/-- A receiver 7000 km out that moves at 7.5 km/s meets the hypotheses. -/
example : (⟨0, 0, 7000000⟩ : V3).dot ⟨7500, 0, 0⟩ = 0 ∧ (⟨0, 0, 7000000⟩ : V3) ≠ ⟨0, 0, 0⟩ := by
  refine ⟨by norm_num [V3.dot], fun h => by have := congrArg V3.z h; norm_num at this⟩

end Tatc.Props
