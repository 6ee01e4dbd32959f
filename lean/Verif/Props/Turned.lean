import Verif.Props.Footprint
import Mathlib.Analysis.SpecialFunctions.Trigonometric.Arctan

/-! C115: the field of view of an instrument that is turned. -/

namespace Tatc.Props
open Tatc.Instruments Tatc.Num Tatc.Spec Tatc.Ro
open scoped Classical

/-- The angle between two rays that are `2 t` apart, `x` and `y` from straight down. -/
theorem arccos_apart (x y t : ℝ) (ht : 0 < t) :
    Real.arccos ((1 + y ^ 2 + x ^ 2 - t ^ 2) /
      (Real.sqrt (1 + y ^ 2 + (x + t) ^ 2) * Real.sqrt (1 + y ^ 2 + (x - t) ^ 2))) =
    Real.pi / 2 - Real.arctan ((1 + y ^ 2 + x ^ 2 - t ^ 2) / (2 * t * Real.sqrt (1 + y ^ 2))) := by
  set w := Real.sqrt (1 + y ^ 2) with hw
  have hq : 0 < 1 + y ^ 2 := by positivity
  have hw2 : w ^ 2 = 1 + y ^ 2 := Real.sq_sqrt hq.le
  have hw0 : 0 < w := Real.sqrt_pos.mpr hq
  set A := 1 + y ^ 2 + x ^ 2 - t ^ 2 with hA
  have hB : 0 < 2 * t * w := by positivity
  have e : Real.sqrt (1 + y ^ 2 + (x + t) ^ 2) * Real.sqrt (1 + y ^ 2 + (x - t) ^ 2) =
      2 * t * w * Real.sqrt (1 + (A / (2 * t * w)) ^ 2) := by
    rw [← Real.sqrt_mul (by positivity)]
    have : 2 * t * w = Real.sqrt ((2 * t * w) ^ 2) := (Real.sqrt_sq hB.le).symm
    rw [this, ← Real.sqrt_mul (by positivity), Real.sqrt_sq hB.le]
    congr 1
    rw [div_pow, mul_add ((2 * t * w) ^ 2), mul_one, mul_div_cancel₀ _ (by positivity)]
    have : (2 * t * w) ^ 2 = 4 * t ^ 2 * (1 + y ^ 2) := by rw [← hw2]; ring
    rw [this, hA]
    ring
  have : A / (Real.sqrt (1 + y ^ 2 + (x + t) ^ 2) * Real.sqrt (1 + y ^ 2 + (x - t) ^ 2)) =
      Real.sin (Real.arctan (A / (2 * t * w))) := by
    rw [e, Real.sin_arctan, div_div]
  rw [this, ← Real.cos_pi_div_two_sub, Real.arccos_cos]
  · linarith [Real.arctan_lt_pi_div_two (A / (2 * t * w))]
  · linarith [Real.neg_pi_div_two_lt_arctan (A / (2 * t * w)), Real.pi_pos]

/-- Straight down it is the whole field of view. -/
theorem arctan_field {c : ℝ} (h0 : 0 < c) (h1 : c < 180) :
    Real.pi / 2 - Real.arctan ((1 - halfWidth c ^ 2) / (2 * halfWidth c)) = radians c := by
  have hp := Real.pi_pos
  have r0 := radians_pos h0
  have r1 : radians c < Real.pi := by unfold radians; nlinarith
  have e : (1 - halfWidth c ^ 2) / (2 * halfWidth c) = Real.tan (Real.pi / 2 - radians c) := by
    rw [Real.tan_pi_div_two_sub]
    have : radians c = 2 * radians (c / 2) := by unfold radians; ring
    rw [this, Real.tan_two_mul, inv_div, halfWidth_eq]
  rw [e, Real.arctan_tan (by linarith) (by linarith)]
  ring

theorem apart_le (x y t : ℝ) (ht : 0 < t) :
    (1 - t ^ 2) / (2 * t) ≤ (1 + y ^ 2 + x ^ 2 - t ^ 2) / (2 * t * Real.sqrt (1 + y ^ 2)) ∧
    ((1 - t ^ 2) / (2 * t) = (1 + y ^ 2 + x ^ 2 - t ^ 2) / (2 * t * Real.sqrt (1 + y ^ 2)) ↔ x = 0 ∧ y = 0) := by
  set w := Real.sqrt (1 + y ^ 2) with hw
  have hq : 0 < 1 + y ^ 2 := by positivity
  have hw2 : w ^ 2 = 1 + y ^ 2 := Real.sq_sqrt hq.le
  have hw0 : 0 < w := Real.sqrt_pos.mpr hq
  have hw1 : 1 ≤ w := by
    by_contra hn
    push Not at hn
    nlinarith [sq_nonneg y]
  have key : (1 + y ^ 2 + x ^ 2 - t ^ 2) / (2 * t * w) - (1 - t ^ 2) / (2 * t) =
      ((w - 1) * (w + t ^ 2) + x ^ 2) / (2 * t * w) := by
    rw [← hw2]
    field_simp
    ring
  have hnum : 0 ≤ (w - 1) * (w + t ^ 2) + x ^ 2 := by
    have : 0 ≤ (w - 1) * (w + t ^ 2) := mul_nonneg (by linarith) (by positivity)
    positivity
  constructor
  · have : 0 ≤ ((w - 1) * (w + t ^ 2) + x ^ 2) / (2 * t * w) := div_nonneg hnum (by positivity)
    linarith
  · constructor
    · intro h
      rw [h, sub_self, eq_comm, div_eq_zero_iff] at key
      rcases key with key | key
      · have h2 : 0 ≤ (w - 1) * (w + t ^ 2) := mul_nonneg (by linarith) (by positivity)
        have hx : x = 0 := by nlinarith [sq_nonneg x]
        have hz : (w - 1) * (w + t ^ 2) = 0 := by nlinarith [sq_nonneg x]
        have hw' : w = 1 := by
          rcases mul_eq_zero.mp hz with h | h
          · linarith
          · have : 0 < w + t ^ 2 := by positivity
            linarith
        rw [hw'] at hw2
        exact ⟨hx, by nlinarith [sq_nonneg y]⟩
      · exact absurd key (by positivity)
    · rintro ⟨rfl, rfl⟩
      have : w = 1 := by rw [hw]; simp
      rw [this]
      norm_num

/-- The angle between two opposite rays. -/
theorem angle_apart {u v : V3} {x y c : ℝ} (h0 : 0 < c) (h1 : c < 180)
    (huv : u.dot v = 1 + y ^ 2 + x ^ 2 - halfWidth c ^ 2) (huu : u.dot u = 1 + y ^ 2 + (x + halfWidth c) ^ 2)
    (hvv : v.dot v = 1 + y ^ 2 + (x - halfWidth c) ^ 2) :
    angleBetween u v ≤ c ∧ (angleBetween u v = c ↔ x = 0 ∧ y = 0) := by
  have ht := halfWidth_pos h0 h1
  obtain ⟨k1, k2⟩ := apart_le x y (halfWidth c) ht
  have hp := Real.pi_pos
  have hc : c = radians c * (180 / Real.pi) := by unfold radians; field_simp
  have e : angleBetween u v = (Real.pi / 2 - Real.arctan ((1 + y ^ 2 + x ^ 2 - halfWidth c ^ 2) /
      (2 * halfWidth c * Real.sqrt (1 + y ^ 2)))) * (180 / Real.pi) := by
    unfold angleBetween
    rw [huv, huu, hvv, arccos_apart x y _ ht]
  have hk : 0 < 180 / Real.pi := by positivity
  have hf := arctan_field h0 h1
  constructor
  · rw [e]
    calc _ ≤ radians c * (180 / Real.pi) := by
          apply mul_le_mul_of_nonneg_right _ hk.le
          rw [← hf]
          have := Real.arctan_mono k1
          linarith
      _ = c := hc.symm
  · rw [← k2, e]
    constructor
    · intro h
      rw [hc] at h
      have h' := mul_right_cancel₀ hk.ne' h
      have hc' : radians (radians c * (180 / Real.pi)) = radians c := by rw [← hc]
      have hw' : halfWidth (radians c * (180 / Real.pi)) = halfWidth c := by rw [← hc]
      rw [hw', ← hf] at h'
      exact Real.arctan_injective (by linarith)
    · intro h
      rw [← h, hf]
      exact hc.symm

theorem rays_dot (s : State) (hs : Level s) (roll pitch a c a' c' : ℝ) :
    (rayOf s roll pitch a c).dot (rayOf s roll pitch a' c') =
      1 + (Real.tan (radians pitch) + a) * (Real.tan (radians pitch) + a') +
        (Real.tan (radians roll) + c) * (Real.tan (radians roll) + c') := by
  have hb := frame_bb hs.position
  have hv := frame_vv hs.velocity
  have hvb := frame_vb hs.level
  have hn : s.n.dot s.n = 1 := by rw [frame_nn, hb, hv, hvb]; norm_num
  have hbn : s.b.dot s.n = 0 := by rw [dot_comm']; exact frame_nb s
  have hvn : s.v.dot s.n = 0 := by rw [dot_comm']; exact frame_nv s
  have hbv : s.b.dot s.v = 0 := by rw [dot_comm']; exact hvb
  rw [rayOf_dot, dot_comm' s.b, dot_comm' s.v, dot_comm' s.n, rayOf_dot, rayOf_dot, rayOf_dot, hb, hbv, hvb, hv,
    frame_nb, frame_nv, hbn, hvn, hn]
  ring

theorem tan_zero_iff {r : ℝ} (h : |r| < 90) : Real.tan (radians r) = 0 ↔ r = 0 := by
  have hp := Real.pi_pos
  obtain ⟨h1, h2⟩ := abs_lt.mp h
  constructor
  · intro h0
    have : radians r = 0 := Real.injOn_tan
      ⟨by unfold radians; nlinarith, by unfold radians; nlinarith⟩ ⟨by linarith, by linarith⟩ (by rw [h0, Real.tan_zero])
    unfold radians at this
    have hk : Real.pi / 180 ≠ 0 := by positivity
    rcases mul_eq_zero.mp this with h | h
    · exact h
    · exact absurd h hk
  · rintro rfl; rw [radians_zero, Real.tan_zero]

/-- The rays at the sides of the field of view. -/
theorem ray_right (s : State) {c a : ℝ} (hc : 0 < c) (ha : 0 < a) (roll pitch : ℝ) (rect : Bool) :
    ray s c a roll pitch rect 0 = rayOf s roll pitch 0 (halfWidth c) ∧
    ray s c a roll pitch rect Real.pi = rayOf s roll pitch 0 (-halfWidth c) := by
  obtain ⟨t0, t1⟩ := corner_bounds hc ha
  have hp := Real.pi_pos
  cases rect
  · simp [ray, ellipse, halfWidth_eq]
  · simp only [ray, if_true]
    constructor
    · have e1 : rectAlong c a 0 = 0 := by
        unfold rectAlong
        simp only
        rw [if_neg (fun h => by linarith [h.1]), if_neg (fun h => by linarith [h.1]), if_pos t0, Real.tan_zero, mul_zero]
      have e2 : rectCross c a 0 = halfWidth c := by
        unfold rectCross
        simp only
        rw [if_pos (Or.inl t0.le), halfWidth_eq]
      rw [e1, e2]
    · have e1 : rectAlong c a Real.pi = 0 := by
        unfold rectAlong
        simp only
        rw [if_neg (fun h => by linarith [h.2]), if_neg (fun h => by linarith [h.1]), if_neg (by linarith),
          if_neg (by linarith), if_pos (by linarith), sub_self, Real.tan_zero, mul_zero]
      have e2 : rectCross c a Real.pi = -halfWidth c := by
        unfold rectCross
        simp only
        rw [if_neg (by rintro (h | h) <;> linarith), if_pos ⟨by linarith, by linarith⟩, halfWidth_eq]
      rw [e1, e2]

theorem ray_front (s : State) {c a : ℝ} (hc : 0 < c) (ha : 0 < a) (roll pitch : ℝ) (rect : Bool) :
    ray s c a roll pitch rect (Real.pi / 2) = rayOf s roll pitch (halfWidth a) 0 ∧
    ray s c a roll pitch rect (3 * Real.pi / 2) = rayOf s roll pitch (-halfWidth a) 0 := by
  obtain ⟨t0, t1⟩ := corner_bounds hc ha
  have hp := Real.pi_pos
  cases rect
  · have e : 3 * Real.pi / 2 = Real.pi / 2 + Real.pi := by ring
    simp [ray, ellipse, halfWidth_eq, e, Real.sin_add_pi, Real.cos_add_pi]
  · simp only [ray, if_true]
    constructor
    · have e1 : rectAlong c a (Real.pi / 2) = halfWidth a := by
        unfold rectAlong
        simp only
        rw [if_pos ⟨by linarith, by linarith⟩, halfWidth_eq]
      have e2 : rectCross c a (Real.pi / 2) = 0 := by
        unfold rectCross
        simp only
        rw [if_neg (by rintro (h | h) <;> linarith), if_neg (fun h => by linarith [h.1]), if_neg (by linarith),
          if_pos (by linarith), sub_self, Real.tan_zero, mul_zero]
      rw [e1, e2]
    · have e1 : rectAlong c a (3 * Real.pi / 2) = -halfWidth a := by
        unfold rectAlong
        simp only
        rw [if_neg (fun h => by linarith [h.2]), if_pos ⟨by linarith, by linarith⟩, halfWidth_eq]
      have e2 : rectCross c a (3 * Real.pi / 2) = 0 := by
        unfold rectCross
        simp only
        rw [if_neg (by rintro (h | h) <;> linarith), if_neg (fun h => by linarith [h.2]), if_neg (by linarith),
          if_neg (by linarith), if_neg (by linarith), sub_self, Real.tan_zero, mul_zero]
      rw [e1, e2]

/-- **C115** across the track: the angle between the two sides of the footprint is never more than the field of view, and
it is the field of view exactly when the instrument is not turned. -/
theorem C115_across (s : State) (hs : Level s) (c a roll pitch : ℝ) (rect : Bool) (hc : 0 < c ∧ c < 180) (ha : 0 < a)
    (hr : |roll| < 90) (hp : |pitch| < 90) :
    angleBetween (ray s c a roll pitch rect 0) (ray s c a roll pitch rect Real.pi) ≤ c ∧
    (angleBetween (ray s c a roll pitch rect 0) (ray s c a roll pitch rect Real.pi) = c ↔ roll = 0 ∧ pitch = 0) := by
  obtain ⟨e1, e2⟩ := ray_right s hc.1 ha roll pitch rect
  rw [e1, e2, ← tan_zero_iff hr, ← tan_zero_iff hp]
  refine angle_apart hc.1 hc.2 ?_ ?_ ?_ <;> rw [rays_dot s hs] <;> ring

/-- **C115** along the track. -/
theorem C115_along (s : State) (hs : Level s) (c a roll pitch : ℝ) (rect : Bool) (ha : 0 < a ∧ a < 180) (hc : 0 < c)
    (hr : |roll| < 90) (hp : |pitch| < 90) :
    angleBetween (ray s c a roll pitch rect (Real.pi / 2)) (ray s c a roll pitch rect (3 * Real.pi / 2)) ≤ a ∧
    (angleBetween (ray s c a roll pitch rect (Real.pi / 2)) (ray s c a roll pitch rect (3 * Real.pi / 2)) = a ↔
      roll = 0 ∧ pitch = 0) := by
  obtain ⟨e1, e2⟩ := ray_front s hc ha.1 roll pitch rect
  rw [e1, e2, ← tan_zero_iff hr, ← tan_zero_iff hp, and_comm (a := Real.tan (radians roll) = 0)]
  refine angle_apart ha.1 ha.2 ?_ ?_ ?_ <;> rw [rays_dot s hs] <;> ring

/-- **C115** holds of instruments that are not turned. -/
theorem C115_unturned_partial (s : State) (hs : Level s) (c a : ℝ) (rect : Bool) (hc : 0 < c ∧ c < 180)
    (ha : 0 < a ∧ a < 180) :
    angleBetween (ray s c a 0 0 rect 0) (ray s c a 0 0 rect Real.pi) = c ∧
    angleBetween (ray s c a 0 0 rect (Real.pi / 2)) (ray s c a 0 0 rect (3 * Real.pi / 2)) = a :=
  ⟨(C115_across s hs c a 0 0 rect hc ha.1 (by norm_num) (by norm_num)).2.mpr ⟨rfl, rfl⟩,
    (C115_along s hs c a 0 0 rect ha hc.1 (by norm_num) (by norm_num)).2.mpr ⟨rfl, rfl⟩⟩

/-- **C115** fails of every instrument that is turned: its field of view becomes narrower, in both directions. -/
theorem C115_turned_false (s : State) (hs : Level s) (c a roll pitch : ℝ) (rect : Bool) (hc : 0 < c ∧ c < 180)
    (ha : 0 < a ∧ a < 180) (hr : |roll| < 90) (hp : |pitch| < 90) (h : roll ≠ 0 ∨ pitch ≠ 0) :
    angleBetween (ray s c a roll pitch rect 0) (ray s c a roll pitch rect Real.pi) < c ∧
    angleBetween (ray s c a roll pitch rect (Real.pi / 2)) (ray s c a roll pitch rect (3 * Real.pi / 2)) < a := by
  have hn : ¬ (roll = 0 ∧ pitch = 0) := by
    rintro ⟨h1, h2⟩
    rcases h with h | h
    · exact h h1
    · exact h h2
  obtain ⟨l1, k1⟩ := C115_across s hs c a roll pitch rect hc ha.1 hr hp
  obtain ⟨l2, k2⟩ := C115_along s hs c a roll pitch rect ha hc.1 hr hp
  exact ⟨lt_of_le_of_ne l1 fun e => hn (k1.mp e), lt_of_le_of_ne l2 fun e => hn (k2.mp e)⟩

/-- An instrument of 20 degrees that is rolled by 30. -/
example : Level someState ∧ ((0 : ℝ) < 20 ∧ (20 : ℝ) < 180) ∧ |(30 : ℝ)| < 90 ∧ |(0 : ℝ)| < 90 ∧ ((30 : ℝ) ≠ 0 ∨ (0 : ℝ) ≠ 0) :=
  ⟨someState_level, by norm_num, by rw [abs_of_pos] <;> norm_num, by norm_num, Or.inl (by norm_num)⟩

end Tatc.Props
