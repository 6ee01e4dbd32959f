import Verif.Props.Rays
import Mathlib.Analysis.SpecialFunctions.Trigonometric.ArctanDeriv

/-! C68 and C84: the rays of rectangular and elliptical footprints. -/

namespace Tatc.Props
open Tatc.Instruments Tatc.Num Tatc.Spec
open scoped Classical

/-- Half of the width of the field of view in the plane of the rays. -/
noncomputable def halfWidth (f : ℝ) : ℝ := Real.tan (f / 2 * (Real.pi / 180))

theorem halfWidth_eq (f : ℝ) : Real.tan (radians (f / 2)) = halfWidth f := rfl

theorem halfWidth_pos {f : ℝ} (h0 : 0 < f) (h1 : f < 180) : 0 < halfWidth f :=
  Real.tan_pos_of_pos_of_lt_pi_div_two (radians_pos (half_pos h0)) (radians_lt_half h1)

theorem corner_bounds {c a : ℝ} (hc : 0 < c) (ha : 0 < a) : 0 < corner c a ∧ corner c a < Real.pi / 2 :=
  ⟨Real.arctan_pos.mpr (div_pos ha hc), Real.arctan_lt_pi_div_two _⟩

theorem tan_corner (c a : ℝ) : Real.tan (corner c a) = a / c := Real.tan_arctan _

/-- Where a direction is seen in the plane one unit below the satellite: across and along the track. -/
noncomputable def seen (s : State) (r : V3) : ℝ × ℝ := (r.dot s.n / r.dot s.b, r.dot s.v / r.dot s.b)

theorem seen_rayOf (s : State) (hs : Level s) (along cross : ℝ) : seen s (rayOf s 0 0 along cross) = (cross, along) := by
  have hb := frame_bb hs.position
  have hv := frame_vv hs.velocity
  have hvb := frame_vb hs.level
  have hn : s.n.dot s.n = 1 := by rw [frame_nn, hb, hv, hvb]; norm_num
  have hbn : s.b.dot s.n = 0 := by rw [dot_comm']; exact frame_nb s
  have hvn : s.v.dot s.n = 0 := by rw [dot_comm']; exact frame_nv s
  have hbv : s.b.dot s.v = 0 := by rw [dot_comm']; exact hvb
  unfold seen
  rw [rayOf_dot, rayOf_dot, rayOf_dot, hb, hvb, frame_nb, hbn, hvn, hn, hbv, hv, frame_nv, radians_zero, Real.tan_zero]
  simp

theorem seen_rect (s : State) (hs : Level s) (c a x : ℝ) : seen s (ray s c a 0 0 true x) = (rectCross c a x, rectAlong c a x) := by
  simp only [ray, if_true]; exact seen_rayOf s hs _ _

theorem seen_ellipse (s : State) (hs : Level s) (c a x : ℝ) :
    seen s (ray s c a 0 0 false x) = ((ellipse c a x).2, (ellipse c a x).1) := by
  simp only [ray, if_neg Bool.false_ne_true]; exact seen_rayOf s hs _ _

/-! ## The four sides -/

section
variable {c a x : ℝ}

theorem side_right (hc : 0 < c) (ha : 0 < a) (h : x < corner c a) :
    rectCross c a x = halfWidth c ∧ rectAlong c a x = halfWidth c * Real.tan x := by
  obtain ⟨h0, h1⟩ := corner_bounds hc ha
  simp only [rectCross, rectAlong, halfWidth_eq]
  rw [if_pos (Or.inl h.le), if_neg (by intro k; linarith [k.1]), if_neg (by intro k; linarith [k.1, Real.pi_pos]), if_pos h]
  exact ⟨rfl, rfl⟩

theorem side_fore (hc : 0 < c) (ha : 0 < a) (h : corner c a ≤ x) (h' : x ≤ Real.pi - corner c a) :
    rectAlong c a x = halfWidth a ∧
    rectCross c a x = if x = corner c a then halfWidth c else if x = Real.pi - corner c a then -halfWidth c
      else halfWidth a * Real.tan (Real.pi / 2 - x) := by
  obtain ⟨h0, h1⟩ := corner_bounds hc ha
  simp only [rectCross, rectAlong, halfWidth_eq]
  refine ⟨if_pos ⟨h, h'⟩, ?_⟩
  by_cases e1 : x = corner c a
  · rw [if_pos (Or.inl e1.le), if_pos e1]
  · have g1 : corner c a < x := lt_of_le_of_ne h (Ne.symm e1)
    rw [if_neg (by rintro (k | k) <;> linarith), if_neg e1]
    by_cases e2 : x = Real.pi - corner c a
    · rw [if_pos ⟨e2.ge, by linarith⟩, if_pos e2]
    · have g2 : x < Real.pi - corner c a := lt_of_le_of_ne h' e2
      rw [if_neg (by intro k; linarith [k.1]), if_neg e2]
      by_cases e3 : x < Real.pi / 2
      · rw [if_pos e3]
      · rw [if_neg e3, if_pos g2, show Real.pi / 2 - x = -(x - Real.pi / 2) by ring, Real.tan_neg]; ring

theorem side_left (hc : 0 < c) (ha : 0 < a) (h : Real.pi - corner c a < x) (h' : x < Real.pi + corner c a) :
    rectCross c a x = -halfWidth c ∧ rectAlong c a x = halfWidth c * Real.tan (Real.pi - x) := by
  obtain ⟨h0, h1⟩ := corner_bounds hc ha
  simp only [rectCross, rectAlong, halfWidth_eq]
  rw [if_neg (by rintro (k | k) <;> linarith), if_pos ⟨h.le, h'.le⟩, if_neg (by intro k; linarith [k.2]),
    if_neg (by intro k; linarith [k.1]), if_neg (by linarith)]
  refine ⟨rfl, ?_⟩
  by_cases e : x < Real.pi
  · rw [if_pos e]
  · rw [if_neg e, if_pos h', show Real.pi - x = -(x - Real.pi) by ring, Real.tan_neg]; ring

theorem side_aft (hc : 0 < c) (ha : 0 < a) (h : Real.pi + corner c a ≤ x) (h' : x ≤ 2 * Real.pi - corner c a) :
    rectAlong c a x = -halfWidth a ∧
    rectCross c a x = if x = Real.pi + corner c a then -halfWidth c else if x = 2 * Real.pi - corner c a then halfWidth c
      else -halfWidth a * Real.tan (3 * Real.pi / 2 - x) := by
  obtain ⟨h0, h1⟩ := corner_bounds hc ha
  have hp := Real.pi_pos
  simp only [rectCross, rectAlong, halfWidth_eq]
  refine ⟨by rw [if_neg (by intro k; linarith [k.2]), if_pos ⟨h, h'⟩], ?_⟩
  by_cases e1 : x = Real.pi + corner c a
  · rw [if_neg (by rintro (k | k) <;> linarith), if_pos ⟨by linarith, e1.le⟩, if_pos e1]
  · have g1 : Real.pi + corner c a < x := lt_of_le_of_ne h (Ne.symm e1)
    rw [if_neg e1]
    by_cases e2 : x = 2 * Real.pi - corner c a
    · rw [if_pos (Or.inr e2.ge), if_pos e2]
    · have g2 : x < 2 * Real.pi - corner c a := lt_of_le_of_ne h' e2
      rw [if_neg (by rintro (k | k) <;> linarith), if_neg (by intro k; linarith [k.2]), if_neg (by linarith),
        if_neg (by linarith), if_neg e2]
      by_cases e3 : x < 3 * Real.pi / 2
      · rw [if_pos e3]
      · rw [if_neg e3, show 3 * Real.pi / 2 - x = -(x - 3 * Real.pi / 2) by ring, Real.tan_neg]; ring

end

/-! ## C68 -/

/-- **C68** (in part): every ray of a rectangular footprint is in the plane of one of the four sides.  Missing: between
its corners. -/
theorem C68_sides_partial (s : State) (hs : Level s) (c a x : ℝ) (hc : 0 < c ∧ c < 180) (ha : 0 < a ∧ a < 180) (hx : x ≤ 2 * Real.pi - corner c a) :
    |(seen s (ray s c a 0 0 true x)).1| = halfWidth c ∨ |(seen s (ray s c a 0 0 true x)).2| = halfWidth a := by
  rw [seen_rect s hs]
  simp only []
  have pc := halfWidth_pos hc.1 hc.2
  have pa := halfWidth_pos ha.1 ha.2
  rcases lt_or_ge x (corner c a) with h1 | h1
  · left; rw [(side_right hc.1 ha.1 h1).1, abs_of_pos pc]
  · rcases le_or_gt x (Real.pi - corner c a) with h2 | h2
    · right; rw [(side_fore hc.1 ha.1 h1 h2).1, abs_of_pos pa]
    · rcases lt_or_ge x (Real.pi + corner c a) with h3 | h3
      · left; rw [(side_left hc.1 ha.1 h2 h3).1, abs_neg, abs_of_pos pc]
      · right; rw [(side_aft hc.1 ha.1 h3 hx).1, abs_neg, abs_of_pos pa]

theorem corner_square {c : ℝ} (h : 0 < c) : corner c c = Real.pi / 4 := by
  unfold corner
  rw [div_self h.ne', Real.arctan_one]

theorem abs_tan_le_one {y : ℝ} (h : |y| ≤ Real.pi / 4) : |Real.tan y| ≤ 1 := by
  obtain ⟨h1, h2⟩ := abs_le.mp h
  have hp := Real.pi_pos
  have m : ∀ u v : ℝ, -(Real.pi / 2) < u → u ≤ v → v < Real.pi / 2 → Real.tan u ≤ Real.tan v := by
    intro u v hu huv hv
    rcases eq_or_lt_of_le huv with rfl | huv
    · exact le_rfl
    · exact (Real.tan_lt_tan_of_lt_of_lt_pi_div_two hu hv huv).le
  rw [abs_le]
  constructor
  · have := m (-(Real.pi / 4)) y (by linarith) h1 (by linarith)
    rwa [Real.tan_neg, Real.tan_pi_div_four] at this
  · have := m y (Real.pi / 4) (by linarith) h2 (by linarith)
    rwa [Real.tan_pi_div_four] at this

theorem square_boundary (c x : ℝ) (hc : 0 < c ∧ c < 180) (hx0 : -(Real.pi / 4) ≤ x) (hx : x ≤ 2 * Real.pi - Real.pi / 4) :
    OnRectangle (halfWidth c) (halfWidth c) (rectCross c c x) (rectAlong c c x) := by
  have pc := halfWidth_pos hc.1 hc.2
  have hq := corner_square hc.1
  have scale : ∀ y : ℝ, |y| ≤ Real.pi / 4 → |halfWidth c * Real.tan y| ≤ halfWidth c := by
    intro y hy
    rw [abs_mul, abs_of_pos pc]
    exact mul_le_of_le_one_right pc.le (abs_tan_le_one hy)
  rcases lt_or_ge x (corner c c) with h1 | h1
  · obtain ⟨e1, e2⟩ := side_right hc.1 hc.1 h1
    left
    rw [e1, e2, abs_of_pos pc]
    exact ⟨rfl, scale x (abs_le.mpr ⟨hx0, by linarith⟩)⟩
  · rcases le_or_gt x (Real.pi - corner c c) with h2 | h2
    · obtain ⟨e1, e2⟩ := side_fore hc.1 hc.1 h1 h2
      right
      rw [e1, e2, abs_of_pos pc]
      refine ⟨?_, rfl⟩
      split_ifs
      · rw [abs_of_pos pc]
      · rw [abs_neg, abs_of_pos pc]
      · exact scale _ (abs_le.mpr ⟨by linarith, by linarith⟩)
    · rcases lt_or_ge x (Real.pi + corner c c) with h3 | h3
      · obtain ⟨e1, e2⟩ := side_left hc.1 hc.1 h2 h3
        left
        rw [e1, e2, abs_neg, abs_of_pos pc]
        exact ⟨rfl, scale _ (abs_le.mpr ⟨by linarith, by linarith⟩)⟩
      · obtain ⟨e1, e2⟩ := side_aft hc.1 hc.1 h3 (by rw [hq]; exact hx)
        right
        rw [e1, e2, abs_neg, abs_of_pos pc]
        refine ⟨?_, rfl⟩
        split_ifs
        · rw [abs_neg, abs_of_pos pc]
        · rw [abs_of_pos pc]
        · rw [neg_mul, abs_neg]
          exact scale _ (abs_le.mpr ⟨by linarith, by linarith⟩)

theorem linspaceOpen_mem {l r y : ℝ} {n : Nat} (h : l ≤ r) (hy : y ∈ linspaceOpen l r n) : l ≤ y ∧ y < r ∨ l = r ∧ y = l := by
  obtain ⟨i, hi, rfl⟩ := List.mem_map.mp hy
  have hi' : (i : ℝ) < n := by exact_mod_cast List.mem_range.mp hi
  have hn : (0 : ℝ) < n := lt_of_le_of_lt (Nat.cast_nonneg i) hi'
  rcases eq_or_lt_of_le h with e | e
  · right; subst e; simp
  · left
    have hd : 0 < (r - l) / n := div_pos (by linarith) hn
    constructor
    · have : 0 ≤ (i : ℝ) * ((r - l) / n) := by positivity
      linarith
    · have : (i : ℝ) * ((r - l) / n) < n * ((r - l) / n) := mul_lt_mul_of_pos_right hi' hd
      rw [mul_div_cancel₀ _ hn.ne'] at this
      linarith

theorem footprintAngles_range {c a y : ℝ} {n : Nat} (hc : 0 < c) (ha : 0 < a) (hy : y ∈ footprintAngles c a true n) :
    -corner c a ≤ y ∧ y ≤ 2 * Real.pi - corner c a := by
  obtain ⟨h0, h1⟩ := corner_bounds hc ha
  simp only [footprintAngles, if_true, List.mem_append] at hy
  rcases hy with ((h | h) | h) | h
  all_goals
    rcases linspaceOpen_mem (by linarith) h with ⟨k1, k2⟩ | ⟨k1, k2⟩ <;> constructor <;> linarith

/-- **C68** for square fields of view: every ray of the footprint is on the boundary of the square. -/
theorem C68_square_partial (s : State) (hs : Level s) (c : ℝ) (hc : 0 < c ∧ c < 180) (n : Nat) (x : ℝ) (hx : x ∈ footprintAngles c c true n) :
    OnRectangle (halfWidth c) (halfWidth c) (seen s (ray s c c 0 0 true x)).1 (seen s (ray s c c 0 0 true x)).2 := by
  rw [seen_rect s hs]
  obtain ⟨h1, h2⟩ := footprintAngles_range hc.1 hc.1 hx
  rw [corner_square hc.1] at h1 h2
  exact square_boundary c x hc h1 h2

example : (0 : ℝ) < 20 ∧ (20 : ℝ) < 180 ∧ ∃ x, x ∈ footprintAngles 20 20 true 3 :=
  ⟨by norm_num, by norm_num, by simp [footprintAngles, linspaceOpen, List.range_succ]⟩

theorem halfWidth_div_lt {f g : ℝ} (h0 : 0 < f) (h : f < g) (h1 : g < 180) : halfWidth f * g < halfWidth g * f := by
  have h2 := tan_mul_lt (radians_pos (half_pos h0)) (y := radians (g / 2))
      (by unfold radians; nlinarith [Real.pi_pos]) (radians_lt_half h1)
  rw [halfWidth_eq, halfWidth_eq] at h2
  have hp : 0 < Real.pi / 360 := by have := Real.pi_pos; positivity
  have : (halfWidth f * g) * (Real.pi / 360) < (halfWidth g * f) * (Real.pi / 360) := by
    unfold radians at h2; linarith
  exact lt_of_mul_lt_mul_right this hp.le

/-- **C68** fails for fields of view that are wider across than along the track: the first ray of every footprint is
outside of the rectangle. -/
theorem C68_wide_false (s : State) (hs : Level s) (c a : ℝ) (ha : 0 < a) (hac : a < c) (hc : c < 180) (n : Nat) (hn : 1 ≤ n) :
    ∃ x, (footprintAngles c a true n).head? = some x ∧
      halfWidth a < |(seen s (ray s c a 0 0 true x)).2| ∧
      ¬ OnRectangle (halfWidth c) (halfWidth a) (seen s (ray s c a 0 0 true x)).1 (seen s (ray s c a 0 0 true x)).2 := by
  simp only [seen_rect s hs]
  have hc0 : 0 < c := by linarith
  obtain ⟨h0, h1⟩ := corner_bounds hc0 ha
  obtain ⟨e1, e2⟩ := side_right hc0 ha (x := -corner c a) (by linarith)
  have pc := halfWidth_pos hc0 hc
  have pa := halfWidth_pos ha (by linarith)
  have hbig : halfWidth a < |rectAlong c a (-corner c a)| := by
    rw [e2, Real.tan_neg, tan_corner, mul_neg, abs_neg, abs_of_pos (by positivity), ← mul_div_assoc, lt_div_iff₀ hc0]
    exact halfWidth_div_lt ha hac hc
  refine ⟨-corner c a, ?_, hbig, ?_⟩
  · obtain ⟨m, rfl⟩ := Nat.exists_eq_add_of_le' hn
    simp only [footprintAngles, if_true, linspaceOpen, List.range_succ_eq_map]
    simp
  · rintro (⟨_, k⟩ | ⟨_, k⟩) <;> linarith

example : (0 : ℝ) < 10 ∧ (10 : ℝ) < 20 ∧ (20 : ℝ) < 180 ∧ 1 ≤ 16 := by norm_num

/-- **C68** fails for fields of view that are longer along than across the track: with enough points, one of the rays is
outside of the rectangle. -/
theorem C68_long_false (s : State) (hs : Level s) (c a : ℝ) (hc : 0 < c) (hca : c < a) (ha : a < 180) :
    ∃ N, ∀ n, N ≤ n → ∃ x ∈ footprintAngles c a true n,
      halfWidth c < |(seen s (ray s c a 0 0 true x)).1| ∧
      ¬ OnRectangle (halfWidth c) (halfWidth a) (seen s (ray s c a 0 0 true x)).1 (seen s (ray s c a 0 0 true x)).2 := by
  simp only [seen_rect s hs]
  have ha0 : 0 < a := by linarith
  obtain ⟨h0, h1⟩ := corner_bounds hc ha0
  have hp := Real.pi_pos
  have pc := halfWidth_pos hc (by linarith)
  have pa := halfWidth_pos ha0 ha
  set w := Real.pi - 2 * corner c a with hw
  have hw0 : 0 < w := by linarith
  -- the component across the track near the corner
  have hlim : halfWidth c < halfWidth a * Real.tan (Real.pi / 2 - corner c a) := by
    rw [Real.tan_pi_div_two_sub, tan_corner, inv_div, ← mul_div_assoc, lt_div_iff₀ ha0]
    exact halfWidth_div_lt hc hca ha
  have hcont : ContinuousAt (fun y => halfWidth a * Real.tan (Real.pi / 2 - (corner c a + y))) 0 := by
    apply ContinuousAt.mul continuousAt_const
    have hcos : Real.cos (Real.pi / 2 - (corner c a + 0)) ≠ 0 := by
      rw [add_zero, Real.cos_pi_div_two_sub]
      exact (Real.sin_pos_of_pos_of_lt_pi h0 (by linarith)).ne'
    exact ContinuousAt.comp (f := fun y => Real.pi / 2 - (corner c a + y)) (g := Real.tan)
      (Real.continuousAt_tan.2 hcos) (by fun_prop)
  have hev := hcont.eventually (lt_mem_nhds (by simpa using hlim) : ∀ᶠ z in nhds
    (halfWidth a * Real.tan (Real.pi / 2 - (corner c a + 0))), halfWidth c < z)
  obtain ⟨ε, hε, hball⟩ := Metric.eventually_nhds_iff.mp hev
  obtain ⟨N, hN⟩ := exists_nat_gt (w / ε)
  refine ⟨max N 2, fun n hn => ?_⟩
  have hn2 : (2 : ℝ) ≤ n := by exact_mod_cast (le_max_right N 2).trans hn
  have hn0 : (0 : ℝ) < n := by linarith
  have hnN : (N : ℝ) ≤ n := by exact_mod_cast (le_max_left N 2).trans hn
  have hd0 : 0 < w / n := div_pos hw0 hn0
  have hdw : w / n < w := by rw [div_lt_iff₀ hn0]; nlinarith
  have hde : w / n < ε := by
    rw [div_lt_iff₀ hn0]
    have := (div_lt_iff₀ hε).mp hN
    nlinarith
  have hmem : corner c a + w / n ∈ footprintAngles c a true n := by
    simp only [footprintAngles, if_true, List.mem_append]
    left; left; right
    refine List.mem_map.mpr ⟨1, List.mem_range.mpr (by exact_mod_cast (by linarith : (1 : ℝ) < n)), ?_⟩
    rw [hw]; push_cast; ring
  obtain ⟨e1, e2⟩ := side_fore hc ha0 (x := corner c a + w / n) (by linarith) (by linarith)
  rw [if_neg (by intro k; linarith), if_neg (by intro k; linarith)] at e2
  have hbig : halfWidth c < |rectCross c a (corner c a + w / n)| := by
    rw [e2]
    refine lt_of_lt_of_le (hball (y := w / n) ?_) (le_abs_self _)
    rw [Real.dist_eq, sub_zero, abs_of_pos hd0]; exact hde
  refine ⟨_, hmem, hbig, ?_⟩
  rintro (⟨k, _⟩ | ⟨k, _⟩) <;> linarith

example : (0 : ℝ) < 10 ∧ (10 : ℝ) < 20 ∧ (20 : ℝ) < 180 := by norm_num

/-- **C68** fails for the number of vertices: a rectangular footprint has four times as many as requested. -/
theorem C68_count_false {Geo : Type} (g : Globe Geo) (s : State) (c a roll pitch : ℝ) (n : Nat) (elevation : ℝ) :
    (footprintPoints g s c a roll pitch true n elevation).length = 4 * n ∧
    ((footprintPoints g s c a roll pitch true n elevation).length = n ↔ n = 0) := by
  have : (footprintPoints g s c a roll pitch true n elevation).length = 4 * n := by
    simp only [footprintPoints, footprintAngles, if_true, linspaceOpen, List.length_map, List.length_append, List.length_range]
    omega
  rw [this]
  exact ⟨rfl, by omega⟩

/-- **C68**: the ray at an angle leaves the vertical at that angle, except at the corners. -/
theorem C68_angle (s : State) (hs : Level s) (c a x : ℝ) (hc : 0 < c ∧ c < 180) (ha : 0 < a ∧ a < 180)
    (h0 : -corner c a ≤ x) (hx : x < 2 * Real.pi - corner c a)
    (h1 : x ≠ corner c a) (h2 : x ≠ Real.pi - corner c a) (h3 : x ≠ Real.pi + corner c a) :
    ∃ t : ℝ, 0 < t ∧ seen s (ray s c a 0 0 true x) = (t * Real.cos x, t * Real.sin x) := by
  have pc := halfWidth_pos hc.1 hc.2
  have pa := halfWidth_pos ha.1 ha.2
  obtain ⟨k0, k1⟩ := corner_bounds hc.1 ha.1
  have hp := Real.pi_pos
  rw [seen_rect s hs]
  rcases lt_or_ge x (corner c a) with g1 | g1
  · obtain ⟨e1, e2⟩ := side_right hc.1 ha.1 g1
    have hcos : 0 < Real.cos x := Real.cos_pos_of_mem_Ioo ⟨by linarith, by linarith⟩
    refine ⟨halfWidth c / Real.cos x, by positivity, ?_⟩
    rw [e1, e2, Real.tan_eq_sin_div_cos]
    refine Prod.ext ?_ ?_ <;> (simp only []; field_simp)
  · rcases le_or_gt x (Real.pi - corner c a) with g2 | g2
    · obtain ⟨e1, e2⟩ := side_fore hc.1 ha.1 g1 g2
      rw [if_neg h1, if_neg h2] at e2
      have hsin : 0 < Real.sin x := Real.sin_pos_of_pos_of_lt_pi (by linarith) (by linarith)
      refine ⟨halfWidth a / Real.sin x, by positivity, ?_⟩
      rw [e1, e2, Real.tan_eq_sin_div_cos, Real.sin_pi_div_two_sub, Real.cos_pi_div_two_sub]
      refine Prod.ext ?_ ?_ <;> (simp only []; field_simp)
    · rcases lt_or_ge x (Real.pi + corner c a) with g3 | g3
      · obtain ⟨e1, e2⟩ := side_left hc.1 ha.1 g2 g3
        have hcos : Real.cos x < 0 := Real.cos_neg_of_pi_div_two_lt_of_lt (by linarith) (by linarith)
        refine ⟨-(halfWidth c / Real.cos x), by rw [neg_pos]; exact div_neg_of_pos_of_neg pc hcos, ?_⟩
        have hne := hcos.ne
        rw [e1, e2, Real.tan_pi_sub, Real.tan_eq_sin_div_cos]
        refine Prod.ext ?_ ?_ <;> (simp only []; field_simp)
      · obtain ⟨e1, e2⟩ := side_aft hc.1 ha.1 g3 hx.le
        rw [if_neg h3, if_neg hx.ne] at e2
        have hsin : Real.sin x < 0 := by
          have : 0 < Real.sin (x - Real.pi) := Real.sin_pos_of_pos_of_lt_pi (by linarith) (by linarith)
          rw [Real.sin_sub_pi] at this; linarith
        have hne := hsin.ne
        refine ⟨-(halfWidth a / Real.sin x), by rw [neg_pos]; exact div_neg_of_pos_of_neg pa hsin, ?_⟩
        have ht : Real.tan (3 * Real.pi / 2 - x) = Real.cos x / Real.sin x := by
          rw [show 3 * Real.pi / 2 - x = (Real.pi / 2 - x) + Real.pi by ring, Real.tan_add_pi,
            Real.tan_eq_sin_div_cos, Real.sin_pi_div_two_sub, Real.cos_pi_div_two_sub]
        rw [e1, e2, ht]
        refine Prod.ext ?_ ?_ <;> (simp only []; field_simp)

/-- Straight ahead is not at a corner. -/
example : Level someState ∧ (-corner 20 10 ≤ Real.pi / 2) ∧ Real.pi / 2 < 2 * Real.pi - corner 20 10 ∧
    Real.pi / 2 ≠ corner 20 10 ∧ Real.pi / 2 ≠ Real.pi - corner 20 10 ∧ Real.pi / 2 ≠ Real.pi + corner 20 10 := by
  obtain ⟨h0, h1⟩ := corner_bounds (c := 20) (a := 10) (by norm_num) (by norm_num)
  have hp := Real.pi_pos
  exact ⟨someState_level, by linarith, by linarith, by intro h; linarith, by intro h; linarith, by intro h; linarith⟩

/-- **C68**, **C84**: every vertex of a footprint is where the ray of its angle meets the earth. -/
theorem C84_points {Geo : Type} (g : Globe Geo) (s : State) (c a roll pitch : ℝ) (rectangular : Bool) (n : Nat)
    (elevation : ℝ) (i : Nat) (x : ℝ) (hx : (footprintAngles c a rectangular n)[i]? = some x) (q : Geo)
    (hq : g.surface s.position (ray s c a roll pitch rectangular x) elevation = some q) :
    (footprintPoints g s c a roll pitch rectangular n elevation)[i]? = some q := by
  simp only [footprintPoints, List.getElem?_map, hx, Option.map_some, project, hq, Option.getD_some]

/-! ## C84: elliptical footprints -/

/-- **C84**: every ray of an elliptical footprint is on the ellipse with the two fields of view as axes. -/
theorem C84_ellipse (s : State) (hs : Level s) (c a : ℝ) (hc : 0 < c ∧ c < 180) (ha : 0 < a ∧ a < 180) (x : ℝ) :
    OnEllipse (halfWidth c) (halfWidth a) (seen s (ray s c a 0 0 false x)).1 (seen s (ray s c a 0 0 false x)).2 := by
  rw [seen_ellipse s hs]
  have pc := (halfWidth_pos hc.1 hc.2).ne'
  have pa := (halfWidth_pos ha.1 ha.2).ne'
  simp only [OnEllipse, ellipse, halfWidth_eq]
  rw [mul_div_cancel_right₀ _ pc, mul_div_cancel_right₀ _ pa]
  linarith [Real.sin_sq_add_cos_sq x]

example : ((0 : ℝ) < 20 ∧ (20 : ℝ) < 180) ∧ (0 : ℝ) < 10 ∧ (10 : ℝ) < 180 := by norm_num

theorem linspace_length (l r : ℝ) (n : Nat) : (linspace l r n).length = n := by simp [linspace]

theorem linspace_ends (l r : ℝ) (n : Nat) (h : 2 ≤ n) : (linspace l r n)[0]? = some l ∧ (linspace l r n)[n - 1]? = some r := by
  have hn : ((n : ℝ) - 1) ≠ 0 := by
    have : (2 : ℝ) ≤ n := by exact_mod_cast h
    intro e; linarith
  unfold linspace
  constructor
  · simp [show 0 < n by omega]
  · have hc : ((n - 1 : ℕ) : ℝ) = (n : ℝ) - 1 := by rw [Nat.cast_sub (by omega)]; simp
    simp only [List.getElem?_map, List.getElem?_range (show n - 1 < n by omega), Option.map_some, hc]
    congr 1
    field_simp
    ring

/-- **C84**: an elliptical footprint has as many vertices as requested and the last repeats the first, up to the
numbering of turns. -/
theorem C84_vertices {Geo : Type} (g : Globe Geo) (s : State) (c a : ℝ) (n : Nat) (elevation : ℝ) :
    (footprintPoints g s c a 0 0 false n elevation).length = n ∧
    (2 ≤ n → ∃ first last, (footprintAngles c a false n)[0]? = some first ∧
      (footprintAngles c a false n)[n - 1]? = some last ∧
      ray s c a 0 0 false first = ray s c a 0 0 false last) := by
  constructor
  · simp [footprintPoints, footprintAngles, linspace]
  · intro h
    obtain ⟨h1, h2⟩ := linspace_ends 0 (2 * Real.pi) n h
    refine ⟨0, 2 * Real.pi, ?_, ?_, ?_⟩
    · simpa [footprintAngles] using h1
    · simpa [footprintAngles] using h2
    · simp [ray, ellipse]

end Tatc.Props
