import Mathlib.Analysis.SpecialFunctions.Complex.Arg
import Verif.Model.Solar
import Verif.Spec.Shadow
import Verif.Props.Rays
import Verif.Props.SunSync

/-!
# C124, C125, C126: the Sun
-/

namespace Tatc.Props
open Tatc.Num Tatc.Spec Tatc.Solar
open scoped Classical

theorem lengthOf_pos {a : V3} (h : a ≠ ⟨0, 0, 0⟩) : 0 < lengthOf a := Real.sqrt_pos.mpr (dot_self_pos h)

theorem lengthOf_sq (a : V3) : lengthOf a ^ 2 = a.dot a := by
  unfold lengthOf
  rw [Real.sq_sqrt]
  unfold V3.dot
  nlinarith [sq_nonneg a.x, sq_nonneg a.y, sq_nonneg a.z]

theorem dot_sq_le (u v : V3) : u.dot v ^ 2 ≤ u.dot u * v.dot v := by
  have : u.dot u * v.dot v - u.dot v ^ 2 = (u.cross v).dot (u.cross v) := by simp only [V3.cross, V3.dot]; ring
  have h2 : 0 ≤ (u.cross v).dot (u.cross v) := by
    simp only [V3.dot]; nlinarith [sq_nonneg (u.cross v).x, sq_nonneg (u.cross v).y, sq_nonneg (u.cross v).z]
  linarith

theorem arctan2_turn {r x : ℝ} (hr : 0 < r) (h1 : -Real.pi < x) (h2 : x ≤ Real.pi) :
    arctan2 (r * Real.sin x) (r * Real.cos x) = x := by
  unfold arctan2
  have : (⟨r * Real.cos x, r * Real.sin x⟩ : ℂ) = (r : ℂ) * (Complex.cos (x : ℂ) + Complex.sin (x : ℂ) * Complex.I) := by
    apply Complex.ext <;> simp [Complex.cos_ofReal_re, Complex.sin_ofReal_re]
  rw [this, Complex.arg_mul_cos_add_sin_mul_I hr ⟨h1, h2⟩]

/-- `angle_between` is the angle between the vectors. -/
theorem angleBetween_eq {u v : V3} (hu : u ≠ ⟨0, 0, 0⟩) (hv : v ≠ ⟨0, 0, 0⟩) :
    Solar.angleBetween u v = Real.arccos (u.dot v / (lengthOf u * lengthOf v)) := by
  have h1 := lengthOf_pos hu
  have h2 := lengthOf_pos hv
  have s1 := lengthOf_sq u
  have s2 := lengthOf_sq v
  have hcs := dot_sq_le u v
  set L := lengthOf u * lengthOf v with hL
  have hL0 : 0 < L := by positivity
  have hLs : L ^ 2 = u.dot u * v.dot v := by rw [hL, mul_pow, s1, s2]
  set c := u.dot v / L with hc
  have hcL : u.dot v = c * L := by rw [hc]; field_simp
  have hc1 : c ^ 2 ≤ 1 := by
    rw [hcL, ← hLs, mul_pow] at hcs
    by_contra hn
    push Not at hn
    nlinarith [pow_pos hL0 2]
  have hca := abs_le_one_iff_mul_self_le_one.mpr (by nlinarith : c * c ≤ 1)
  obtain ⟨hc2, hc3⟩ := abs_le.mp hca
  set θ := Real.arccos c with hθ
  have ht0 : 0 ≤ θ := Real.arccos_nonneg _
  have ht1 : θ ≤ Real.pi := Real.arccos_le_pi _
  have hcos : Real.cos θ = c := Real.cos_arccos hc2 hc3
  have hch : Real.cos θ = 2 * Real.cos (θ / 2) ^ 2 - 1 := by
    rw [← Real.cos_two_mul]; congr 1; ring
  have hsh := Real.sin_sq_add_cos_sq (θ / 2)
  have hs0 : 0 ≤ Real.sin (θ / 2) := Real.sin_nonneg_of_nonneg_of_le_pi (by linarith) (by linarith)
  have hco0 : 0 ≤ Real.cos (θ / 2) := Real.cos_nonneg_of_neg_pi_div_two_le_of_le (by linarith) (by linarith)
  have e1 : lengthOf ((u.smul (lengthOf v)).add ((v.smul (lengthOf u)).smul (-1))) = 2 * L * Real.sin (θ / 2) := by
    have : ((u.smul (lengthOf v)).add ((v.smul (lengthOf u)).smul (-1))).dot
        ((u.smul (lengthOf v)).add ((v.smul (lengthOf u)).smul (-1))) = (2 * L * Real.sin (θ / 2)) ^ 2 := by
      have : ((u.smul (lengthOf v)).add ((v.smul (lengthOf u)).smul (-1))).dot
        ((u.smul (lengthOf v)).add ((v.smul (lengthOf u)).smul (-1))) =
          lengthOf v ^ 2 * u.dot u + lengthOf u ^ 2 * v.dot v - 2 * L * u.dot v := by
        simp only [V3.smul, V3.add, V3.dot, hL]; ring
      rw [this, s1, s2, hcL]
      have hq : Real.sin (θ / 2) ^ 2 = (1 - c) / 2 := by rw [← hcos, hch]; linarith
      rw [mul_pow, mul_pow, hq, mul_comm (v.dot v), ← hLs]; ring
    rw [lengthOf, this, Real.sqrt_sq (by positivity)]
  have e2 : lengthOf ((u.smul (lengthOf v)).add (v.smul (lengthOf u))) = 2 * L * Real.cos (θ / 2) := by
    have : ((u.smul (lengthOf v)).add (v.smul (lengthOf u))).dot
        ((u.smul (lengthOf v)).add (v.smul (lengthOf u))) = (2 * L * Real.cos (θ / 2)) ^ 2 := by
      have : ((u.smul (lengthOf v)).add (v.smul (lengthOf u))).dot ((u.smul (lengthOf v)).add (v.smul (lengthOf u))) =
          lengthOf v ^ 2 * u.dot u + lengthOf u ^ 2 * v.dot v + 2 * L * u.dot v := by
        simp only [V3.smul, V3.add, V3.dot, hL]; ring
      rw [this, s1, s2, hcL]
      have hq : Real.cos (θ / 2) ^ 2 = (1 + c) / 2 := by rw [← hcos, hch]; ring
      rw [mul_pow, mul_pow, hq, mul_comm (v.dot v), ← hLs]; ring
    rw [lengthOf, this, Real.sqrt_sq (by positivity)]
  unfold Solar.angleBetween
  simp only
  rw [e1, e2]
  have harg : arctan2 (2 * L * Real.sin (θ / 2)) (2 * L * Real.cos (θ / 2)) = θ / 2 := by
    exact arctan2_turn (by positivity) (by linarith [Real.pi_pos]) (by linarith [Real.pi_pos])
  rw [harg]; ring

/-! ## C124: the beta angle -/

/-- C124: the solar beta angle is the height of the Sun above the plane of the orbit: between -90 and 90 degrees, its
sine being the component of the direction of the Sun along the axis about which the satellite goes around. -/
theorem C124_height {position velocity sun : V3} (h : position.cross velocity ≠ ⟨0, 0, 0⟩) (hs : sun ≠ ⟨0, 0, 0⟩) :
    -90 ≤ solarBeta position velocity sun ∧ solarBeta position velocity sun ≤ 90 ∧
      sinDeg (solarBeta position velocity sun) * (len (position.cross velocity) * len sun) =
        (position.cross velocity).dot sun := by
  have hpi := Real.pi_pos
  have h1 := lengthOf_pos h
  have h2 := lengthOf_pos hs
  set n := position.cross velocity with hn
  have hcs := dot_sq_le n sun
  have hLs : (lengthOf n * lengthOf sun) ^ 2 = n.dot n * sun.dot sun := by rw [mul_pow, lengthOf_sq, lengthOf_sq]
  set L := lengthOf n * lengthOf sun with hL
  have hL0 : 0 < L := by positivity
  have hb : |n.dot sun / L| ≤ 1 := by
    rw [abs_div, abs_of_pos hL0, div_le_one hL0]
    exact abs_le_of_sq_le_sq (by rw [hLs]; exact hcs) hL0.le
  obtain ⟨hb1, hb2⟩ := abs_le.mp hb
  have hang := angleBetween_eq h hs
  have a0 := Real.arccos_nonneg (n.dot sun / L)
  have a1 := Real.arccos_le_pi (n.dot sun / L)
  unfold solarBeta degrees
  rw [hang]
  refine ⟨?_, ?_, ?_⟩
  · rw [mul_div_assoc', le_div_iff₀ hpi]; nlinarith
  · rw [mul_div_assoc', div_le_iff₀ hpi]; nlinarith
  · unfold sinDeg
    have : (Real.pi / 2 - Real.arccos (n.dot sun / L)) * (180 / Real.pi) * Real.pi / 180 =
        Real.pi / 2 - Real.arccos (n.dot sun / L) := by field_simp
    rw [this, Real.sin_pi_div_two_sub, Real.cos_arccos hb1 hb2]
    change n.dot sun / L * L = _
    field_simp

theorem solarBeta_injective {β γ : ℝ} (h1 : -90 ≤ β) (h2 : β ≤ 90) (h3 : -90 ≤ γ) (h4 : γ ≤ 90) (h : sinDeg β = sinDeg γ) :
    β = γ := by
  have hpi := Real.pi_pos
  have := Real.injOn_sin (by constructor <;> nlinarith : β * Real.pi / 180 ∈ Set.Icc (-(Real.pi / 2)) (Real.pi / 2))
    (by constructor <;> nlinarith : γ * Real.pi / 180 ∈ Set.Icc (-(Real.pi / 2)) (Real.pi / 2)) h
  field_simp at this
  exact this

theorem cross_combine (r v : V3) (a b c d : ℝ) :
    ((r.smul a).add (v.smul b)).cross ((r.smul c).add (v.smul d)) = (r.cross v).smul (a * d - b * c) := by
  ext <;> simp only [V3.cross, V3.smul, V3.add] <;> ring

theorem len_smul (a : V3) (k : ℝ) : len (a.smul k) = |k| * len a := by
  unfold len
  have : (a.smul k).dot (a.smul k) = k ^ 2 * a.dot a := by simp only [V3.smul, V3.dot]; ring
  rw [this, Real.sqrt_mul (sq_nonneg k), Real.sqrt_sq_eq_abs]

theorem smul_ne_zero {a : V3} {k : ℝ} (ha : a ≠ ⟨0, 0, 0⟩) (hk : k ≠ 0) : a.smul k ≠ ⟨0, 0, 0⟩ := by
  intro h
  apply ha
  have hx := congrArg V3.x h
  have hy := congrArg V3.y h
  have hz := congrArg V3.z h
  simp only [V3.smul, mul_eq_zero, hk, false_or] at hx hy hz
  ext <;> assumption

theorem sinDeg_neg (x : ℝ) : sinDeg (-x) = -sinDeg x := by
  unfold sinDeg; rw [← Real.sin_neg]; congr 1; ring

/-- C124: the beta angle does not change along an orbit.  Wherever the satellite is in the plane and however fast it
moves, it is the same if it goes around in the same sense, and the opposite if it goes around the other way. -/
theorem C124_same_orbit {r v sun : V3} (h : r.cross v ≠ ⟨0, 0, 0⟩) (hs : sun ≠ ⟨0, 0, 0⟩) (a b c d : ℝ) :
    (0 < a * d - b * c →
      solarBeta ((r.smul a).add (v.smul b)) ((r.smul c).add (v.smul d)) sun = solarBeta r v sun) ∧
    (a * d - b * c < 0 →
      solarBeta ((r.smul a).add (v.smul b)) ((r.smul c).add (v.smul d)) sun = -solarBeta r v sun) := by
  obtain ⟨l1, u1, e1⟩ := C124_height h hs
  have key : ∀ k : ℝ, k ≠ 0 → a * d - b * c = k →
      sinDeg (solarBeta ((r.smul a).add (v.smul b)) ((r.smul c).add (v.smul d)) sun) * |k| =
        k * sinDeg (solarBeta r v sun) ∧
      -90 ≤ solarBeta ((r.smul a).add (v.smul b)) ((r.smul c).add (v.smul d)) sun ∧
      solarBeta ((r.smul a).add (v.smul b)) ((r.smul c).add (v.smul d)) sun ≤ 90 := by
    intro k hk he
    have hc := cross_combine r v a b c d
    rw [he] at hc
    have h' : ((r.smul a).add (v.smul b)).cross ((r.smul c).add (v.smul d)) ≠ ⟨0, 0, 0⟩ := by
      rw [hc]; exact smul_ne_zero h hk
    obtain ⟨l2, u2, e2⟩ := C124_height h' hs
    refine ⟨?_, l2, u2⟩
    rw [hc, len_smul] at e2
    have hd : ((r.cross v).smul k).dot sun = k * (r.cross v).dot sun := by simp only [V3.smul, V3.dot]; ring
    rw [hd, ← e1] at e2
    have hp : 0 < len (r.cross v) * len sun := mul_pos (lengthOf_pos h) (lengthOf_pos hs)
    apply mul_right_cancel₀ hp.ne'
    linarith
  constructor
  · intro hk
    obtain ⟨e, l2, u2⟩ := key _ hk.ne' rfl
    rw [abs_of_pos hk] at e
    exact solarBeta_injective l2 u2 l1 u1 (mul_right_cancel₀ hk.ne' (by linarith))
  · intro hk
    obtain ⟨e, l2, u2⟩ := key _ hk.ne rfl
    rw [abs_of_neg hk] at e
    refine solarBeta_injective l2 u2 (by linarith) (by linarith) ?_
    rw [sinDeg_neg]
    exact mul_right_cancel₀ hk.ne (by linarith)


theorem normal_dot_normal (i Ω : ℝ) : (normal i Ω).dot (normal i Ω) = 1 := by
  have h1 := Real.sin_sq_add_cos_sq (i * Real.pi / 180)
  have h2 := Real.sin_sq_add_cos_sq (Ω * Real.pi / 180)
  simp only [normal, V3.dot, sinDeg, cosDeg]
  linear_combination h1 + Real.sin (i * Real.pi / 180) ^ 2 * h2

theorem sunAt_dot (α δ D : ℝ) : (sunAt α δ D).dot (sunAt α δ D) = D ^ 2 := by
  have h1 := Real.sin_sq_add_cos_sq (δ * Real.pi / 180)
  have h2 := Real.sin_sq_add_cos_sq (α * Real.pi / 180)
  simp only [sunAt, V3.dot, sinDeg, cosDeg]
  linear_combination D ^ 2 * h1 + D ^ 2 * Real.cos (δ * Real.pi / 180) ^ 2 * h2

theorem perigee_cross (i Ω u : ℝ) :
    (perigeeDirection i Ω u).cross (perigeeDirection i Ω (u + 90)) = normal i Ω := by
  have hs : sinDeg (u + 90) = cosDeg u := by
    unfold sinDeg cosDeg
    rw [← Real.sin_add_pi_div_two]; congr 1; ring
  have hc : cosDeg (u + 90) = -sinDeg u := by
    unfold sinDeg cosDeg
    rw [← Real.cos_add_pi_div_two]; congr 1; ring
  have h1 : sinDeg u ^ 2 + cosDeg u ^ 2 = 1 := Real.sin_sq_add_cos_sq _
  have h2 : sinDeg Ω ^ 2 + cosDeg Ω ^ 2 = 1 := Real.sin_sq_add_cos_sq _
  ext <;> simp only [perigeeDirection, normal, V3.cross, hs, hc]
  · linear_combination sinDeg i * sinDeg Ω * h1
  · linear_combination -(sinDeg i * cosDeg Ω) * h1
  · linear_combination cosDeg i * h1 + cosDeg i * (sinDeg u ^ 2 + cosDeg u ^ 2) * h2

/-- C124: the beta angle of an orbit with inclination `i` and node `Ω`, at the argument of latitude `u` at a distance
`r` from the centre, climbing at the rate `w` and moving across its vertical at the rate `v`, when the Sun is at right
ascension `α` and declination `δ`. -/
theorem C124_elements (i Ω u r v w α δ D : ℝ) (hr : 0 < r) (hv : 0 < v) (hD : 0 < D) :
    sinDeg (solarBeta ((perigeeDirection i Ω u).smul r)
        (((perigeeDirection i Ω u).smul w).add ((perigeeDirection i Ω (u + 90)).smul v)) (sunAt α δ D)) =
      cosDeg δ * sinDeg i * sinDeg (Ω - α) + sinDeg δ * cosDeg i := by
  have hx : ((perigeeDirection i Ω u).smul r).cross
      (((perigeeDirection i Ω u).smul w).add ((perigeeDirection i Ω (u + 90)).smul v)) = (normal i Ω).smul (r * v) := by
    have := cross_combine (perigeeDirection i Ω u) (perigeeDirection i Ω (u + 90)) r 0 w v
    rw [perigee_cross] at this
    rw [show r * v = r * v - 0 * w by ring, ← this]
    congr 1
    ext <;> simp [V3.add, V3.smul]
  have hn : normal i Ω ≠ ⟨0, 0, 0⟩ := by
    intro h
    have := normal_dot_normal i Ω
    rw [h] at this
    norm_num [V3.dot] at this
  have hs : sunAt α δ D ≠ ⟨0, 0, 0⟩ := by
    intro h
    have := sunAt_dot α δ D
    rw [h] at this
    norm_num [V3.dot] at this
    exact hD.ne' (pow_eq_zero_iff (by norm_num) |>.mp this.symm)
  obtain ⟨-, -, e⟩ := C124_height (position := (perigeeDirection i Ω u).smul r)
    (velocity := ((perigeeDirection i Ω u).smul w).add ((perigeeDirection i Ω (u + 90)).smul v))
    (by rw [hx]; exact smul_ne_zero hn (by positivity)) hs
  rw [hx, len_smul, abs_of_pos (by positivity)] at e
  have l1 : len (normal i Ω) = 1 := by unfold len; rw [normal_dot_normal, Real.sqrt_one]
  have l2 : len (sunAt α δ D) = D := by unfold len; rw [sunAt_dot, Real.sqrt_sq hD.le]
  rw [l1, l2] at e
  have hk : 0 < r * v * D := by positivity
  apply mul_right_cancel₀ hk.ne'
  have hsub : sinDeg (Ω - α) = sinDeg Ω * cosDeg α - cosDeg Ω * sinDeg α := by
    unfold sinDeg cosDeg
    rw [← Real.sin_sub]; congr 1; ring
  rw [hsub]
  have hd : ((normal i Ω).smul (r * v)).dot (sunAt α δ D) = (cosDeg δ * sinDeg i * (sinDeg Ω * cosDeg α - cosDeg Ω * sinDeg α) +
      sinDeg δ * cosDeg i) * (r * v * D) := by
    simp only [V3.smul, V3.dot, normal, sunAt]; ring
  rw [hd] at e
  linarith

/-- An orbit over the poles with its node 30 degrees east of the Sun, which stands over the equator: the beta angle is 30
degrees. -/
example : solarBeta ((perigeeDirection 90 30 0).smul 7000000)
    (((perigeeDirection 90 30 0).smul 0).add ((perigeeDirection 90 30 (0 + 90)).smul 7500)) (sunAt 0 0 1.5e11) = 30 := by
  have h := C124_elements 90 30 0 7000000 7500 0 0 0 1.5e11 (by norm_num) (by norm_num) (by norm_num)
  have h90 : sinDeg 90 = 1 := by unfold sinDeg; rw [show (90 : ℝ) * Real.pi / 180 = Real.pi / 2 by ring, Real.sin_pi_div_two]
  have c90 : cosDeg 90 = 0 := by unfold cosDeg; rw [show (90 : ℝ) * Real.pi / 180 = Real.pi / 2 by ring, Real.cos_pi_div_two]
  have c0 : cosDeg 0 = 1 := by unfold cosDeg; norm_num
  rw [h90, c90, c0] at h
  have hx : ((perigeeDirection 90 30 0).smul 7000000).cross
      (((perigeeDirection 90 30 0).smul 0).add ((perigeeDirection 90 30 (0 + 90)).smul 7500)) =
      (normal 90 30).smul (7000000 * 7500) := by
    have := cross_combine (perigeeDirection 90 30 0) (perigeeDirection 90 30 (0 + 90)) 7000000 0 0 7500
    rw [perigee_cross] at this
    rw [show (7000000 : ℝ) * 7500 = 7000000 * 7500 - 0 * 0 by ring, ← this]
    congr 1
    ext <;> simp [V3.add, V3.smul]
  have hn : normal 90 30 ≠ ⟨0, 0, 0⟩ := by
    intro h
    have := normal_dot_normal 90 30
    rw [h] at this
    norm_num [V3.dot] at this
  have hs : sunAt 0 0 1.5e11 ≠ ⟨0, 0, 0⟩ := by
    intro h
    have := sunAt_dot 0 0 1.5e11
    rw [h] at this
    norm_num [V3.dot] at this
  obtain ⟨h1, h2, -⟩ := C124_height (by rw [hx]; exact smul_ne_zero hn (by norm_num)) hs
  refine solarBeta_injective h1 h2 (by norm_num) (by norm_num) ?_
  rw [h]; norm_num

/-! ## C125: sunlight -/

theorem len_le_iff {a : V3} {r : ℝ} (hr : 0 ≤ r) : len a ≤ r ↔ a.dot a ≤ r ^ 2 := by
  unfold len
  rw [Real.sqrt_le_left hr]

theorem between_dot (a b : V3) (t : ℝ) :
    (between a b t).dot (between a b t) = a.dot a + 2 * t * ((sub b a).dot a) + t ^ 2 * (sub b a).dot (sub b a) := by
  simp only [between, sub, V3.dot]; ring

theorem erad_pos : 0 < erad := by unfold erad; norm_num

/-- C125: `is_sunlit` says whether the satellite sees the Sun: it is false exactly when the straight line from the
satellite to the Sun meets the Earth, taken to be a ball of the radius at the equator.  This holds of every satellite
outside this ball that is no farther away than the Sun. -/
theorem C125_sunlit {satellite sun : V3} (h1 : erad < len satellite) (h2 : len satellite ≤ len sun) (h3 : sun ≠ satellite) :
    isSunlit satellite sun = true ↔ ¬ SunHidden erad satellite sun := by
  have hR := erad_pos
  set d := sub sun satellite with hd
  have hd0 : d ≠ ⟨0, 0, 0⟩ := by
    intro h
    apply h3
    have hx := congrArg V3.x h
    have hy := congrArg V3.y h
    have hz := congrArg V3.z h
    simp only [hd, sub] at hx hy hz
    ext <;> linarith
  have hL0 := lengthOf_pos hd0
  have hLs := lengthOf_sq d
  set L := lengthOf d with hL
  have hss : satellite.dot satellite = len satellite ^ 2 := (lengthOf_sq satellite).symm
  have hsun : sun.dot sun = len sun ^ 2 := (lengthOf_sq sun).symm
  -- the distance along the line at which it is nearest to the centre
  set b := -(d.dot satellite) / L with hb
  have hbL : d.dot satellite = -(b * L) := by rw [hb]; field_simp
  have hc : 0 < satellite.dot satellite - erad ^ 2 := by rw [hss]; nlinarith
  set c := satellite.dot satellite - erad ^ 2 with hcdef
  have hdir : sun.add (satellite.smul (-1)) = d := by
    ext <;> simp only [V3.add, V3.smul, hd, sub] <;> ring
  have hmb : 2 * (d.smul (1 / lengthOf d)).dot (satellite.smul (-1)) = 2 * b := by
    have : (d.smul (1 / lengthOf d)).dot (satellite.smul (-1)) = -(d.dot satellite) / L := by
      simp only [V3.smul, V3.dot, ← hL]; field_simp; ring
    rw [this]
  have hcc : (satellite.smul (-1)).dot (satellite.smul (-1)) - erad * erad = c := by
    simp only [V3.smul, V3.dot, hcdef]; ring
  -- meeting the ball at the fraction `t` of the way
  have meet : ∀ t, len (between satellite sun t) ≤ erad ↔ (t * L) ^ 2 - 2 * b * (t * L) + c ≤ 0 := by
    intro t
    rw [len_le_iff hR.le, between_dot, ← hd, ← hLs, hbL]
    constructor <;> intro h <;> nlinarith
  -- the Sun is not nearer to the centre than the satellite
  have hfar : 2 * b ≤ L := by
    have e := between_dot satellite sun 1
    have e1 : between satellite sun 1 = sun := by ext <;> simp only [between] <;> ring
    rw [e1, ← hd, hsun, hss, ← hLs, hbL] at e
    have h0 : 0 ≤ len satellite := Real.sqrt_nonneg _
    have : 0 ≤ L * (L - 2 * b) := by nlinarith
    have := nonneg_of_mul_nonneg_right this hL0
    linarith
  unfold isSunlit lineAndSphere
  simp only
  rw [hdir, hmb, hcc]
  by_cases hdisc : 2 * b * (2 * b) - 4 * c < 0
  · rw [if_pos hdisc]
    simp only [true_iff]
    rintro ⟨t, ht0, -, hm⟩
    rw [meet] at hm
    nlinarith [sq_nonneg (t * L - b)]
  · rw [if_neg hdisc]
    simp only [decide_eq_true_eq]
    push Not at hdisc
    have hq : Real.sqrt (2 * b * (2 * b) - 4 * c) = 2 * Real.sqrt (b ^ 2 - c) := by
      rw [show 2 * b * (2 * b) - 4 * c = 2 ^ 2 * (b ^ 2 - c) by ring, Real.sqrt_mul (by norm_num),
        Real.sqrt_sq (by norm_num)]
    have hq0 := Real.sqrt_nonneg (b ^ 2 - c)
    have hqs := Real.sq_sqrt (show 0 ≤ b ^ 2 - c by linarith)
    rw [hq]
    set q := Real.sqrt (b ^ 2 - c)
    constructor
    · rintro hle ⟨t, ht0, -, hm⟩
      rw [meet] at hm
      have hx : (t * L - b) ^ 2 ≤ q ^ 2 := by rw [hqs]; nlinarith
      have hx2 := (abs_le_of_sq_le_sq hx hq0)
      have := (abs_le.mp hx2).2
      have h0 : 0 ≤ t * L := mul_nonneg ht0 hL0.le
      have hz : t * L = 0 := by linarith
      rw [hz] at hm
      linarith
    · intro hn
      by_contra hpos
      push Not at hpos
      apply hn
      have hb0 : 0 < b := by
        by_contra hb0
        push Not at hb0
        nlinarith
      have hqb : q < b := by nlinarith
      refine ⟨(b - q) / L, div_nonneg (by linarith) hL0.le, ?_, ?_⟩
      · rw [div_le_one hL0]; linarith
      · rw [meet, div_mul_cancel₀ _ hL0.ne']
        nlinarith

theorem gram_nonneg (a b n : V3) (h : a.dot n = 0) :
    a.dot b ^ 2 * n.dot n + a.dot a * n.dot b ^ 2 ≤ a.dot a * b.dot b * n.dot n := by
  have e : a.dot a * b.dot b * n.dot n - a.dot b ^ 2 * n.dot n - a.dot a * n.dot b ^ 2 =
      ((a.cross b).dot n) ^ 2 - 2 * a.dot b * n.dot b * a.dot n + b.dot b * a.dot n ^ 2 := by
    simp only [V3.dot, V3.cross]; ring
  rw [h] at e
  nlinarith [sq_nonneg ((a.cross b).dot n)]

/-- C125: the column `sat_sunlit` agrees with the column `solar_beta`: a satellite whose orbit plane is far enough from
the Sun is never in shadow.  Up to the ratio of the distances of the Sun from satellite and Earth the condition is that
the Earth looks smaller than the beta angle from the satellite. -/
theorem C125_beta {position velocity sun : V3} (h1 : erad < len position) (h2 : len position ≤ len sun)
    (h : position.cross velocity ≠ ⟨0, 0, 0⟩)
    (hb : erad * len (sub sun position) < len position * len sun * |sinDeg (solarBeta position velocity sun)|) :
    isSunlit position sun = true := by
  have hR := erad_pos
  have h3 : sun ≠ position := by
    rintro rfl
    have hs : sun ≠ ⟨0, 0, 0⟩ := by
      rintro rfl
      norm_num [len, V3.dot] at h1
      linarith
    have := (C124_height h hs).2.2
    have hz : (sun.cross velocity).dot sun = 0 := by simp only [V3.cross, V3.dot]; ring
    rw [hz] at this
    have hp : 0 < len (sun.cross velocity) * len sun := mul_pos (lengthOf_pos h) (lengthOf_pos hs)
    have : sinDeg (solarBeta sun velocity sun) = 0 := (mul_eq_zero.mp this).resolve_right hp.ne'
    rw [this, abs_zero, mul_zero] at hb
    have : 0 ≤ erad * len (sub sun sun) := mul_nonneg hR.le (Real.sqrt_nonneg _)
    linarith
  have hs : sun ≠ ⟨0, 0, 0⟩ := by
    rintro rfl
    norm_num [len, V3.dot] at h1 h2
    have : 0 ≤ Real.sqrt (position.x * position.x + position.y * position.y + position.z * position.z) := Real.sqrt_nonneg _
    linarith
  rw [C125_sunlit h1 h2 h3]
  rintro ⟨t, -, -, hm⟩
  have hbeta := (C124_height h hs).2.2
  set n := position.cross velocity with hn
  set β := sinDeg (solarBeta position velocity sun)
  set d := sub sun position with hd
  have hpn : position.dot n = 0 := by simp only [hn, V3.cross, V3.dot]; ring
  have hnd : n.dot d = n.dot sun := by
    have : n.dot d = n.dot sun - position.dot n := by simp only [hd, sub, V3.dot]; ring
    rw [this, hpn, sub_zero]
  have hgram := gram_nonneg position d n hpn
  rw [len_le_iff hR.le, between_dot, ← hd] at hm
  have np : 0 < n.dot n := dot_self_pos h
  have hnl : len n ^ 2 = n.dot n := lengthOf_sq n
  have hsl : len sun ^ 2 = sun.dot sun := lengthOf_sq sun
  have hpl : len position ^ 2 = position.dot position := lengthOf_sq position
  have hdl : len d ^ 2 = d.dot d := lengthOf_sq d
  rw [hnd, ← hbeta] at hgram
  -- divide by the length of the normal
  have g2 : position.dot d ^ 2 + len position ^ 2 * (β * len sun) ^ 2 ≤ len position ^ 2 * len d ^ 2 := by
    rw [← hnl, ← hpl, ← hdl] at hgram
    have e : (position.dot d ^ 2 + len position ^ 2 * (β * len sun) ^ 2) * len n ^ 2 ≤
        (len position ^ 2 * len d ^ 2) * len n ^ 2 := by nlinarith
    exact le_of_mul_le_mul_right e (by rw [hnl]; exact np)
  have hdp : d.dot position = position.dot d := by simp only [V3.dot]; ring
  rw [hdp, ← hdl, ← hpl] at hm
  have sq : (erad * len d) ^ 2 < (len position * len sun * |β|) ^ 2 := by
    apply pow_lt_pow_left₀ hb (mul_nonneg hR.le (Real.sqrt_nonneg _)) (by norm_num)
  rw [mul_pow _ |β|, sq_abs] at sq
  have k1 : len d ^ 2 * (len position ^ 2 + 2 * t * position.dot d + t ^ 2 * len d ^ 2) ≤ len d ^ 2 * erad ^ 2 :=
    mul_le_mul_of_nonneg_left hm (sq_nonneg _)
  nlinarith [sq_nonneg (position.dot d + t * len d ^ 2)]

/-- Behind the Earth, opposite to the Sun, a satellite is in shadow. -/
example : isSunlit ⟨-7000000, 0, 0⟩ ⟨1.5e11, 0, 0⟩ = false := by
  have l1 : len ⟨-7000000, 0, 0⟩ = 7000000 := by
    unfold len; rw [show (V3.mk (-7000000) 0 0).dot ⟨-7000000, 0, 0⟩ = 7000000 ^ 2 by norm_num [V3.dot], Real.sqrt_sq (by norm_num)]
  have l2 : len ⟨1.5e11, 0, 0⟩ = 1.5e11 := by
    unfold len; rw [show (V3.mk 1.5e11 0 0).dot ⟨1.5e11, 0, 0⟩ = 1.5e11 ^ 2 by norm_num [V3.dot], Real.sqrt_sq (by norm_num)]
  have h := C125_sunlit (satellite := ⟨-7000000, 0, 0⟩) (sun := ⟨1.5e11, 0, 0⟩) (by rw [l1]; norm_num [erad])
    (by rw [l1, l2]; norm_num) (by intro h; have := congrArg V3.x h; norm_num at this)
  rw [← Bool.not_eq_true, h, not_not]
  refine ⟨7000000 / (1.5e11 + 7000000), by norm_num, by norm_num, ?_⟩
  rw [len_le_iff erad_pos.le]
  have : 0 < erad ^ 2 := pow_pos erad_pos 2
  norm_num [between, V3.dot]
  exact this.le

/-- Over the dawn meridian it is not: the beta angle is 90 degrees. -/
example : isSunlit ⟨0, 7000000, 0⟩ ⟨1.5e11, 0, 0⟩ = true := by
  have l1 : len ⟨0, 7000000, 0⟩ = 7000000 := by
    unfold len; rw [show (V3.mk 0 7000000 0).dot ⟨0, 7000000, 0⟩ = 7000000 ^ 2 by norm_num [V3.dot], Real.sqrt_sq (by norm_num)]
  have l2 : len ⟨1.5e11, 0, 0⟩ = 1.5e11 := by
    unfold len; rw [show (V3.mk 1.5e11 0 0).dot ⟨1.5e11, 0, 0⟩ = 1.5e11 ^ 2 by norm_num [V3.dot], Real.sqrt_sq (by norm_num)]
  have hx : (V3.mk 0 7000000 0).cross ⟨0, 0, 7500⟩ = ⟨52500000000, 0, 0⟩ := by ext <;> norm_num [V3.cross]
  have l3 : len ⟨52500000000, 0, 0⟩ = 52500000000 := by
    unfold len
    rw [show (V3.mk 52500000000 0 0).dot ⟨52500000000, 0, 0⟩ = 52500000000 ^ 2 by norm_num [V3.dot], Real.sqrt_sq (by norm_num)]
  have hne : (V3.mk 0 7000000 0).cross ⟨0, 0, 7500⟩ ≠ ⟨0, 0, 0⟩ := by
    rw [hx]; intro h; have := congrArg V3.x h; norm_num at this
  have hs : V3.mk 1.5e11 0 0 ≠ ⟨0, 0, 0⟩ := by intro h; have := congrArg V3.x h; norm_num at this
  have hb := (C124_height hne hs).2.2
  rw [hx, l3, l2] at hb
  have hβ : sinDeg (solarBeta ⟨0, 7000000, 0⟩ ⟨0, 0, 7500⟩ ⟨1.5e11, 0, 0⟩) = 1 := by
    norm_num [V3.dot] at hb ⊢
    linarith
  refine C125_beta (velocity := ⟨0, 0, 7500⟩) (by rw [l1]; norm_num [erad]) (by rw [l1, l2]; norm_num) hne ?_
  rw [hβ, l1, l2]
  have : len (sub ⟨1.5e11, 0, 0⟩ ⟨0, 7000000, 0⟩) ≤ 1.6e11 := by
    rw [len_le_iff (by norm_num)]; norm_num [sub, V3.dot]
  have := mul_le_mul_of_nonneg_left this erad_pos.le
  norm_num [erad] at this ⊢
  linarith

/-! ## C126: solar time -/

/-- C126: the column `solar_time` is the local solar time at the point, in hours from 0 to 24: noon when the Sun is on
the meridian of the point, and one hour later for every 15 degrees that the point has turned on. -/
theorem C126_solar_time (meridian sun : ℝ) :
    0 ≤ Solar.solarTime meridian sun ∧ Solar.solarTime meridian sun < 24 ∧
      Solar.solarTime meridian sun = 24 * Spec.solarTime sun meridian := by
  have e : Solar.solarTime meridian sun = 24 * Spec.solarTime sun meridian := by
    unfold Solar.solarTime hourAngle Spec.solarTime npMod
    rw [show 1 / 2 + (meridian - sun) / 360 = (meridian - sun + 180) / 360 by ring]
    unfold Int.fract
    ring
  have f0 := Int.fract_nonneg (1 / 2 + (meridian - sun) / 360)
  have f1 := Int.fract_lt_one (1 / 2 + (meridian - sun) / 360)
  refine ⟨?_, ?_, e⟩ <;> rw [e] <;> unfold Spec.solarTime <;> linarith

/-- C126: solar time passes at the rate at which the point turns away from the Sun, and starts again at midnight. -/
theorem C126_rate (meridian sun step : ℝ) :
    ∃ days : Int, Solar.solarTime (meridian + step) sun = Solar.solarTime meridian sun + step / 15 - 24 * days := by
  refine ⟨⌊(meridian + step - sun + 180) / 360⌋ - ⌊(meridian - sun + 180) / 360⌋, ?_⟩
  unfold Solar.solarTime hourAngle npMod
  push_cast
  ring

/-- C126: below the node of a sun-synchronous orbit, at the epoch of the orbit, the reported solar time is the requested
time of the equator crossing. -/
theorem C126_crossing (sun : Int → ℝ) (o : Tatc.Orbit.Sso) (h0 : 0 ≤ o.crossingDay) (h1 : o.crossingDay < 1) :
    Solar.solarTime (if o.ascending then o.raan sun else o.raan sun + 180) (sun o.epoch) = 24 * o.crossingDay := by
  rw [(C126_solar_time _ _).2.2, (C76_crossing_time sun o h0 h1).2]

/-- Three hours after noon. -/
example : Solar.solarTime 45 0 = 15 := by
  unfold Solar.solarTime hourAngle npMod
  have : ⌊((45 : ℝ) - 0 + 180) / 360⌋ = 0 := by rw [Int.floor_eq_iff]; norm_num
  rw [this]; norm_num

end Tatc.Props
