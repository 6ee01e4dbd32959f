import Verif.Props.Lattice
import Verif.Spec.Sphere

/-!
# C130, C131: points of the lattice are spread out
-/

namespace Tatc.Props
open Tatc.Num Tatc.Geometry Tatc.Generation Tatc.Spec
open scoped Classical

/-- Multiples of the golden section are far from integers: `|k g - m| ≥ 1 / (√5 k + 1/2)`. -/
theorem golden_far {k : Nat} (hk : 1 ≤ k) (m : ℤ) (h : |(k : ℝ) / golden - m| ≤ 1 / 2) :
    1 ≤ |(k : ℝ) / golden - m| * (Real.sqrt 5 * k + 1 / 2) := by
  have h5 : Real.sqrt 5 ^ 2 = 5 := Real.sq_sqrt (by norm_num)
  have h50 : 0 ≤ Real.sqrt 5 := Real.sqrt_nonneg 5
  have h52 : 2 < Real.sqrt 5 := by rw [Real.lt_sqrt (by norm_num)]; norm_num
  have hk' : (1 : ℝ) ≤ k := by exact_mod_cast hk
  have hg : (k : ℝ) / golden = k * ((Real.sqrt 5 - 1) / 2) := by
    unfold golden; rw [div_eq_iff (by positivity)]; nlinarith
  -- the norm of `m - k g`
  have hnorm : ((k : ℝ) / golden - m) * (k * ((Real.sqrt 5 + 1) / 2) + m) = ((k : ℤ) ^ 2 - k * m - m ^ 2 : ℤ) := by
    rw [hg]; push_cast; linear_combination (k : ℝ) ^ 2 / 4 * h5
  have hne : ((k : ℤ) ^ 2 - k * m - m ^ 2 : ℤ) ≠ 0 := by
    intro h0
    rw [h0] at hnorm
    -- then `5 k² = (2 m + k)²`
    have h4 : (5 : ℤ) * (k : ℤ) ^ 2 = (2 * m + k) ^ 2 := by linarith
    have h4' : 5 * (k : ℝ) ^ 2 = (2 * m + k) ^ 2 := by exact_mod_cast h4
    have hs : Real.sqrt 5 * k = |2 * (m : ℝ) + k| := by
      rw [← Real.sqrt_sq_eq_abs, ← h4', Real.sqrt_mul (by norm_num), Real.sqrt_sq (by positivity)]
    have hirr : Irrational (Real.sqrt 5) := by
      have := Nat.Prime.irrational_sqrt (show Nat.Prime 5 by norm_num)
      exact_mod_cast this
    apply hirr
    refine ⟨|2 * (m : ℚ) + k| / k, ?_⟩
    push_cast
    rw [← hs]
    field_simp
  have habs : (1 : ℝ) ≤ |((k : ℝ) / golden - m) * (k * ((Real.sqrt 5 + 1) / 2) + m)| := by
    rw [hnorm, ← Int.cast_abs]
    exact_mod_cast Int.one_le_abs hne
  rw [abs_mul] at habs
  refine habs.trans (mul_le_mul_of_nonneg_left ?_ (abs_nonneg _))
  have e : (k : ℝ) * ((Real.sqrt 5 + 1) / 2) + m = Real.sqrt 5 * k - ((k : ℝ) / golden - m) := by rw [hg]; ring
  rw [e]
  refine (abs_sub _ _).trans ?_
  rw [abs_of_nonneg (by positivity : 0 ≤ Real.sqrt 5 * k)]
  linarith

/-- The sine of a half difference of longitude is at least a constant over the difference of indices. -/
theorem golden_sine {k : Nat} (hk : 1 ≤ k) : 18 / 25 ≤ |Real.sin (Real.pi * ((k : ℝ) / golden))| * k := by
  have hk' : (1 : ℝ) ≤ k := by exact_mod_cast hk
  set m := round ((k : ℝ) / golden) with hm
  have h := abs_sub_round ((k : ℝ) / golden)
  rw [← hm] at h
  have hf := golden_far hk m h
  have h5 : Real.sqrt 5 ≤ 2.2361 := by rw [Real.sqrt_le_left (by norm_num)]; norm_num
  set x := (k : ℝ) / golden - m with hx
  have hsin : |Real.sin (Real.pi * ((k : ℝ) / golden))| = |Real.sin (Real.pi * x)| := by
    have : Real.pi * ((k : ℝ) / golden) = Real.pi * x + m * Real.pi := by rw [hx]; ring
    rw [this, Real.sin_add_int_mul_pi, abs_mul]
    rcases Int.even_or_odd m with he | ho
    · rw [he.neg_one_zpow]; norm_num
    · rw [ho.neg_one_zpow]; norm_num
  rw [hsin]
  have hpi := Real.pi_pos
  have hj : 2 * |x| ≤ |Real.sin (Real.pi * x)| := by
    have h1 := Real.mul_abs_le_abs_sin (x := Real.pi * x) (by rw [abs_mul, abs_of_pos hpi]; nlinarith)
    rw [abs_mul, abs_of_pos hpi] at h1
    have : 2 / Real.pi * (Real.pi * |x|) = 2 * |x| := by field_simp
    linarith
  have hx0 := abs_nonneg x
  have : 1 ≤ |x| * (2.7361 * k) := by
    refine hf.trans (mul_le_mul_of_nonneg_left ?_ hx0)
    nlinarith
  nlinarith

theorem sinDeg_fib {i n : Nat} (h : i < n) : sinDeg (fibLatitude i n) = 2 * ((i : ℝ) + 1) / ((n : ℝ) + 2) - 1 := by
  obtain ⟨h1, h2⟩ := fibLat_arg h
  have hpi := Real.pi_pos
  have : fibLatitude i n * Real.pi / 180 = Real.arcsin (2 * ((i : ℝ) + 1) / ((n : ℝ) + 2) - 1) := by
    unfold fibLatitude degrees; field_simp
  unfold sinDeg
  rw [this, Real.sin_arcsin h1.le h2.le]

/-- The inequality behind `separation`, in units in which the surface has area `N`. -/
theorem separation_scaled {a b s k : ℝ} (ha0 : 0 < a) (hb0 : 0 ≤ b) (ha1 : a < 23 / 20)
    (hab : a * (a + 2 * b) = 4 * k ^ 2) (hsk : (18 / 25) ^ 2 ≤ s ^ 2 * k ^ 2) (hk2 : 1 ≤ k ^ 2) :
    23 / 20 ≤ a + 2 * b * s ^ 2 := by
  set q := k ^ 2 with hq
  set t := s ^ 2 with ht
  by_contra hlt
  push Not at hlt
  have h2 : 2 * b * (18 / 25) ^ 2 ≤ 2 * b * (t * q) := mul_le_mul_of_nonneg_left hsk (by positivity)
  have h2' : (a + 2 * b * t) * q < 23 / 20 * q := mul_lt_mul_of_pos_right hlt (by linarith)
  have h3 : a * q + 2 * b * (18 / 25) ^ 2 < 23 / 20 * q := by linarith
  have h4 : (a * q + 2 * b * (18 / 25) ^ 2) * a < 23 / 20 * q * a := mul_lt_mul_of_pos_right h3 ha0
  have h4' : q * (a ^ 2 + 4 * (18 / 25) ^ 2 - 23 / 20 * a) < a ^ 2 * (18 / 25) ^ 2 := by
    have : 2 * b * a = 4 * q - a ^ 2 := by linarith
    have e : (a * q + 2 * b * (18 / 25) ^ 2) * a = a ^ 2 * q + (4 * q - a ^ 2) * (18 / 25) ^ 2 := by rw [← this]; ring
    rw [e] at h4
    linarith
  have h6 : 0 ≤ a ^ 2 + 4 * (18 / 25) ^ 2 - 23 / 20 * a := by linarith [sq_nonneg (a - 23 / 40)]
  have h7 := mul_le_mul_of_nonneg_right hk2 h6
  have h8 : 0 < (23 / 20 - a) := by linarith
  linarith [mul_pos h8 ha0, sq_nonneg (a - 23 / 40), sq_nonneg (a - 23 / 20), mul_pos h8 h8]

/-- From the heights `z`, `w` above the plane of the equator of two points of the unit sphere and the sine `s` of half
their difference of longitude: with `|z - w| = 2 k / N` and `s k ≥ 18/25` the points are not close. -/
theorem separation {z w cz cw s N k : ℝ} (hz : z ^ 2 + cz ^ 2 = 1) (hw : w ^ 2 + cw ^ 2 = 1) (h0 : 0 ≤ cz) (h1 : 0 ≤ cw)
    (hN : 0 < N) (hk : 1 ≤ k) (hd : (z - w) ^ 2 = (2 * k / N) ^ 2) (hs : 18 / 25 ≤ s * k) :
    23 / 20 / N ≤ 1 - (z * w + cz * cw * (1 - 2 * s ^ 2)) := by
  set B := cz * cw with hB
  set A := 1 - z * w - B with hA
  have hB0 : 0 ≤ B := mul_nonneg h0 h1
  have hBs : B ^ 2 = (1 - z ^ 2) * (1 - w ^ 2) := by rw [hB, mul_pow]; rw [show cz ^ 2 = 1 - z ^ 2 by linarith, show cw ^ 2 = 1 - w ^ 2 by linarith]
  have hAB : A * (A + 2 * B) = (2 * k / N) ^ 2 := by
    rw [← hd, hA]; linear_combination -hBs
  have hA0 : 0 ≤ A := by
    have : (z * w + B) ≤ 1 := by nlinarith [sq_nonneg (z - w), sq_nonneg (cz - cw)]
    linarith
  have hgoal : 1 - (z * w + B * (1 - 2 * s ^ 2)) = A + 2 * B * s ^ 2 := by rw [hA]; ring
  rw [hgoal]
  by_contra hlt
  push Not at hlt
  have hs0 : 0 ≤ 2 * B * s ^ 2 := by positivity
  have hAlt : A < 23 / 20 / N := by linarith
  have hApos : 0 < A := by
    rcases eq_or_lt_of_le hA0 with h | h
    · rw [← h, zero_mul] at hAB
      have : 0 < (2 * k / N) ^ 2 := by positivity
      linarith
    · exact h
  -- `s² k² ≥ (18/25)²`
  have hsk : (18 / 25) ^ 2 ≤ s ^ 2 * k ^ 2 := by
    rw [← mul_pow]; exact pow_le_pow_left₀ (by norm_num) hs 2
  set a := A * N with ha
  set b := B * N with hb
  have ha0 : 0 < a := by positivity
  have hb0 : 0 ≤ b := by positivity
  have ha1 : a < 23 / 20 := by rw [lt_div_iff₀ hN] at hAlt; exact hAlt
  have hab : a * (a + 2 * b) = 4 * k ^ 2 := by
    have : a * (a + 2 * b) = A * (A + 2 * B) * N ^ 2 := by rw [ha, hb]; ring
    rw [this, hAB]; field_simp; ring
  have hlt' : a + 2 * b * s ^ 2 < 23 / 20 := by
    rw [lt_div_iff₀ hN] at hlt
    have : a + 2 * b * s ^ 2 = (A + 2 * B * s ^ 2) * N := by rw [ha, hb]; ring
    linarith
  have hk2 : 1 ≤ k ^ 2 := by nlinarith
  clear_value a b
  clear hd hAB hlt hAlt hApos hA0 hgoal hs0 hBs hB0 hs hz hw
  exact absurd hlt' (not_lt.mpr (separation_scaled ha0 hb0 ha1 hab hsk hk2))


/-- The cosine of the angle at the centre between two points of the lattice of `n` points, whatever whole turns are
added to their longitudes. -/
theorem lattice_cosine {i j n : Nat} (hi : i < n) (hj : j < n) (hij : i ≠ j) {x y : ℝ}
    (hx : SameAngle x (fibLongitude i)) (hy : SameAngle y (fibLongitude j)) :
    23 / 20 / ((n : ℝ) + 2) ≤ 1 - Real.cos (centralAngle (x, fibLatitude i n) (y, fibLatitude j n)) := by
  wlog hlt : j < i generalizing i j x y
  · have := this hj hi hij.symm hy hx (by omega)
    have e : centralAngle (y, fibLatitude j n) (x, fibLatitude i n) = centralAngle (x, fibLatitude i n) (y, fibLatitude j n) := by
      unfold centralAngle
      congr 1
      have : Real.cos ((y - x) * Real.pi / 180) = Real.cos ((x - y) * Real.pi / 180) := by
        rw [← Real.cos_neg]; congr 1; ring
      rw [this]; ring
    rwa [e] at this
  obtain ⟨k, rfl⟩ : ∃ k, i = j + k := ⟨i - j, by omega⟩
  have hk : 1 ≤ k := by omega
  have hk' : (1 : ℝ) ≤ k := by exact_mod_cast hk
  have hN : (0 : ℝ) < (n : ℝ) + 2 := by positivity
  obtain ⟨-, -, l1⟩ := fibLon_spec (j + k)
  obtain ⟨-, -, l2⟩ := fibLon_spec j
  obtain ⟨a1, a2⟩ := fibLat_range hi
  obtain ⟨b1, b2⟩ := fibLat_range hj
  have hpi := Real.pi_pos
  have cpos : ∀ t : ℝ, -90 < t → t < 90 → 0 ≤ Real.cos (t * Real.pi / 180) := by
    intro t h1 h2
    apply Real.cos_nonneg_of_mem_Icc
    constructor <;> nlinarith
  -- the difference of longitude
  have hcos : Real.cos ((x - y) * Real.pi / 180) = 1 - 2 * |Real.sin (Real.pi * ((k : ℝ) / golden))| ^ 2 := by
    obtain ⟨p, hp⟩ := hx; obtain ⟨q, hq⟩ := hy; obtain ⟨r, hr⟩ := l1; obtain ⟨s, hs⟩ := l2
    have : (x - y) * Real.pi / 180 = 2 * (Real.pi * ((k : ℝ) / golden)) + (p + r - q - s : ℤ) * (2 * Real.pi) := by
      rw [hp, hq, hr, hs]; push_cast; ring
    rw [this, Real.cos_add_int_mul_two_pi, sq_abs, Real.cos_two_mul]
    linear_combination 2 * Real.sin_sq_add_cos_sq (Real.pi * ((k : ℝ) / golden))
  have hz := sinDeg_fib hi
  have hw := sinDeg_fib hj
  unfold sinDeg at hz hw
  set c := Real.sin (fibLatitude (j + k) n * Real.pi / 180) * Real.sin (fibLatitude j n * Real.pi / 180) +
    Real.cos (fibLatitude (j + k) n * Real.pi / 180) * Real.cos (fibLatitude j n * Real.pi / 180) * Real.cos ((x - y) * Real.pi / 180) with hc
  have hce : Real.cos (centralAngle (x, fibLatitude (j + k) n) (y, fibLatitude j n)) = c := by
    have hA := Real.sin_sq_add_cos_sq (fibLatitude (j + k) n * Real.pi / 180)
    have hB := Real.sin_sq_add_cos_sq (fibLatitude j n * Real.pi / 180)
    have ca := cpos _ a1 a2
    have cb := cpos _ b1 b2
    have hl := Real.neg_one_le_cos ((x - y) * Real.pi / 180)
    have hu := Real.cos_le_one ((x - y) * Real.pi / 180)
    have hcc := mul_nonneg ca cb
    unfold centralAngle
    apply Real.cos_arccos
    · rw [← hc] at *
      have := mul_le_mul_of_nonneg_left hl hcc
      nlinarith [sq_nonneg (Real.sin (fibLatitude (j + k) n * Real.pi / 180) + Real.sin (fibLatitude j n * Real.pi / 180)),
        sq_nonneg (Real.cos (fibLatitude (j + k) n * Real.pi / 180) - Real.cos (fibLatitude j n * Real.pi / 180))]
    · have := mul_le_mul_of_nonneg_left hu hcc
      nlinarith [sq_nonneg (Real.sin (fibLatitude (j + k) n * Real.pi / 180) - Real.sin (fibLatitude j n * Real.pi / 180)),
        sq_nonneg (Real.cos (fibLatitude (j + k) n * Real.pi / 180) - Real.cos (fibLatitude j n * Real.pi / 180))]
  rw [hce, hc, hcos]
  refine separation (k := k) (Real.sin_sq_add_cos_sq _) (Real.sin_sq_add_cos_sq _) (cpos _ a1 a2) (cpos _ b1 b2) hN hk' ?_
    (golden_sine hk)
  rw [hz, hw]
  push_cast
  field_simp
  ring

/-- C130: no two points of a lattice, clipped to any mask or not, are closer along the surface of the Earth than a
third of the distance that is asked for (up to one radius of the Earth). -/
theorem C130_separation (clip : Clip) (distance elevation : ℝ) (mask : Option Mask) (pts : List PointRow)
    (h0 : 0 < distance) (h1 : distance ≤ meanRadius)
    (h : fibonacciPoints clip distance elevation mask = .ok pts) :
    pts.Pairwise fun a b => distance / 3 ≤ meanRadius * centralAngle (a.lon, a.lat) (b.lon, b.lat) := by
  have hR := meanRadius_gt
  have hpi := Real.pi_gt_three
  obtain ⟨n, hn, hcap, -⟩ := C44_area distance h0 (by nlinarith)
  -- the angle of a distance
  have key : ∀ i j : Nat, i < n → j < n → i ≠ j → ∀ x y, SameAngle x (fibLongitude i) → SameAngle y (fibLongitude j) →
      distance / 3 ≤ meanRadius * centralAngle (x, fibLatitude i n) (y, fibLatitude j n) := by
    intro i j hi hj hij x y hx hy
    have hcos := lattice_cosine hi hj hij hx hy
    set g := centralAngle (x, fibLatitude i n) (y, fibLatitude j n) with hg
    have hg0 : 0 ≤ g := Real.arccos_nonneg _
    have hR0 : 0 < meanRadius := by linarith
    set u := distance / 2 / meanRadius with hu
    have hu0 : 0 < u := by positivity
    have hu1 : u ≤ 1 / 2 := by rw [hu, div_div, div_le_iff₀ (by positivity)]; linarith
    -- `n (1 - cos u) < 2`
    have hcnt : (n : ℝ) * (1 - Real.cos u) < 2 := by
      have := lt_of_le_of_lt hcap surface_upper
      unfold capArea at this
      rw [← hu] at this
      have h2 : 2 * Real.pi * meanRadius ^ 2 * (n * (1 - Real.cos u)) < 2 * Real.pi * meanRadius ^ 2 * 2 := by linarith
      exact lt_of_mul_lt_mul_left h2 (by positivity)
    have hlow : 486 / 1000 * u ^ 2 ≤ 1 - Real.cos u := by
      have := Real.cos_bound (x := u) (by rw [abs_of_pos hu0]; linarith)
      rw [abs_of_pos hu0] at this
      have h4 := (abs_le.mp this).2
      have h5 : u ^ 2 ≤ 1 / 4 := by nlinarith
      have h6 : u ^ 4 ≤ 1 / 4 * u ^ 2 := by
        have : u ^ 4 = u ^ 2 * u ^ 2 := by ring
        rw [this]; exact mul_le_mul_of_nonneg_right h5 (by positivity)
      linarith [sq_nonneg u]
    have hup : 1 - Real.cos u ≤ 1 / 8 := by
      have := Real.one_sub_sq_div_two_le_cos (x := u)
      nlinarith
    have hgu : 1 - Real.cos g ≤ g ^ 2 / 2 := by have := Real.one_sub_sq_div_two_le_cos (x := g); linarith
    have hN : (0 : ℝ) < (n : ℝ) + 2 := by positivity
    rw [div_le_iff₀ hN] at hcos
    have hv : (1 - Real.cos u) * (23 / 20) ≤ (1 - Real.cos g) * (9 / 4) := by
      have h2 : ((n : ℝ) + 2) * (1 - Real.cos u) ≤ 9 / 4 := by linarith
      have h3 : ((n : ℝ) + 2) * ((1 - Real.cos u) * (23 / 20)) ≤ ((n : ℝ) + 2) * ((1 - Real.cos g) * (9 / 4)) := by linarith
      exact le_of_mul_le_mul_left h3 hN
    have hfin : (2 / 3 * u) ^ 2 ≤ g ^ 2 := by
      have : 0 ≤ u ^ 2 := sq_nonneg u
      rw [mul_pow]; linarith
    have hroot : 2 / 3 * u ≤ g := (pow_le_pow_iff_left₀ (by positivity) hg0 two_ne_zero).mp hfin
    have hd : distance / 3 = meanRadius * (2 / 3 * u) := by rw [hu]; field_simp
    rw [hd]
    exact mul_le_mul_of_nonneg_left hroot hR0.le
  cases mask with
  | none =>
    rw [fibonacci_none clip distance elevation n hn] at h
    obtain rfl := Except.ok.inj h
    rw [List.pairwise_map]
    refine List.Pairwise.imp_of_mem ?_ (List.pairwise_lt_range (n := n))
    intro a b ha hb hab
    exact key a b (List.mem_range.mp ha) (List.mem_range.mp hb) hab.ne _ _ ⟨0, by simp⟩ ⟨0, by simp⟩
  | some m =>
    have hv : m.valid = true := by
      by_contra hv
      unfold fibonacciPoints at h
      simp [hn, getBounds, hv, bind, Except.bind] at h
    rw [fibonacci_some clip distance elevation n hn m hv] at h
    obtain rfl := Except.ok.inj h
    refine (List.Perm.pairwise_iff ?_ (clip.perm m _)).mpr ?_
    · intro a b hab
      unfold centralAngle at hab ⊢
      have : Real.cos ((b.lon - a.lon) * Real.pi / 180) = Real.cos ((a.lon - b.lon) * Real.pi / 180) := by
        rw [← Real.cos_neg]; congr 1; ring
      simp only at hab ⊢
      rw [this, mul_comm (Real.sin (b.lat * Real.pi / 180)), mul_comm (Real.cos (b.lat * Real.pi / 180))]
      exact hab
    · apply List.Pairwise.filter
      rw [List.pairwise_map]
      apply List.Pairwise.filter
      refine List.Pairwise.imp_of_mem ?_ (List.pairwise_lt_range (n := n))
      intro a b ha hb hab
      exact key a b (List.mem_range.mp ha) (List.mem_range.mp hb) hab.ne _ _ (shifted_sameAngle _ a) (shifted_sameAngle _ b)

theorem count_between (n lo hi : Nat) :
    ((List.range n).filter fun i => decide (lo ≤ i ∧ i < hi)).length = min hi n - lo := by
  induction n with
  | zero => simp
  | succ n ih =>
    rw [List.range_succ, List.filter_append, List.length_append, ih]
    by_cases h : lo ≤ n ∧ n < hi
    · simp [h]; omega
    · simp [h]; omega

/-- C131: between two parallels there are as many points as the zone has of the area of the sphere (half the difference
of the sines of the latitudes), to within three. -/
theorem C131_bands (clip : Clip) (distance elevation south north : ℝ) (n : Nat) (hn : numberSamples distance = .ok n)
    (h1 : -90 ≤ south) (h2 : south ≤ north) (h3 : north ≤ 90) :
    ∃ pts, fibonacciPoints clip distance elevation none = .ok pts ∧ pts.length = n ∧
      |((pts.filter fun p => decide (south ≤ p.lat ∧ p.lat ≤ north)).length : ℝ) -
        n * ((sinDeg north - sinDeg south) / 2)| ≤ 3 := by
  refine ⟨_, fibonacci_none clip distance elevation n hn, by simp, ?_⟩
  have hpi := Real.pi_pos
  have hN : (0 : ℝ) < (n : ℝ) + 2 := by positivity
  set N := (n : ℝ) + 2 with hNd
  -- the sine is increasing
  have smono : ∀ x y : ℝ, -90 ≤ x → x ≤ 90 → -90 ≤ y → y ≤ 90 → (x ≤ y ↔ sinDeg x ≤ sinDeg y) := by
    intro x y x1 x2 y1 y2
    unfold sinDeg
    rw [Real.strictMonoOn_sin.le_iff_le (by constructor <;> nlinarith) (by constructor <;> nlinarith)]
    constructor <;> intro h <;> nlinarith
  set A := N * (sinDeg south + 1) / 2 with hA
  set B := N * (sinDeg north + 1) / 2 with hB
  have hAB : A ≤ B := by
    have := (smono south north h1 (by linarith) (by linarith) h3).mp h2
    rw [hA, hB]; apply div_le_div_of_nonneg_right _ (by norm_num)
    exact mul_le_mul_of_nonneg_left (by linarith) hN.le
  have hs1 : -1 ≤ sinDeg south := Real.neg_one_le_sin _
  have hs2 : sinDeg north ≤ 1 := Real.sin_le_one _
  have hA0 : 0 ≤ A := by apply div_nonneg _ (by norm_num); exact mul_nonneg hN.le (by linarith)
  have hBN : B ≤ N := by rw [hB, div_le_iff₀ (by norm_num)]; nlinarith
  have hlen : ((List.map (fun (i : Nat) => (⟨i, fibLongitude i, fibLatitude i n, elevation⟩ : PointRow)) (List.range n)).filter
      fun p => decide (south ≤ p.lat ∧ p.lat ≤ north)).length = min ⌊B⌋₊ n - (⌈A⌉₊ - 1) := by
    rw [List.filter_map, List.length_map, ← count_between]
    congr 1
    apply List.filter_congr
    intro i hi
    have hi' := List.mem_range.mp hi
    obtain ⟨l1, l2⟩ := fibLat_range hi'
    simp only [Function.comp, decide_eq_decide]
    rw [smono south _ h1 (by linarith) l1.le l2.le, smono _ north l1.le l2.le (by linarith) h3, sinDeg_fib hi', ← hNd]
    have e : (2 * ((i : ℝ) + 1) / N - 1) = 2 * (((i + 1 : ℕ) : ℝ)) / N - 1 := by push_cast; ring
    rw [e]
    have p1 : sinDeg south ≤ 2 * ((i + 1 : ℕ) : ℝ) / N - 1 ↔ ⌈A⌉₊ - 1 ≤ i := by
      rw [show (⌈A⌉₊ - 1 ≤ i ↔ ⌈A⌉₊ ≤ i + 1) by omega, Nat.ceil_le, hA, div_le_iff₀ (by norm_num), le_sub_iff_add_le,
        le_div_iff₀ hN]
      constructor <;> intro h <;> linarith
    have p2 : 2 * ((i + 1 : ℕ) : ℝ) / N - 1 ≤ sinDeg north ↔ i < ⌊B⌋₊ := by
      rw [← Nat.succ_le_iff, Nat.le_floor_iff (by linarith), hB, le_div_iff₀ (by norm_num), sub_le_iff_le_add, div_le_iff₀ hN]
      constructor <;> intro h <;> (push_cast at h ⊢; linarith)
    rw [p1, p2]
  rw [hlen]
  have hexp : (n : ℝ) * ((sinDeg north - sinDeg south) / 2) = (B - A) - 2 * ((B - A) / N) := by
    rw [hA, hB, hNd]; field_simp; ring
  rw [hexp]
  have hr0 : 0 ≤ (B - A) / N := div_nonneg (by linarith) hN.le
  have hr1 : (B - A) / N ≤ 1 := by rw [div_le_one hN]; linarith
  have f1 := Nat.floor_le (by linarith : 0 ≤ B)
  have f2 := Nat.lt_floor_add_one B
  have c1 := Nat.le_ceil A
  have c2 := Nat.ceil_lt_add_one hA0
  have hcard : ((min ⌊B⌋₊ n - (⌈A⌉₊ - 1) : ℕ) : ℝ) ≤ (B - A) + 1 := by
    by_cases hle : ⌈A⌉₊ - 1 ≤ min ⌊B⌋₊ n
    · rw [Nat.cast_sub hle]
      have m1 : ((min ⌊B⌋₊ n : ℕ) : ℝ) ≤ ⌊B⌋₊ := by exact_mod_cast min_le_left _ _
      have m2 : ((⌈A⌉₊ : ℕ) : ℝ) - 1 ≤ ((⌈A⌉₊ - 1 : ℕ) : ℝ) := by
        have : ⌈A⌉₊ ≤ (⌈A⌉₊ - 1) + 1 := by omega
        have : (⌈A⌉₊ : ℝ) ≤ ((⌈A⌉₊ - 1 : ℕ) : ℝ) + 1 := by exact_mod_cast this
        linarith
      linarith
    · rw [Nat.sub_eq_zero_of_le (by omega)]; push_cast; linarith
  have hcard2 : (B - A) - 3 ≤ ((min ⌊B⌋₊ n - (⌈A⌉₊ - 1) : ℕ) : ℝ) := by
    have key : min ⌊B⌋₊ n ≤ (min ⌊B⌋₊ n - (⌈A⌉₊ - 1)) + (⌈A⌉₊ - 1) := by omega
    have key' : ((min ⌊B⌋₊ n : ℕ) : ℝ) ≤ ((min ⌊B⌋₊ n - (⌈A⌉₊ - 1) : ℕ) : ℝ) + ((⌈A⌉₊ - 1 : ℕ) : ℝ) := by exact_mod_cast key
    have m2 : ((⌈A⌉₊ - 1 : ℕ) : ℝ) ≤ A := by
      rcases Nat.eq_zero_or_pos ⌈A⌉₊ with h | h
      · rw [h]; simpa using hA0
      · rw [Nat.cast_sub h]; push_cast; linarith
    have m1 : B - 3 ≤ ((min ⌊B⌋₊ n : ℕ) : ℝ) := by
      rcases min_cases ⌊B⌋₊ n with ⟨h, -⟩ | ⟨h, -⟩ <;> rw [h] <;> linarith
    linarith
  rw [abs_le]
  constructor <;> linarith

/-- The hypotheses are met: points a thousand kilometres apart. -/
example (clip : Clip) : ∃ pts, fibonacciPoints clip 1000000 0 none = .ok pts ∧ 100 < pts.length ∧
    pts.Pairwise fun a b => 1000000 / 3 ≤ meanRadius * centralAngle (a.lon, a.lat) (b.lon, b.lat) := by
  have hR := meanRadius_gt
  have hpi := Real.pi_gt_three
  obtain ⟨n, hn, -, hcap⟩ := C44_area 1000000 (by norm_num) (by nlinarith)
  refine ⟨_, fibonacci_none clip _ _ n hn, ?_, ?_⟩
  · have h2 := lt_of_le_of_lt surface_lower hcap
    unfold capArea at h2
    have h3 : 1 - Real.cos (1000000 / 2 / meanRadius) ≤ (1 / 12) ^ 2 / 2 := by
      have := Real.one_sub_sq_div_two_le_cos (x := 1000000 / 2 / meanRadius)
      have h4 : (1000000 / 2 / meanRadius : ℝ) ≤ 1 / 12 := by rw [div_div, div_le_iff₀ (by linarith)]; linarith
      have h5 : (1000000 / 2 / meanRadius : ℝ) ^ 2 ≤ (1 / 12) ^ 2 := pow_le_pow_left₀ (by positivity) h4 2
      linarith
    have hle := meanRadius_le
    have h6 : 2 * Real.pi * meanRadius ^ 2 * 1 < 2 * Real.pi * meanRadius ^ 2 * ((n + 1) * ((1 / 12) ^ 2 / 2)) := by
      have a1 : 2 * Real.pi * meanRadius ^ 2 ≤ 2 * Real.pi * equatorialRadius ^ 2 :=
        mul_le_mul_of_nonneg_left (pow_le_pow_left₀ (by linarith) hle 2) (by positivity)
      have a2 : 2 * Real.pi * meanRadius ^ 2 * (((n : ℝ) + 1) * (1 - Real.cos (1000000 / 2 / meanRadius))) ≤
          2 * Real.pi * meanRadius ^ 2 * ((n + 1) * ((1 / 12) ^ 2 / 2)) :=
        mul_le_mul_of_nonneg_left (mul_le_mul_of_nonneg_left h3 (by positivity)) (by positivity)
      linarith
    have h7 := lt_of_mul_lt_mul_left h6 (by positivity)
    simp only [List.length_map, List.length_range]
    have : (100 : ℝ) < n := by linarith
    exact_mod_cast this
  · exact C130_separation clip 1000000 0 none _ (by norm_num) (by linarith) (fibonacci_none clip _ _ n hn)

end Tatc.Props
