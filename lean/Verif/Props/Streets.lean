import Verif.Spec.Streets
import Verif.Props.Soc

/-!
# C133: streets of coverage
-/

namespace Tatc.Props
open Tatc.Num Tatc.Geometry Tatc.Spec Tatc.Orbit Tatc.Constellation
open scoped Classical

/-- One of the equal parts of a full turn is near any angle (degrees). -/
theorem nearest_part {n : Nat} (hn : 1 ≤ n) (x : ℝ) : ∃ k < n, ∃ l : ℤ, |x - (k * (360 / n) + 360 * l)| ≤ 180 / n := by
  have hn' : (0 : ℝ) < n := by exact_mod_cast hn
  set r := round (x * n / 360) with hr
  have h := abs_sub_round (x * n / 360)
  rw [← hr] at h
  have hnz : (n : ℤ) ≠ 0 := by omega
  refine ⟨(r % n).toNat, ?_, r / n, ?_⟩
  · have := Int.emod_lt_of_pos r (by omega : (0 : ℤ) < n)
    have := Int.emod_nonneg r hnz
    omega
  · have h1 : (((r % n).toNat : ℕ) : ℝ) = ((r % n : ℤ) : ℝ) := by
      have := Int.toNat_of_nonneg (Int.emod_nonneg r hnz)
      exact_mod_cast congrArg (Int.cast (R := ℝ)) this
    have h2 : (r : ℝ) = n * ((r / n : ℤ) : ℝ) + ((r % n : ℤ) : ℝ) := by exact_mod_cast (Int.mul_ediv_add_emod r n).symm
    have e : x - ((((r % n).toNat : ℕ) : ℝ) * (360 / n) + 360 * ((r / n : ℤ) : ℝ)) = (x * n / 360 - r) * (360 / n) := by
      rw [h1, h2]; field_simp; ring
    rw [e, abs_mul, abs_of_pos (by positivity : (0 : ℝ) < 360 / n)]
    have := mul_le_mul_of_nonneg_right h (by positivity : (0 : ℝ) ≤ 360 / n)
    calc _ ≤ 1 / 2 * (360 / (n : ℝ)) := this
      _ = 180 / n := by ring

theorem cosDeg_periodic (x : ℝ) (l : ℤ) : cosDeg (x + 360 * l) = cosDeg x := by
  unfold cosDeg
  rw [show (x + 360 * l) * Real.pi / 180 = x * Real.pi / 180 + l * (2 * Real.pi) by ring, Real.cos_add_int_mul_two_pi]

theorem sinDeg_periodic (x : ℝ) (l : ℤ) : sinDeg (x + 360 * l) = sinDeg x := by
  unfold sinDeg
  rw [show (x + 360 * l) * Real.pi / 180 = x * Real.pi / 180 + l * (2 * Real.pi) by ring, Real.sin_add_int_mul_two_pi]

/-- Whole turns do not matter. -/
theorem perigeeDirection_turns (i r u : ℝ) (k l : ℤ) :
    perigeeDirection i (r + 360 * k) (u + 360 * l) = perigeeDirection i r u := by
  unfold perigeeDirection
  simp only [cosDeg_periodic, sinDeg_periodic]

/-- The part of a place across an orbit plane. -/
noncomputable def across (i r a lat : ℝ) : ℝ := (normal i r).dot (placeAt a lat)

theorem across_eq (i r a lat : ℝ) : across i r a lat = sinDeg i * cosDeg lat * sinDeg (r - a) + cosDeg i * sinDeg lat := by
  unfold across normal placeAt V3.dot sinDeg cosDeg
  rw [show (r - a) * Real.pi / 180 = r * Real.pi / 180 - a * Real.pi / 180 by ring, Real.sin_sub]
  ring

theorem sq_deg (x : ℝ) : sinDeg x ^ 2 + cosDeg x ^ 2 = 1 := Real.sin_sq_add_cos_sq _

/-- In the plane, a place is in some direction: a satellite at the angle `u` sees it at an angle whose cosine is the product. -/
theorem along (i r a lat : ℝ) : ∃ v, ∀ u, (perigeeDirection i r u).dot (placeAt a lat) =
    Real.sqrt (1 - across i r a lat ^ 2) * cosDeg (u - v) := by
  set X := cosDeg lat * cosDeg (r - a) with hX
  set Y := -(cosDeg lat * sinDeg (r - a) * cosDeg i) + sinDeg lat * sinDeg i with hY
  have hdot : ∀ u, (perigeeDirection i r u).dot (placeAt a lat) = X * cosDeg u + Y * sinDeg u := by
    intro u
    rw [hX, hY]
    unfold perigeeDirection placeAt V3.dot
    have c : cosDeg (r - a) = cosDeg r * cosDeg a + sinDeg r * sinDeg a := by
      unfold cosDeg sinDeg
      rw [show (r - a) * Real.pi / 180 = r * Real.pi / 180 - a * Real.pi / 180 by ring, Real.cos_sub]
    have s : sinDeg (r - a) = sinDeg r * cosDeg a - cosDeg r * sinDeg a := by
      unfold cosDeg sinDeg
      rw [show (r - a) * Real.pi / 180 = r * Real.pi / 180 - a * Real.pi / 180 by ring, Real.sin_sub]
    rw [c, s]
    ring
  have hsq : X ^ 2 + Y ^ 2 = 1 - across i r a lat ^ 2 := by
    rw [across_eq, hX, hY]
    have h1 := sq_deg i
    have h2 := sq_deg lat
    have h3 := sq_deg (r - a)
    generalize sinDeg i = si at *
    generalize cosDeg i = ci at *
    generalize sinDeg lat = sl at *
    generalize cosDeg lat = cl at *
    generalize sinDeg (r - a) = sr at *
    generalize cosDeg (r - a) = cr at *
    linear_combination (cl ^ 2 * sr ^ 2 + sl ^ 2) * h1 + h2 + cl ^ 2 * h3
  -- polar coordinates
  refine ⟨(Complex.arg ⟨X, Y⟩) * (180 / Real.pi), fun u => ?_⟩
  rw [hdot, ← hsq]
  have hn : Real.sqrt (X ^ 2 + Y ^ 2) = ‖(⟨X, Y⟩ : ℂ)‖ := by
    rw [Complex.norm_eq_sqrt_sq_add_sq]
  have h1 := Complex.norm_mul_cos_arg (⟨X, Y⟩ : ℂ)
  have h2 := Complex.norm_mul_sin_arg (⟨X, Y⟩ : ℂ)
  simp only at h1 h2
  rw [hn]
  have hpi := Real.pi_pos
  have e : cosDeg (u - Complex.arg ⟨X, Y⟩ * (180 / Real.pi)) = cosDeg u * Real.cos (Complex.arg ⟨X, Y⟩) +
      sinDeg u * Real.sin (Complex.arg ⟨X, Y⟩) := by
    unfold cosDeg sinDeg
    rw [show (u - Complex.arg ⟨X, Y⟩ * (180 / Real.pi)) * Real.pi / 180 = u * Real.pi / 180 - Complex.arg ⟨X, Y⟩ by
      field_simp, Real.cos_sub]
  rw [e]
  linear_combination -(cosDeg u * h1) - sinDeg u * h2

/-- Where the latitude does not exceed the inclination, some orbit plane goes through the place. -/
theorem plane_through {i lat : ℝ} (a : ℝ) (hc : 0 ≤ cosDeg lat) (hs : |sinDeg lat| ≤ sinDeg i) : ∃ r, across i r a lat = 0 := by
  have hsi : 0 ≤ sinDeg i := le_trans (abs_nonneg _) hs
  have h1 := sq_deg i
  have h2 := sq_deg lat
  have hle : |cosDeg i * sinDeg lat| ≤ sinDeg i * cosDeg lat := by
    apply abs_le_of_sq_le_sq _ (mul_nonneg hsi hc)
    have : sinDeg lat ^ 2 ≤ sinDeg i ^ 2 := by rw [← sq_abs (sinDeg lat)]; exact pow_le_pow_left₀ (abs_nonneg _) hs 2
    rw [mul_pow, mul_pow]
    nlinarith
  rcases eq_or_lt_of_le (mul_nonneg hsi hc) with h0 | h0
  · refine ⟨0, ?_⟩
    rw [← h0] at hle
    have : cosDeg i * sinDeg lat = 0 := abs_nonpos_iff.mp hle
    rw [across_eq, this, ← h0]; ring
  · set q := cosDeg i * sinDeg lat / (sinDeg i * cosDeg lat) with hq
    have hq1 : |q| ≤ 1 := by rw [hq, abs_div, abs_of_pos h0]; exact (div_le_one h0).mpr hle
    have hq2 := abs_le.mp hq1
    refine ⟨a - Real.arcsin q * (180 / Real.pi), ?_⟩
    rw [across_eq]
    have : sinDeg (a - Real.arcsin q * (180 / Real.pi) - a) = -q := by
      unfold sinDeg
      have hpi := Real.pi_pos
      rw [show (a - Real.arcsin q * (180 / Real.pi) - a) * Real.pi / 180 = -Real.arcsin q by field_simp; ring, Real.sin_neg,
        Real.sin_arcsin hq2.1 hq2.2]
    have hm : sinDeg i * cosDeg lat * q = cosDeg i * sinDeg lat := by rw [hq]; exact mul_div_cancel₀ _ h0.ne'
    rw [this]
    linarith

theorem cosDeg_ge {x d : ℝ} (hx : |x| ≤ d) (hd : d ≤ 180) : cosDeg d ≤ cosDeg x := by
  have hpi := Real.pi_pos
  unfold cosDeg
  rw [← Real.cos_abs (x * Real.pi / 180), abs_div, abs_mul, abs_of_pos hpi, abs_of_pos (by norm_num : (0 : ℝ) < 180)]
  apply Real.cos_le_cos_of_nonneg_of_le_pi
  · positivity
  · rw [div_le_iff₀ (by norm_num)]; nlinarith
  · apply div_le_div_of_nonneg_right _ (by norm_num); exact mul_le_mul_of_nonneg_right hx hpi.le

/-- Planes next to the one through the place are not far from it: no farther than the place is from where turning it with the
plane takes it. -/
theorem plane_near {i lat r r' : ℝ} (a d : ℝ) (hr : across i r a lat = 0) (hd0 : |r' - r| ≤ d) (hd1 : d ≤ 90) :
    across i r' a lat ^ 2 ≤ 1 - cosDeg d ^ 2 := by
  have hpi := Real.pi_pos
  have hd : 0 ≤ d := (abs_nonneg _).trans hd0
  -- the place turned with the plane
  have hy : across i r' (a + (r' - r)) lat = 0 := by
    rw [← hr, across_eq, across_eq, show r' - (a + (r' - r)) = r - a by ring]
  have hn : (normal i r').dot (normal i r') = 1 := by
    unfold normal V3.dot
    have h1 := sq_deg i
    have h2 := sq_deg r'
    simp only
    linear_combination h1 + sinDeg i ^ 2 * h2
  have hu : ∀ b, (placeAt b lat).dot (placeAt b lat) = 1 := by
    intro b
    unfold placeAt V3.dot
    have h1 := sq_deg lat
    have h2 := sq_deg b
    simp only
    linear_combination h1 + cosDeg lat ^ 2 * h2
  have hxy : (placeAt (a + (r' - r)) lat).dot (placeAt a lat) = cosDeg lat ^ 2 * cosDeg (r' - r) + sinDeg lat ^ 2 := by
    unfold placeAt V3.dot
    have : cosDeg (r' - r) = cosDeg (a + (r' - r)) * cosDeg a + sinDeg (a + (r' - r)) * sinDeg a := by
      unfold cosDeg sinDeg
      rw [← Real.cos_sub]; congr 1; ring
    rw [this]
    ring
  have hge : cosDeg d ≤ (placeAt (a + (r' - r)) lat).dot (placeAt a lat) := by
    rw [hxy]
    have h1 := sq_deg lat
    have h2 := cosDeg_ge hd0 (by linarith)
    have h3 : cosDeg (r' - r) ≤ 1 := Real.cos_le_one _
    nlinarith [sq_nonneg (sinDeg lat), sq_nonneg (cosDeg lat)]
  have hc0 : 0 ≤ cosDeg d := by
    unfold cosDeg
    apply Real.cos_nonneg_of_mem_Icc
    constructor <;> nlinarith
  -- the two directions are orthogonal
  have bessel : across i r' a lat ^ 2 + (placeAt (a + (r' - r)) lat).dot (placeAt a lat) ^ 2 ≤ 1 := by
    have h1 := hu a
    have h2 := hu (a + (r' - r))
    unfold across at hy ⊢
    generalize normal i r' = n at *
    generalize placeAt (a + (r' - r)) lat = y at *
    generalize placeAt a lat = x at *
    obtain ⟨n1, n2, n3⟩ := n
    obtain ⟨y1, y2, y3⟩ := y
    obtain ⟨x1, x2, x3⟩ := x
    simp only [V3.dot] at *
    set α := n1 * x1 + n2 * x2 + n3 * x3 with hα
    set β := y1 * x1 + y2 * x2 + y3 * x3 with hβ
    have hsq : 0 ≤ (x1 - α * n1 - β * y1) ^ 2 + (x2 - α * n2 - β * y2) ^ 2 + (x3 - α * n3 - β * y3) ^ 2 := by positivity
    have e : (x1 - α * n1 - β * y1) ^ 2 + (x2 - α * n2 - β * y2) ^ 2 + (x3 - α * n3 - β * y3) ^ 2 = 1 - α ^ 2 - β ^ 2 := by
      linear_combination h1 + α ^ 2 * hn + β ^ 2 * h2 + 2 * α * β * hy + 2 * α * hα + 2 * β * hβ
    linarith
  have : cosDeg d ^ 2 ≤ (placeAt (a + (r' - r)) lat).dot (placeAt a lat) ^ 2 := pow_le_pow_left₀ hc0 hge 2
  linarith

/-- The members of a Walker constellation with a circular lead orbit. -/
theorem circular_members {I : Type} (sun : Int → ℝ) (w : Walker I) (o : Circular) (ho : w.orbit = .circular o)
    (hv : Circular.Valid o) : w.members sun = .ok ((List.range w.satellites).map fun (k : Nat) =>
      ⟨zeroPad w.name w.satellites (k + 1), .circular ⟨o.altitude, npMod (o.trueAnomaly + (w.increments k).1) 360, o.epoch,
        o.inclination, npMod (o.raan + (w.increments k).2) 360⟩, w.instruments⟩) := by
  unfold Walker.members
  apply mapM_ok
  intro k _
  rw [ho]
  simp only [Lead.derived, derived_eq o _ _ hv.2.1, Except.map, bind, Except.bind, pure, Except.pure]

theorem npMod_turns (x : ℝ) : ∃ l : ℤ, npMod x 360 = x + 360 * l := ⟨-⌊x / 360⌋, by unfold npMod; push_cast; ring⟩

/-- The satellites of a Walker constellation: wherever a place is (up to the latitude of the inclination), in the nearest
plane one of the satellites is near. -/
theorem walker_near {I : Type} (sun : Int → ℝ) (w : Walker I) (o : Circular) (ho : w.orbit = .circular o)
    (hv : Circular.Valid o) (q : Nat) (hq : 1 ≤ q) (hp : 1 ≤ w.planes) (hstar : w.star = false)
    (hn : w.satellites = q * w.planes) (angle node a lat : ℝ) (hc : 0 ≤ cosDeg lat) (hs : |sinDeg lat| ≤ sinDeg o.inclination)
    (hq2 : 2 ≤ q) (hp2 : 2 ≤ w.planes) :
    ∃ ms, w.members sun = .ok ms ∧ ∃ m ∈ ms, ∃ b : Circular, m.orbit = .circular b ∧
      cosDeg (180 / w.planes) * cosDeg (180 / q) ≤
        (perigeeDirection b.inclination (b.raan + node) (b.trueAnomaly + angle)).dot (placeAt a lat) := by
  have hpi := Real.pi_pos
  have hpR : (2 : ℝ) ≤ w.planes := by exact_mod_cast hp2
  have hqR : (2 : ℝ) ≤ q := by exact_mod_cast hq2
  refine ⟨_, circular_members sun w o ho hv, ?_⟩
  have hper : w.satellitesPerPlane = q := by
    unfold Walker.satellitesPerPlane
    rw [hn]
    have : (((q * w.planes : ℕ) : ℚ)) / (w.planes : ℚ) = ((q : ℤ) : ℚ) := by
      have : (w.planes : ℚ) ≠ 0 := by exact_mod_cast (by omega : w.planes ≠ 0)
      push_cast; field_simp
    rw [this, Int.ceil_intCast, Int.toNat_natCast]
  obtain ⟨r0, hr0⟩ := plane_through (i := o.inclination) a hc hs
  -- the plane
  obtain ⟨k, hk, l, hl⟩ := nearest_part hp (r0 - o.raan - node)
  obtain ⟨v, hv'⟩ := along o.inclination (o.raan + node + k * (360 / w.planes)) a lat
  -- the satellite in the plane
  obtain ⟨j, hj, l', hl'⟩ := nearest_part hq (v - o.trueAnomaly - angle - k * w.deltaBetween)
  have hi : k * q + j < w.satellites := by
    rw [hn]
    have : (k + 1) * q ≤ w.planes * q := Nat.mul_le_mul_right _ hk
    nlinarith
  have hmod : (k * q + j) % q = j := by rw [Nat.mul_add_mod']; exact Nat.mod_eq_of_lt hj
  have hdiv : (k * q + j) / q = k := by
    rw [Nat.add_comm, Nat.add_mul_div_right _ _ (by omega), Nat.div_eq_of_lt hj, Nat.zero_add]
  have hinc : w.increments (k * q + j) = ((j : ℝ) * (360 / q) + k * w.deltaBetween, (k : ℝ) * (360 / w.planes)) := by
    unfold Walker.increments Walker.deltaWithin Walker.deltaRaan
    simp only [hper, hmod, hdiv, hstar]
    simp
  refine ⟨_, List.mem_map.mpr ⟨k * q + j, List.mem_range.mpr hi, rfl⟩, _, rfl, ?_⟩
  simp only [hinc]
  obtain ⟨n1, e1⟩ := npMod_turns (o.trueAnomaly + (j * (360 / q) + k * w.deltaBetween))
  obtain ⟨n2, e2⟩ := npMod_turns (o.raan + k * (360 / w.planes))
  rw [e1, e2, show o.raan + k * (360 / w.planes) + 360 * (n2 : ℝ) + node = o.raan + node + k * (360 / w.planes) + 360 * n2 by ring,
    show o.trueAnomaly + (j * (360 / q) + k * w.deltaBetween) + 360 * (n1 : ℝ) + angle =
      o.trueAnomaly + angle + k * w.deltaBetween + j * (360 / q) + 360 * n1 by ring, perigeeDirection_turns, hv']
  have hnear : across o.inclination (o.raan + node + k * (360 / w.planes)) a lat ^ 2 ≤ 1 - cosDeg (180 / w.planes) ^ 2 := by
    have hr0' : across o.inclination (r0 - 360 * l) a lat = 0 := by
      rw [← hr0, across_eq, across_eq, show r0 - 360 * (l : ℝ) - a = r0 - a + 360 * ((-l : ℤ) : ℝ) by push_cast; ring,
        sinDeg_periodic]
    refine plane_near a _ hr0' ?_ ?_
    · rw [abs_sub_comm]
      convert hl using 2; ring
    · rw [div_le_iff₀ (by linarith)]; nlinarith
  have hroot : cosDeg (180 / w.planes) ≤
      Real.sqrt (1 - across o.inclination (o.raan + node + k * (360 / w.planes)) a lat ^ 2) :=
    Real.le_sqrt_of_sq_le (by linarith)
  have hcos0 : 0 ≤ cosDeg (180 / q) := by
    unfold cosDeg
    apply Real.cos_nonneg_of_mem_Icc
    constructor
    · have : 0 ≤ 180 / (q : ℝ) * Real.pi / 180 := by positivity
      linarith
    · rw [div_mul_eq_mul_div, div_div, div_le_div_iff₀ (by positivity) (by norm_num)]
      nlinarith
  have hcos : cosDeg (180 / q) ≤ cosDeg (o.trueAnomaly + angle + k * w.deltaBetween + j * (360 / q) - v) := by
    rw [← cosDeg_periodic (o.trueAnomaly + angle + k * w.deltaBetween + j * (360 / q) - v) l']
    apply cosDeg_ge
    · rw [abs_sub_comm] at hl'
      convert hl' using 2
      ring
    · rw [div_le_iff₀ (by positivity)]; linarith
  exact mul_le_mul hroot hcos hcos0 (Real.sqrt_nonneg _)

/-- The inequality of the design: satellites and planes that are as close as the angles `f` and `g` see everything between
them within the angle `l`. -/
theorem streets_cos {l packing f g s p : ℝ} (hl0 : 0 < l) (hw1 : l ≤ Real.pi / 2) (hp : packing ^ 2 ≤ 4 / 7) (g0 : 0 < g)
    (gf : g ≤ f) (hfl : f / 2 ≤ l) (hsR : 1 ≤ s) (hpR : 1 ≤ p) (s2 : 2 * Real.pi / s ≤ f) (p2 : 2 * Real.pi / p ≤ g)
    (hsf : Real.sin (f / 2) = packing * Real.sin l) (hsg : Real.sin (g / 2) = packing * (Real.sqrt 3 / 2) * Real.sin l) :
    Real.cos l ≤ cosDeg (180 / p) * cosDeg (180 / s) := by
  have hpi := Real.pi_pos
  set S := Real.sin l ^ 2 with hS
  have hS1 : S ≤ 1 := Real.sin_sq_le_one l
  have hS0 : 0 ≤ S := sq_nonneg _
  set T := packing ^ 2 * S with hT
  have hT0 : 0 ≤ T := by positivity
  have hT1 : T ≤ 4 / 7 * S := mul_le_mul_of_nonneg_right hp hS0
  have hcf : Real.cos (f / 2) = Real.sqrt (1 - T) := by
    rw [Real.cos_eq_sqrt_one_sub_sin_sq (by linarith) (by linarith), hsf, mul_pow]
  have h3 : Real.sqrt 3 ^ 2 = 3 := Real.sq_sqrt (by norm_num)
  have hcg : Real.cos (g / 2) = Real.sqrt (1 - 3 / 4 * T) := by
    rw [Real.cos_eq_sqrt_one_sub_sin_sq (by linarith) (by linarith), hsg, mul_pow, mul_pow, div_pow, h3]
    congr 1; rw [hT]; ring
  have hc1 : Real.sqrt (1 - T) ≤ cosDeg (180 / s) := by
    rw [← hcf]
    unfold cosDeg
    have e : 180 / (s : ℝ) * Real.pi / 180 = 2 * Real.pi / s / 2 := by field_simp
    rw [e]
    apply Real.cos_le_cos_of_nonneg_of_le_pi (by positivity) (by linarith) (by linarith)
  have hc2 : Real.sqrt (1 - 3 / 4 * T) ≤ cosDeg (180 / p) := by
    rw [← hcg]
    unfold cosDeg
    have e : 180 / (p : ℝ) * Real.pi / 180 = 2 * Real.pi / p / 2 := by field_simp
    rw [e]
    apply Real.cos_le_cos_of_nonneg_of_le_pi (by positivity) (by linarith) (by linarith)
  calc Real.cos l = Real.sqrt (1 - S) := Real.cos_eq_sqrt_one_sub_sin_sq (by linarith) hw1
    _ ≤ Real.sqrt ((1 - 3 / 4 * T) * (1 - T)) := Real.sqrt_le_sqrt (by nlinarith)
    _ = Real.sqrt (1 - 3 / 4 * T) * Real.sqrt (1 - T) := Real.sqrt_mul (by linarith) _
    _ ≤ _ := mul_le_mul hc2 hc1 (Real.sqrt_nonneg _) ((Real.sqrt_nonneg _).trans hc2)

/-- C133, full statement: at every time every place whose latitude does not exceed the inclination is within half the swath
width of the point below some satellite.  Proved for packing distances up to `√(4 / 7)`, for the angles by which the satellites
have moved on (`angle`, the same for all of them) and their planes have turned (`node`); false with every larger packing distance. -/
theorem C133_streets_partial {I : Type} (sun : Int → ℝ) (name : List Char) (orbit : Circular) (instruments : I)
    (swath packing : ℝ) (c : Soc I) (hc : Soc.make name orbit instruments swath packing = .ok c)
    (ho : Circular.Valid orbit) (hh : 0 < orbit.altitude) (hw1 : swath / 2 / meanRadius ≤ Real.pi / 2)
    (hor : meanRadius / (meanRadius + orbit.altitude) ≤ Real.cos (swath / 2 / meanRadius)) (hp : packing ^ 2 ≤ 4 / 7) :
    ∃ ms, c.members sun = .ok ms ∧
      ∀ angle node rightAscension latitude : ℝ, -90 ≤ latitude → latitude ≤ 90 →
        |sinDeg latitude| ≤ sinDeg orbit.inclination →
        ∃ m ∈ ms, ∃ b : Circular, m.orbit = .circular b ∧ b.altitude = orbit.altitude ∧ b.inclination = orbit.inclination ∧
          meanRadius * angleFromPlace b.inclination (b.raan + node) (b.trueAnomaly + angle) rightAscension latitude ≤
            swath / 2 := by
  have hR := meanRadius_gt
  have hR0 : 0 < meanRadius := by linarith
  have hpi := Real.pi_pos
  have hc' := hc
  unfold Soc.make at hc'
  simp only [bind_eq_ok, require_eq_ok, pure, Except.pure, Except.ok.injEq] at hc'
  obtain ⟨_, hs0, _, hp0, _, hp1, -⟩ := hc'
  obtain ⟨w, s, p, ms, f, g, hw, -, horb, -, hstar, -, hpl, hsat, hms, -, -, ⟨s1, s2, -⟩, ⟨p1, p2, -⟩, ef, eg, g0, gf, fsw⟩ :=
    C37_streets sun name orbit instruments swath packing c hc ho hh hw1 hor
  refine ⟨ms, hms, ?_⟩
  intro angle node a lat hl1 hl2 hlat
  set l := swath / 2 / meanRadius with hl
  have hl0 : 0 < l := by rw [hl]; positivity
  have hsl : 0 < Real.sin l := Real.sin_pos_of_pos_of_lt_pi hl0 (by linarith)
  have hfl : f / 2 ≤ l := by
    have : 2 * l = swath / meanRadius := by rw [hl]; field_simp
    linarith
  have hsR : (1 : ℝ) ≤ s := by exact_mod_cast s1
  have hpR : (1 : ℝ) ≤ p := by exact_mod_cast p1
  have s2' : 2 ≤ s := by
    by_contra hlt
    obtain rfl : s = 1 := by omega
    norm_num at s2
    linarith
  have p2' : 2 ≤ p := by
    by_contra hlt
    obtain rfl : p = 1 := by omega
    norm_num at p2
    linarith
  have hclat : 0 ≤ cosDeg lat := by
    unfold cosDeg
    apply Real.cos_nonneg_of_mem_Icc
    constructor <;> nlinarith
  have hmw : w.members sun = .ok ms := by
    unfold Soc.members at hms
    rw [hw] at hms
    exact hms
  obtain ⟨ms', hms', m, hm, b, hb, hdot⟩ := walker_near sun w orbit horb ho s s1 (by rw [hpl]; exact p1) hstar
    (by rw [hsat, hpl]) angle node a lat hclat hlat s2' (by rw [hpl]; exact p2')
  obtain rfl : ms = ms' := by rw [hmw] at hms'; injection hms'
  have hbe : b.altitude = orbit.altitude ∧ b.inclination = orbit.inclination := by
    rw [circular_members sun w orbit horb ho] at hmw
    obtain rfl := Except.ok.inj hmw
    obtain ⟨k, -, rfl⟩ := List.mem_map.mp hm
    simp only [Lead.circular.injEq] at hb
    rw [← hb]; exact ⟨rfl, rfl⟩
  refine ⟨m, hm, b, hb, hbe.1, hbe.2, ?_⟩
  rw [hpl] at hdot
  -- the angles of the design
  have hsf : Real.sin (f / 2) = packing * Real.sin l := by
    have : 2 * meanRadius * Real.sin (f / 2) = 2 * meanRadius * (packing * Real.sin l) := by rw [ef]; ring
    exact mul_left_cancel₀ (by positivity) this
  have hsg : Real.sin (g / 2) = packing * (Real.sqrt 3 / 2) * Real.sin l := by
    have : 2 * meanRadius * Real.sin (g / 2) = 2 * meanRadius * (packing * (Real.sqrt 3 / 2) * Real.sin l) := by rw [eg]; ring
    exact mul_left_cancel₀ (by positivity) this
  have hge := streets_cos hl0 hw1 hp g0 gf hfl hsR hpR s2 p2 hsf hsg
  have hang : angleFromPlace b.inclination (b.raan + node) (b.trueAnomaly + angle) a lat ≤ l := by
    unfold angleFromPlace
    rw [← Real.arccos_cos hl0.le (by linarith)]
    exact Real.antitone_arccos (hge.trans hdot)
  have : meanRadius * l = swath / 2 := by rw [hl]; field_simp
  rw [← this]
  exact mul_le_mul_of_nonneg_left hang hR0.le

theorem cos_five (x : ℝ) : Real.cos (5 * x) = Real.cos x * (16 * Real.cos x ^ 4 - 20 * Real.cos x ^ 2 + 5) := by
  have h := Real.sin_sq_add_cos_sq x
  have e : Real.cos (5 * x) = Real.cos (3 * x) * Real.cos (2 * x) - Real.sin (3 * x) * Real.sin (2 * x) := by
    rw [← Real.cos_add]; congr 1; ring
  rw [e, Real.cos_three_mul, Real.cos_two_mul, Real.sin_three_mul, Real.sin_two_mul]
  have hs : Real.sin x ^ 2 = 1 - Real.cos x ^ 2 := by linarith
  have h1 : (3 * Real.sin x - 4 * Real.sin x ^ 3) * (2 * Real.sin x * Real.cos x) =
      2 * Real.cos x * Real.sin x ^ 2 * (3 - 4 * Real.sin x ^ 2) := by ring
  rw [h1, hs]
  ring

/-- With eight satellites in each of ten polar planes, a place on the equator between planes and between satellites. -/
theorem between_streets (k j : Nat) : cosDeg ((j : ℝ) * 45 + 22.5) * cosDeg ((k : ℝ) * 36 - 18) < 92 / 100 := by
  have hpi := Real.pi_pos
  have hu : cosDeg ((j : ℝ) * 45 + 22.5) ^ 2 ≤ 8536 / 10000 := by
    unfold cosDeg
    set x := ((j : ℝ) * 45 + 22.5) * Real.pi / 180 with hx
    have h4 : Real.cos (2 * (2 * x)) = 0 := by
      rw [Real.cos_eq_zero_iff]
      exact ⟨j, by rw [hx]; push_cast; ring⟩
    rw [Real.cos_two_mul] at h4
    have h2 := Real.cos_two_mul x
    set c := Real.cos (2 * x)
    have hc : c ≤ 7072 / 10000 := by nlinarith
    linarith
  have hr : cosDeg ((k : ℝ) * 36 - 18) ^ 2 ≤ 96 / 100 := by
    unfold cosDeg
    set x := ((k : ℝ) * 36 - 18) * Real.pi / 180 with hx
    have h5 : Real.cos (5 * x) = 0 := by
      rw [Real.cos_eq_zero_iff]
      exact ⟨k - 1, by rw [hx]; push_cast; ring⟩
    rw [cos_five] at h5
    rcases mul_eq_zero.mp h5 with h | h
    · rw [h]; norm_num
    · by_contra hlt
      push Not at hlt
      have h4 : Real.cos x ^ 4 = Real.cos x ^ 2 * Real.cos x ^ 2 := by ring
      nlinarith
  have hm := mul_le_mul hu hr (sq_nonneg _) (by norm_num)
  rw [← mul_pow] at hm
  nlinarith

/-- The constellation that leaves a gap: a thousand kilometres above the poles, footprints of 0.4 radians that touch. -/
noncomputable def touchingStreets : Soc Unit := ⟨['S'], ⟨1000000, 0, 0, 90, 0⟩, (), 8 / 10 * meanRadius, 1⟩

/-- C133 is false with packing distance 1: 80 satellites are generated, none of which has in its swath a place at the equator
when the satellites have moved on by 22.5 degrees. -/
theorem C133_touching_false (sun : Int → ℝ) :
    Soc.make ['S'] ⟨1000000, 0, 0, 90, 0⟩ () (8 / 10 * meanRadius) 1 = .ok touchingStreets ∧
    Circular.Valid touchingStreets.orbit ∧
    ∃ ms, touchingStreets.members sun = .ok ms ∧ ms.length = 80 ∧
      ∀ m ∈ ms, ∃ b : Circular, m.orbit = .circular b ∧
        touchingStreets.swathWidth / 2 < meanRadius * angleFromPlace b.inclination b.raan (b.trueAnomaly + 22.5) 18 0 := by
  have hR := meanRadius_gt
  have hR2 : meanRadius < 6400000 := by unfold meanRadius equatorialRadius polarRadius; norm_num
  have hR0 : 0 < meanRadius := by linarith
  have hpi := Real.pi_gt_d4
  have hpi2 := Real.pi_lt_d4
  have hl : 8 / 10 * meanRadius / 2 / meanRadius = 4 / 10 := by field_simp; norm_num
  have hmake : Soc.make ['S'] ⟨1000000, 0, 0, 90, 0⟩ () (8 / 10 * meanRadius) 1 = .ok touchingStreets := by
    unfold Soc.make
    simp only [bind_eq_ok, require_eq_ok, pure, Except.pure]
    exact ⟨(), by positivity, (), by norm_num, (), le_rfl, rfl⟩
  have hval : Circular.Valid ⟨1000000, 0, 0, 90, 0⟩ := by unfold Circular.Valid InTurn; norm_num
  have hcos4 : (92 / 100 : ℝ) ≤ Real.cos (4 / 10) := by
    have := Real.one_sub_sq_div_two_le_cos (x := 4 / 10)
    linarith
  refine ⟨hmake, hval, ?_⟩
  obtain ⟨w, s, p, ms, f, g, hw, -, horb, -, hstar, hspa, hpl, hsat, hms, hlen, -, ⟨s1, s2, s3⟩, ⟨p1, p2, p3⟩, ef, eg, g0, gf, fsw⟩ :=
    C37_streets sun ['S'] ⟨1000000, 0, 0, 90, 0⟩ () (8 / 10 * meanRadius) 1 _ hmake hval (by norm_num)
      (by rw [hl]; linarith)
      (by
        rw [hl]
        refine le_trans ?_ hcos4
        rw [div_le_iff₀ (by positivity)]
        show meanRadius ≤ 92 / 100 * (meanRadius + 1000000)
        linarith)
  rw [hl] at ef eg
  have hf8 : f ≤ 8 / 10 := by
    have : 8 / 10 * meanRadius / meanRadius = 8 / 10 := by field_simp
    linarith
  have hf : f = 8 / 10 := by
    have h1 : Real.sin (f / 2) = Real.sin (4 / 10) := by
      have : 2 * meanRadius * Real.sin (f / 2) = 2 * meanRadius * Real.sin (4 / 10) := by rw [ef]; ring
      exact mul_left_cancel₀ (by positivity) this
    have h2 := Real.injOn_sin ⟨by linarith, by linarith⟩ ⟨by linarith, by linarith⟩ h1
    linarith
  have hg : Real.sin (g / 2) = Real.sqrt 3 / 2 * Real.sin (4 / 10) := by
    have : 2 * meanRadius * Real.sin (g / 2) = 2 * meanRadius * (Real.sqrt 3 / 2 * Real.sin (4 / 10)) := by rw [eg]; ring
    exact mul_left_cancel₀ (by positivity) this
  -- eight satellites in a plane
  obtain rfl : s = 8 := by
    have a1 : s ≤ 8 := s3 8 (by norm_num) (by rw [hf]; push_cast; linarith)
    have a2 : 7 < s := by
      have hs : (0 : ℝ) < s := by exact_mod_cast s1
      rw [hf, div_le_iff₀ hs] at s2
      have : (7 : ℝ) < s := by linarith
      exact_mod_cast this
    omega
  -- ten planes
  have h3u : Real.sqrt 3 ≤ 1.7321 := by rw [Real.sqrt_le_left (by norm_num)]; norm_num
  have h3l : 1.732 ≤ Real.sqrt 3 := by apply Real.le_sqrt_of_sq_le; norm_num
  obtain rfl : p = 10 := by
    have a1 : p ≤ 10 := by
      apply p3 10 (by norm_num)
      by_contra hlt
      push Not at hlt
      push_cast at hlt
      have h1 : Real.sin (g / 2) ≤ Real.sin (Real.pi / 10) :=
        Real.sin_le_sin_of_le_of_le_pi_div_two (by linarith) (by linarith) (by linarith)
      have h2 : Real.sin (Real.pi / 10) ≤ Real.pi / 10 := Real.sin_le (by linarith)
      have h4 := Real.sin_gt_sub_cube (x := 4 / 10) (by norm_num)
      have h5 : (332 / 1000 : ℝ) ≤ Real.sqrt 3 / 2 * Real.sin (4 / 10) := by
        have := mul_le_mul (by linarith : (0.866 : ℝ) ≤ Real.sqrt 3 / 2) h4.le (by norm_num) (by linarith)
        linarith
      linarith
    have a2 : 9 < p := by
      by_contra hle
      push Not at hle
      have hp9 : (p : ℝ) ≤ 9 := by exact_mod_cast hle
      have hp0 : (0 : ℝ) < p := by exact_mod_cast p1
      have h0 : 2 * Real.pi / 9 ≤ g := le_trans (div_le_div_of_nonneg_left (by linarith) hp0 hp9) p2
      have h1 : Real.sin (Real.pi / 9) ≤ Real.sin (g / 2) :=
        Real.sin_le_sin_of_le_of_le_pi_div_two (by linarith) (by linarith) (by linarith)
      have h2 := (abs_le.mp (Real.sin_bound (x := 4 / 10) (by rw [abs_of_pos] <;> norm_num))).2
      rw [abs_of_pos (by norm_num)] at h2
      have h4 : Real.sin 0.349 ≤ Real.sin (Real.pi / 9) :=
        Real.sin_le_sin_of_le_of_le_pi_div_two (by linarith) (by linarith) (by linarith)
      have h5 := (abs_le.mp (Real.sin_bound (x := 0.349) (by rw [abs_of_pos] <;> norm_num))).1
      rw [abs_of_pos (by norm_num)] at h5
      have h6 : Real.sqrt 3 / 2 * Real.sin (4 / 10) ≤ 0.86605 * 0.3907 := by
        apply mul_le_mul (by linarith) (by norm_num at h2 ⊢; linarith) _ (by norm_num)
        exact (Real.sin_pos_of_pos_of_lt_pi (by norm_num) (by linarith)).le
      norm_num at h5 h6
      linarith
    omega
  refine ⟨ms, hms, by rw [hlen], ?_⟩
  have hmw : w.members sun = .ok ms := by
    unfold Soc.members at hms
    rw [hw] at hms
    exact hms
  rw [circular_members sun w _ horb hval] at hmw
  obtain rfl := Except.ok.inj hmw
  intro m hm
  obtain ⟨i, -, rfl⟩ := List.mem_map.mp hm
  refine ⟨_, rfl, ?_⟩
  have hper : w.satellitesPerPlane = 8 := by
    unfold Walker.satellitesPerPlane
    rw [hsat, hpl, show (((8 * 10 : ℕ) : ℚ) / ((10 : ℕ) : ℚ)) = ((8 : ℤ) : ℚ) by norm_num, Int.ceil_intCast]
    rfl
  have hinc : w.increments i = (((i % 8 : ℕ) : ℝ) * 45, ((i / 8 : ℕ) : ℝ) * 36) := by
    unfold Walker.increments Walker.deltaWithin Walker.deltaRaan Walker.deltaBetween
    simp only [hper, hstar, hspa, hpl]
    norm_num
  simp only [hinc]
  obtain ⟨n1, e1⟩ := npMod_turns (0 + ((i % 8 : ℕ) : ℝ) * 45)
  obtain ⟨n2, e2⟩ := npMod_turns (0 + ((i / 8 : ℕ) : ℝ) * 36)
  have hdot : (perigeeDirection 90 (npMod (0 + ((i / 8 : ℕ) : ℝ) * 36) 360) (npMod (0 + ((i % 8 : ℕ) : ℝ) * 45) 360 + 22.5)).dot
      (placeAt 18 0) = cosDeg (((i % 8 : ℕ) : ℝ) * 45 + 22.5) * cosDeg (((i / 8 : ℕ) : ℝ) * 36 - 18) := by
    rw [e1, e2, show 0 + ((i % 8 : ℕ) : ℝ) * 45 + 360 * (n1 : ℝ) + 22.5 = ((i % 8 : ℕ) : ℝ) * 45 + 22.5 + 360 * n1 by ring,
      perigeeDirection_turns]
    have c90 : cosDeg 90 = 0 := by
      unfold cosDeg; rw [show (90 : ℝ) * Real.pi / 180 = Real.pi / 2 by ring, Real.cos_pi_div_two]
    have c0 : cosDeg 0 = 1 := by unfold cosDeg; simp
    have s0 : sinDeg 0 = 0 := by unfold sinDeg; simp
    have cs : cosDeg (((i / 8 : ℕ) : ℝ) * 36 - 18) = cosDeg (((i / 8 : ℕ) : ℝ) * 36) * cosDeg 18 + sinDeg (((i / 8 : ℕ) : ℝ) * 36) * sinDeg 18 := by
      unfold cosDeg sinDeg
      rw [← Real.cos_sub]; congr 1; ring
    unfold perigeeDirection placeAt V3.dot
    simp only [c90, c0, s0, cs, zero_add]
    ring
  have hlt := between_streets (i / 8) (i % 8)
  have hang : 4 / 10 < angleFromPlace 90 (npMod (0 + ((i / 8 : ℕ) : ℝ) * 36) 360)
      (npMod (0 + ((i % 8 : ℕ) : ℝ) * 45) 360 + 22.5) 18 0 := by
    unfold angleFromPlace
    rw [hdot, ← Real.arccos_cos (x := 4 / 10) (by norm_num) (by linarith)]
    by_cases hm1 : -1 ≤ cosDeg (((i % 8 : ℕ) : ℝ) * 45 + 22.5) * cosDeg (((i / 8 : ℕ) : ℝ) * 36 - 18)
    · exact Real.strictAntiOn_arccos ⟨hm1, by linarith⟩ ⟨by linarith, Real.cos_le_one _⟩ (by linarith)
    · rw [Real.arccos_cos (x := 4 / 10) (by norm_num) (by linarith),
        Real.arccos_of_le_neg_one (not_le.mp hm1).le]
      linarith
  show 8 / 10 * meanRadius / 2 < meanRadius * angleFromPlace 90 _ _ 18 0
  have := mul_lt_mul_of_pos_left hang hR0
  linarith

/-- The hypotheses are met: a swath of 1 000 km from 1 000 km, at half the distance. -/
example (sun : Int → ℝ) : ∃ c ms, Soc.make (I := Unit) ['S'] ⟨1000000, 0, 0, 60, 0⟩ () 1000000 0.5 = .ok c ∧
    c.members sun = .ok ms ∧ ∀ angle rightAscension : ℝ, ∃ m ∈ ms, ∃ b : Circular, m.orbit = .circular b ∧
      meanRadius * angleFromPlace b.inclination b.raan (b.trueAnomaly + angle) rightAscension 0 ≤ 500000 := by
  have hR := meanRadius_gt
  have hR2 : meanRadius < 6400000 := by unfold meanRadius equatorialRadius polarRadius; norm_num
  have hpi := Real.pi_gt_three
  have hx : (1000000 : ℝ) / 2 / meanRadius ≤ 1 / 12 := by rw [div_div, div_le_iff₀ (by positivity)]; linarith
  have hx0 : (0 : ℝ) ≤ 1000000 / 2 / meanRadius := by positivity
  have hc : Soc.make (I := Unit) ['S'] ⟨1000000, 0, 0, 60, 0⟩ () 1000000 0.5 = .ok ⟨['S'], ⟨1000000, 0, 0, 60, 0⟩, (), 1000000, 0.5⟩ := by
    unfold Soc.make
    simp only [bind_eq_ok, require_eq_ok, pure, Except.pure]
    exact ⟨(), by norm_num, (), by norm_num, (), by norm_num, trivial⟩
  obtain ⟨ms, hms, h⟩ := C133_streets_partial sun ['S'] ⟨1000000, 0, 0, 60, 0⟩ () 1000000 0.5 _ hc
    (by unfold Circular.Valid InTurn; norm_num) (by norm_num) (by linarith)
    (by
      have h1 := Real.one_sub_sq_div_two_le_cos (x := 1000000 / 2 / meanRadius)
      refine le_trans ?_ h1
      show meanRadius / (meanRadius + 1000000) ≤ _
      rw [div_le_iff₀ (by linarith)]
      have : (1000000 / 2 / meanRadius) ^ 2 ≤ 1 / 144 := by nlinarith
      nlinarith) (by norm_num)
  refine ⟨_, ms, hc, hms, fun angle a => ?_⟩
  have s0 : sinDeg 0 = 0 := by unfold sinDeg; simp
  obtain ⟨m, hm, b, hb, -, -, hd⟩ := h angle 0 a 0 (by norm_num) (by norm_num) (by
    rw [s0, abs_zero]
    exact Real.sin_nonneg_of_nonneg_of_le_pi (by positivity) (by show (60 : ℝ) * Real.pi / 180 ≤ Real.pi; linarith))
  rw [add_zero] at hd
  exact ⟨m, hm, b, hb, by linarith⟩

end Tatc.Props
