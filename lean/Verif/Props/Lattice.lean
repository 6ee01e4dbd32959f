import Verif.Model.Generation
import Verif.Spec.Angle
import Verif.Spec.Orbit
import Verif.Props.Samples
import Mathlib.NumberTheory.Real.GoldenRatio

/-!
# C38 and C39: Fibonacci lattice
-/

namespace Tatc.Props
open Tatc.Num Tatc.Geometry Tatc.Generation Tatc.Spec
open scoped Classical

theorem fibLat_arg {i n : Nat} (h : i < n) :
    -1 < 2 * ((i : ℝ) + 1) / ((n : ℝ) + 2) - 1 ∧ 2 * ((i : ℝ) + 1) / ((n : ℝ) + 2) - 1 < 1 := by
  have hn : (i : ℝ) + 1 ≤ n := by exact_mod_cast h
  have hi : (0 : ℝ) ≤ i := Nat.cast_nonneg i
  constructor
  · have : 0 < 2 * ((i : ℝ) + 1) / ((n : ℝ) + 2) := by positivity
    linarith
  · have : 2 * ((i : ℝ) + 1) / ((n : ℝ) + 2) < 2 := by
      rw [div_lt_iff₀ (by linarith)]; linarith
    linarith

theorem degrees_strictMono {a b : ℝ} (h : a < b) : degrees a < degrees b := by
  have hpi := Real.pi_pos
  exact mul_lt_mul_of_pos_right h (by positivity)

theorem fibLat_range {i n : Nat} (h : i < n) : -90 < fibLatitude i n ∧ fibLatitude i n < 90 := by
  obtain ⟨h1, h2⟩ := fibLat_arg h
  have hpi := Real.pi_pos
  have d1 : degrees (-(Real.pi / 2)) = -90 := by unfold degrees; field_simp; norm_num
  have d2 : degrees (Real.pi / 2) = 90 := by unfold degrees; field_simp; norm_num
  constructor
  · rw [← d1]
    apply degrees_strictMono
    rw [← Real.arcsin_neg_one]
    exact Real.arcsin_lt_arcsin le_rfl h1 h2.le
  · rw [← d2]
    apply degrees_strictMono
    rw [← Real.arcsin_one]
    exact Real.arcsin_lt_arcsin h1.le h2 le_rfl

theorem fibLat_mono {i j n : Nat} (hij : i < j) (hj : j < n) : fibLatitude i n < fibLatitude j n := by
  obtain ⟨h1, h2⟩ := fibLat_arg (lt_trans hij hj)
  obtain ⟨h3, h4⟩ := fibLat_arg hj
  apply degrees_strictMono
  apply Real.arcsin_lt_arcsin h1.le _ h4.le
  have : (i : ℝ) < j := by exact_mod_cast hij
  have hn : (0 : ℝ) < (n : ℝ) + 2 := by positivity
  have : 2 * ((i : ℝ) + 1) / ((n : ℝ) + 2) < 2 * ((j : ℝ) + 1) / ((n : ℝ) + 2) := by
    rw [div_lt_div_iff_of_pos_right hn]; linarith
  linarith

/-- The golden ratio. -/
noncomputable def golden : ℝ := (1 + Real.sqrt 5) / 2

theorem fibLon_spec (i : Nat) : -180 < fibLongitude i ∧ fibLongitude i ≤ 180 ∧
    SameAngle (fibLongitude i) (360 * i / golden) := by
  obtain ⟨k, hk⟩ := npMod_spec (360 * (i : ℝ) / ((1 + Real.sqrt 5) / 2)) 360
  have h0 := npMod_nonneg (360 * (i : ℝ) / ((1 + Real.sqrt 5) / 2)) (by norm_num : (0 : ℝ) < 360)
  have h1 := npMod_lt (360 * (i : ℝ) / ((1 + Real.sqrt 5) / 2)) (by norm_num : (0 : ℝ) < 360)
  unfold fibLongitude
  simp only
  split_ifs with h
  · refine ⟨by linarith, by linarith, k - 1, ?_⟩
    rw [hk]; unfold golden; push_cast; ring
  · exact ⟨by linarith, not_lt.mp h, k, hk⟩

theorem golden_eq : golden = Real.goldenRatio := rfl

/-- No multiple of 360/φ but zero is a whole number of half turns. -/
theorem golden_never {i : Nat} (hi : i ≠ 0) (m : ℤ) : 360 * (i : ℝ) / golden ≠ 180 * m := by
  intro h
  have hirr := Real.goldenRatio_irrational
  have hpos : 0 < golden := by rw [golden_eq]; exact Real.goldenRatio_pos
  have hi' : (0 : ℝ) < i := by exact_mod_cast Nat.pos_of_ne_zero hi
  rw [div_eq_iff hpos.ne'] at h
  have hm : (m : ℝ) ≠ 0 := by
    intro h0
    rw [h0] at h
    simp at h
    exact hi h
  have : golden = ((2 * i / m : ℚ) : ℝ) := by
    push_cast
    rw [eq_div_iff hm]
    linarith
  exact hirr ⟨_, this.symm⟩

theorem fibLon_half {i : Nat} (k : ℤ) (h : fibLongitude i + 360 * k = 180) : False := by
  obtain ⟨-, -, l, hl⟩ := fibLon_spec i
  rcases Nat.eq_zero_or_pos i with rfl | hi
  · rw [hl] at h
    simp only [Nat.cast_zero, mul_zero, zero_div, zero_add] at h
    have : (2 * (l + k) : ℤ) = 1 := by
      have h2 : (2 * ((l : ℝ) + k)) = 1 := by linarith
      exact_mod_cast h2
    omega
  · rw [hl] at h
    exact golden_never hi.ne' (1 - 2 * (l + k)) (by push_cast; linarith)

theorem fibLon_zero {i : Nat} (k : ℤ) (h : fibLongitude i + 360 * k = 0) : i = 0 := by
  obtain ⟨-, -, l, hl⟩ := fibLon_spec i
  by_contra hi
  rw [hl] at h
  exact golden_never hi (-2 * (l + k)) (by push_cast; linarith)

theorem fibonacci_none (clip : Clip) (distance elevation : ℝ) (n : Nat) (hn : numberSamples distance = .ok n) :
    fibonacciPoints clip distance elevation none = .ok ((List.range n).map fun (i : Nat) =>
      ⟨i, fibLongitude i, fibLatitude i n, elevation⟩) := by
  unfold fibonacciPoints
  simp only [hn, getBounds, bind, Except.bind, pure, Except.pure]

/-- C38: without a mask there are exactly as many points as samples, numbered from zero; latitudes are strictly
between the poles and strictly increase, so that no two points coincide; longitudes are in `(-180, 180]`.  The
positions are those of a Fibonacci lattice: the sines of latitude are equally spaced, and longitudes advance by
360/φ degrees. -/
theorem C38_lattice (clip : Clip) (distance elevation : ℝ) (n : Nat) (hn : numberSamples distance = .ok n) :
    ∃ pts, fibonacciPoints clip distance elevation none = .ok pts ∧ pts.length = n ∧
      (∀ i, (h : i < pts.length) → pts[i].id = i ∧ pts[i].elevation = elevation ∧
        -90 < pts[i].lat ∧ pts[i].lat < 90 ∧ -180 < pts[i].lon ∧ pts[i].lon ≤ 180 ∧
        sinDeg pts[i].lat = 2 * ((i : ℝ) + 1) / ((n : ℝ) + 2) - 1 ∧
        SameAngle pts[i].lon (360 * i / ((1 + Real.sqrt 5) / 2))) ∧
      pts.Pairwise (fun a b => a.lat < b.lat) ∧
      (pts.map fun p => (p.lon, p.lat)).Nodup := by
  refine ⟨_, fibonacci_none clip distance elevation n hn, by simp, ?_, ?_, ?_⟩
  · intro i h
    have hi : i < n := by simpa using h
    obtain ⟨l1, l2⟩ := fibLat_range hi
    obtain ⟨m1, m2, m3⟩ := fibLon_spec i
    simp only [List.getElem_map, List.getElem_range]
    refine ⟨trivial, trivial, l1, l2, m1, m2, ?_, m3⟩
    obtain ⟨h1, h2⟩ := fibLat_arg hi
    have : fibLatitude i n * Real.pi / 180 = Real.arcsin (2 * ((i : ℝ) + 1) / ((n : ℝ) + 2) - 1) := by
      have hpi := Real.pi_pos
      unfold fibLatitude degrees; field_simp
    unfold sinDeg
    rw [this, Real.sin_arcsin h1.le h2.le]
  · rw [List.pairwise_map]
    refine List.Pairwise.imp_of_mem ?_ (List.pairwise_lt_range (n := n))
    intro a b _ hb hab
    exact fibLat_mono hab (List.mem_range.mp hb)
  · rw [List.map_map]
    refine List.Nodup.map_on ?_ List.nodup_range
    intro a ha b hb hab
    simp only [Function.comp, Prod.mk.injEq] at hab
    have ha' := List.mem_range.mp ha
    have hb' := List.mem_range.mp hb
    rcases lt_trichotomy a b with h | h | h
    · exact absurd hab.2 (fibLat_mono h hb').ne
    · exact h
    · exact absurd hab.2 (fibLat_mono h ha').ne'

/-- The lattice is not symmetric about the equator: the last point is twice as far from the north pole, measured
in sine of latitude, as the first from the south pole. -/
theorem C38_last_gap (n : Nat) (hn : 1 ≤ n) :
    sinDeg (fibLatitude 0 n) - (-1) = 2 / ((n : ℝ) + 2) ∧ 1 - sinDeg (fibLatitude (n - 1) n) = 4 / ((n : ℝ) + 2) := by
  have hpi := Real.pi_pos
  have key : ∀ i, i < n → sinDeg (fibLatitude i n) = 2 * ((i : ℝ) + 1) / ((n : ℝ) + 2) - 1 := by
    intro i hi
    obtain ⟨h1, h2⟩ := fibLat_arg hi
    have : fibLatitude i n * Real.pi / 180 = Real.arcsin (2 * ((i : ℝ) + 1) / ((n : ℝ) + 2) - 1) := by
      unfold fibLatitude degrees; field_simp
    unfold sinDeg
    rw [this, Real.sin_arcsin h1.le h2.le]
  have h2 : (0 : ℝ) < (n : ℝ) + 2 := by positivity
  rw [key 0 (by omega), key (n - 1) (by omega), Nat.cast_sub hn]
  constructor
  · push_cast; ring
  · push_cast; field_simp; ring

/-! ## C39 -/

theorem fibonacci_some (clip : Clip) (distance elevation : ℝ) (n : Nat) (hn : numberSamples distance = .ok n)
    (m : Mask) (hv : m.valid = true) :
    fibonacciPoints clip distance elevation (some m) =
      .ok (clip.run m (((List.range n).filter fun (i : Nat) =>
        decide (m.minLat ≤ fibLatitude i n ∧ fibLatitude i n ≤ m.maxLat) &&
        decide (m.minLon ≤ shiftedLongitude (if m.maxLon = -180 then 180 else m.maxLon) i ∧
          shiftedLongitude (if m.maxLon = -180 then 180 else m.maxLon) i ≤
            (if m.maxLon = -180 then 180 else m.maxLon))).map fun (i : Nat) =>
        ⟨i, shiftedLongitude (if m.maxLon = -180 then 180 else m.maxLon) i, fibLatitude i n, elevation⟩)) := by
  unfold fibonacciPoints
  simp only [hn, getBounds, hv, bind, Except.bind, pure, Except.pure, if_true]

theorem shifted_sameAngle (x : ℝ) (i : Nat) : SameAngle (shiftedLongitude x i) (fibLongitude i) := by
  unfold shiftedLongitude
  split_ifs
  · exact ⟨1, by push_cast; ring⟩
  · exact ⟨0, by push_cast; ring⟩

/-- Masks on which the generator finds every point: within `[-180, 180]`, or within `[0, 360)`. -/
def OneSheet (m : Mask) : Prop := (-180 ≤ m.minLon ∧ m.maxLon ≤ 180) ∨ (0 ≤ m.minLon ∧ m.maxLon < 360)

/-- C39, full statement: for every valid mask, the points returned are those of the global lattice that lie in
the mask, longitudes taken modulo 360, with their global identifiers.  Proved for masks within `[-180, 180]` or
within `[0, 360)`; false for masks that extend to both negative longitudes and longitudes above 180. -/
theorem C39_mask_partial (clip : Clip) (distance elevation : ℝ) (n : Nat) (hn : numberSamples distance = .ok n)
    (m : Mask) (hv : m.valid = true) (hm : OneSheet m) :
    ∃ pts all, fibonacciPoints clip distance elevation (some m) = .ok pts ∧
      fibonacciPoints clip distance elevation none = .ok all ∧
      (pts.map (·.id)).Perm ((all.filter fun g => decide (∃ k : ℤ, m.contains (g.lon + 360 * k) g.lat)).map (·.id)) ∧
      ∀ p ∈ pts, m.contains p.lon p.lat ∧
        ∃ g ∈ all, g.id = p.id ∧ g.lat = p.lat ∧ g.elevation = p.elevation ∧ SameAngle p.lon g.lon := by
  refine ⟨_, _, fibonacci_some clip distance elevation n hn m hv, fibonacci_none clip distance elevation n hn, ?_, ?_⟩
  · set M := if m.maxLon = -180 then 180 else m.maxLon with hM
    refine ((clip.perm m _).map _).trans ?_
    rw [List.filter_map, List.filter_map, List.map_map, List.map_map, List.filter_filter]
    apply List.Perm.of_eq
    congr 1
    apply List.filter_congr
    intro i hi
    have hi' := List.mem_range.mp hi
    obtain ⟨a1, a2, -⟩ := fibLon_spec i
    rw [Bool.eq_iff_iff]
    simp only [Function.comp, Bool.and_eq_true, decide_eq_true_eq]
    constructor
    · rintro ⟨h1, -⟩
      obtain ⟨k, hk⟩ := shifted_sameAngle M i
      exact ⟨k, by rw [← hk]; exact h1⟩
    · rintro ⟨k, hk⟩
      obtain ⟨b1, b2, b3, b4⟩ := m.inBounds _ _ hk
      -- the position in the mask is the one the code tests
      have heq : fibLongitude i + 360 * k = shiftedLongitude M i := by
        have cast_le : ∀ {a b : ℤ}, (a : ℝ) < b + 1 → a ≤ b := by
          intro a b h
          have : a < b + 1 := by exact_mod_cast h
          omega
        rcases hm with ⟨h1, h2⟩ | ⟨h1, h2⟩
        · have hM180 : M ≤ 180 := by rw [hM]; split_ifs <;> linarith
          have hs : shiftedLongitude M i = fibLongitude i := by
            unfold shiftedLongitude; rw [if_neg (by rintro ⟨h, -⟩; linarith)]
          rw [hs]
          have hk1 : k ≤ 0 := cast_le (by push_cast; linarith)
          have hk2 : -1 ≤ k := cast_le (by push_cast; linarith)
          rcases (by omega : k = 0 ∨ k = -1) with rfl | rfl
          · push_cast; ring
          · exfalso
            push_cast at b1
            exact fibLon_half 0 (by push_cast; linarith)
        · by_cases h180 : m.maxLon ≤ 180
          · have hM180 : M ≤ 180 := by rw [hM]; split_ifs <;> linarith
            have hs : shiftedLongitude M i = fibLongitude i := by
              unfold shiftedLongitude; rw [if_neg (by rintro ⟨h, -⟩; linarith)]
            rw [hs]
            have hk1 : k ≤ 0 := cast_le (by push_cast; linarith)
            have hk2 : 0 ≤ k := cast_le (by push_cast; linarith)
            obtain rfl : k = 0 := by omega
            push_cast; ring
          · push Not at h180
            have hMe : M = m.maxLon := by rw [hM, if_neg (by linarith)]
            unfold shiftedLongitude
            split_ifs with hc
            · have hk1 : k ≤ 1 := cast_le (by push_cast; linarith)
              have hk2 : 1 ≤ k := by
                have : (0 : ℤ) < k := by
                  have : (0 : ℝ) < k := by linarith [hc.2]
                  exact_mod_cast this
                omega
              obtain rfl : k = 1 := by omega
              push_cast; ring
            · have hpos : 0 ≤ fibLongitude i := by
                by_contra hneg
                exact hc ⟨by rw [hMe]; exact h180, not_le.mp hneg⟩
              have hk1 : k < 1 := by
                have : (k : ℝ) < 1 := by linarith
                exact_mod_cast this
              have hk2 : 0 ≤ k := cast_le (by push_cast; linarith)
              obtain rfl : k = 0 := by omega
              push_cast; ring
      have hxM : fibLongitude i + 360 * k ≤ M := by
        rw [hM]; split_ifs with hc
        · linarith
        · exact b2
      rw [heq] at hk b1 hxM
      exact ⟨hk, ⟨b3, b4⟩, b1, hxM⟩
  · intro p hp
    rw [(clip.perm m _).mem_iff] at hp
    simp only [List.mem_filter, List.mem_map, decide_eq_true_eq, Bool.and_eq_true, List.mem_range] at hp
    obtain ⟨⟨i, ⟨hi, -⟩, rfl⟩, hc⟩ := hp
    refine ⟨hc, ⟨i, fibLongitude i, fibLatitude i n, elevation⟩, ?_, rfl, rfl, rfl, shifted_sameAngle _ i⟩
    simp only [List.mem_map, List.mem_range]
    exact ⟨i, hi, rfl⟩

/-- The rectangle of longitudes -60 to 190, all latitudes. -/
def wideMask : Mask where
  minLon := -60
  minLat := -90
  maxLon := 190
  maxLat := 90
  valid := true
  contains x y := -60 ≤ x ∧ x ≤ 190 ∧ -90 ≤ y ∧ y ≤ 90
  inBounds _ _ h := h

theorem fibLon_three : -60 ≤ fibLongitude 3 ∧ fibLongitude 3 < 0 := by
  have h5 : (2.236 : ℝ) < Real.sqrt 5 := Real.lt_sqrt_of_sq_lt (by norm_num)
  have h5' : Real.sqrt 5 < 2.237 := by rw [Real.sqrt_lt' (by norm_num)]; norm_num
  have hphi : (0 : ℝ) < (1 + Real.sqrt 5) / 2 := by linarith
  have hfl : ⌊360 * ((3 : ℕ) : ℝ) / ((1 + Real.sqrt 5) / 2) / 360⌋ = 1 := by
    rw [Int.floor_eq_iff]
    constructor
    · rw [le_div_iff₀ (by norm_num), le_div_iff₀ hphi]; push_cast; linarith
    · rw [div_lt_iff₀ (by norm_num), div_lt_iff₀ hphi]; push_cast; linarith
  have hlo : (660 : ℝ) < 360 * ((3 : ℕ) : ℝ) / ((1 + Real.sqrt 5) / 2) := by
    rw [lt_div_iff₀ hphi]; push_cast; linarith
  have hhi : 360 * ((3 : ℕ) : ℝ) / ((1 + Real.sqrt 5) / 2) < 700 := by
    rw [div_lt_iff₀ hphi]; push_cast; linarith
  have hmod : npMod (360 * ((3 : ℕ) : ℝ) / ((1 + Real.sqrt 5) / 2)) 360 =
      360 * ((3 : ℕ) : ℝ) / ((1 + Real.sqrt 5) / 2) - 360 := by
    unfold npMod; rw [hfl]; push_cast; ring
  unfold fibLongitude
  simp only [hmod]
  rw [if_pos (by linarith)]
  constructor <;> linarith

/-- C39 is false for a mask from longitude -60 to 190: point 3 of every lattice of at least four points is at a
longitude between -60 and 0, inside the mask, and is not returned. -/
theorem C39_mask_false (clip : Clip) (distance elevation : ℝ) (n : Nat) (hn : numberSamples distance = .ok n)
    (h4 : 4 ≤ n) :
    ∃ pts all g, fibonacciPoints clip distance elevation (some wideMask) = .ok pts ∧
      fibonacciPoints clip distance elevation none = .ok all ∧ g ∈ all ∧ wideMask.contains g.lon g.lat ∧
      g.id ∉ pts.map (·.id) := by
  obtain ⟨a1, a2⟩ := fibLon_three
  obtain ⟨l1, l2⟩ := fibLat_range (i := 3) (n := n) (by omega)
  refine ⟨_, _, ⟨3, fibLongitude 3, fibLatitude 3 n, elevation⟩,
    fibonacci_some clip distance elevation n hn wideMask rfl, fibonacci_none clip distance elevation n hn, ?_, ?_, ?_⟩
  · simp only [List.mem_map, List.mem_range]
    exact ⟨3, by omega, rfl⟩
  · exact ⟨a1, by show fibLongitude 3 ≤ 190; linarith, l1.le, l2.le⟩
  · intro hmem
    simp only [List.mem_map] at hmem
    obtain ⟨p, hp, hid⟩ := hmem
    rw [(clip.perm wideMask _).mem_iff] at hp
    simp only [List.mem_filter, List.mem_map, decide_eq_true_eq, Bool.and_eq_true, List.mem_range] at hp
    obtain ⟨⟨i, ⟨hi, -, hb⟩, rfl⟩, hc⟩ := hp
    have h3 : i = 3 := by
      have : (i : Int) = 3 := hid
      omega
    subst h3
    have hM : (if wideMask.maxLon = -180 then (180 : ℝ) else wideMask.maxLon) = 190 := by
      show (if (190 : ℝ) = -180 then (180 : ℝ) else 190) = 190
      norm_num
    rw [hM] at hb
    have hs : shiftedLongitude 190 3 = fibLongitude 3 + 360 := by
      unfold shiftedLongitude; rw [if_pos ⟨by norm_num, a2⟩]
    rw [hs] at hb
    linarith [hb.2]

/-- Lattices with at least four points exist: samples a thousand kilometres apart. -/
example : ∃ n, numberSamples 1000000 = .ok n ∧ 4 ≤ n := by
  have hR := meanRadius_gt
  have hpi := Real.pi_gt_three
  obtain ⟨n, hn, -, h2⟩ := C44_area 1000000 (by norm_num) (by nlinarith)
  refine ⟨n, hn, ?_⟩
  by_contra hlt
  have h4 : (n : ℝ) + 1 ≤ 4 := by
    have : n + 1 ≤ 4 := by omega
    exact_mod_cast this
  have hcos := Real.one_sub_sq_div_two_le_cos (x := 1000000 / 2 / meanRadius)
  have hx : (1000000 : ℝ) / 2 / meanRadius ≤ 1 / 12 := by rw [div_div, div_le_iff₀ (by positivity)]; linarith
  have hx0 : (0 : ℝ) ≤ 1000000 / 2 / meanRadius := by positivity
  have hcap : capArea meanRadius 1000000 ≤ 2 * Real.pi * meanRadius ^ 2 * (1 / 288) := by
    unfold capArea
    apply mul_le_mul_of_nonneg_left _ (by positivity)
    nlinarith
  have hlow := surface_lower
  have hsq : meanRadius ^ 2 ≤ equatorialRadius ^ 2 := pow_le_pow_left₀ (by linarith) meanRadius_le 2
  have hcap0 := cap_pos (d := 1000000) (by norm_num) (by nlinarith)
  have h6 : (n + 1 : ℝ) * capArea meanRadius 1000000 ≤ 4 * (2 * Real.pi * meanRadius ^ 2 * (1 / 288)) :=
    mul_le_mul h4 hcap hcap0.le (by norm_num)
  have h7 : 0 < Real.pi * meanRadius ^ 2 := by positivity
  nlinarith

end Tatc.Props
