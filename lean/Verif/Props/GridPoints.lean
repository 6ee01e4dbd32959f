import Verif.Lemmas.Generation
import Verif.Lemmas.ExceptList
import Verif.Props.Access
import Mathlib.Topology.Order.DenselyOrdered
import Mathlib.Topology.Instances.Real.Lemmas
import Mathlib.Data.List.Count

/-!
# C40 to C43 and C75: equally spaced points and cells
-/

namespace Tatc.Props
open Tatc.Num Tatc.Geometry Tatc.Generation
open scoped Classical

/-- The bounding box of the mask, or the globe: west, south, east, north. -/
def InBox (mask : Option Mask) (x y : ℝ) : Prop :=
  match mask with
  | none => -180 ≤ x ∧ x ≤ 180 ∧ -90 ≤ y ∧ y ≤ 90
  | some m => m.minLon ≤ x ∧ x ≤ m.maxLon ∧ m.minLat ≤ y ∧ y ≤ m.maxLat

/-- Strictly inside the bounding box. -/
def StrictlyInBox (mask : Option Mask) (x y : ℝ) : Prop :=
  match mask with
  | none => -180 < x ∧ x < 180 ∧ -90 < y ∧ y < 90
  | some m => m.minLon < x ∧ x < m.maxLon ∧ m.minLat < y ∧ y < m.maxLat

/-- In the mask, if there is one. -/
def InMask (mask : Option Mask) (x y : ℝ) : Prop :=
  match mask with
  | none => True
  | some m => m.contains x y

/-- A mask that is accepted. -/
def Acceptable (mask : Option Mask) : Prop := ∀ m, mask = some m → m.valid = true

/-- The centre of column `i` of a grid of this step from the date line, and of row `j` from the south pole. -/
noncomputable def centerLon (theta : ℝ) (i : ℤ) : ℝ := -180 + ((i : ℝ) + 1 / 2) * theta
noncomputable def centerLat (theta : ℝ) (j : ℤ) : ℝ := -90 + ((j : ℝ) + 1 / 2) * theta

theorem bounds_none : getBounds none = .ok (-180, -90, 180, 90) := by simp [getBounds]

theorem bounds_some {m : Mask} (hv : m.valid = true) :
    getBounds (some m) = .ok (m.minLon, m.minLat, (if m.maxLon = -180 then 180 else m.maxLon), m.maxLat) := by
  simp [getBounds, hv]

/-- The four bounds. -/
noncomputable def west (mask : Option Mask) : ℝ := match mask with | none => -180 | some m => m.minLon
noncomputable def south (mask : Option Mask) : ℝ := match mask with | none => -90 | some m => m.minLat
noncomputable def east (mask : Option Mask) : ℝ :=
  match mask with | none => 180 | some m => if m.maxLon = -180 then 180 else m.maxLon
noncomputable def north (mask : Option Mask) : ℝ := match mask with | none => 90 | some m => m.maxLat

theorem bounds_ok {mask : Option Mask} (hv : Acceptable mask) :
    getBounds mask = .ok (west mask, south mask, east mask, north mask) := by
  cases mask with
  | none => exact bounds_none
  | some m => exact bounds_some (hv m rfl)

/-- Columns and rows. -/
noncomputable def columns (theta : ℝ) (mask : Option Mask) : List Int :=
  pyRange (roundHalfEven ((west mask + 180) / theta)) (roundHalfEven ((east mask + 180) / theta))
noncomputable def rows (theta : ℝ) (mask : Option Mask) : List Int :=
  pyRange (roundHalfEven ((south mask + 90) / theta)) (roundHalfEven ((north mask + 90) / theta))

theorem indices_ok {a b : ℝ} {mask : Option Mask} (hv : Acceptable mask) :
    gridIndices a b mask none = .ok (product (rows b mask) (columns a mask)) := by
  unfold gridIndices
  simp only [bounds_ok hv, bind, Except.bind, pure, Except.pure]
  rfl

/-- The row of indices `(i, j)`. -/
noncomputable def gridRow (a b el : ℝ) (p : Int × Int) : PointRow :=
  ⟨pointId p.1 p.2 a b, -180 + ((p.1 : ℝ) + 0.5) * a, -90 + ((p.2 : ℝ) + 0.5) * b, el⟩

theorem grid_ok (clip : Clip) {a b el : ℝ} {mask : Option Mask} (hv : Acceptable mask) :
    ∃ pts, gridPoints' clip a b el mask = .ok pts ∧
      (mask = none → pts = (product (rows b mask) (columns a mask)).map (gridRow a b el)) ∧
      pts.Perm (((product (rows b mask) (columns a mask)).map (gridRow a b el)).filter
        fun r => decide (InMask mask r.lon r.lat)) := by
  unfold gridPoints'
  simp only [indices_ok hv, bind, Except.bind, pure, Except.pure]
  cases mask with
  | none =>
    refine ⟨_, rfl, fun _ => rfl, ?_⟩
    apply List.Perm.of_eq
    symm
    refine List.filter_eq_self.mpr ?_
    intro r _
    exact decide_eq_true trivial
  | some m => exact ⟨_, rfl, by simp, clip.perm m _⟩

theorem center_lon (a b el : ℝ) (p : Int × Int) : (gridRow a b el p).lon = centerLon a p.1 := by
  unfold gridRow centerLon; norm_num
theorem center_lat (a b el : ℝ) (p : Int × Int) : (gridRow a b el p).lat = centerLat b p.2 := by
  unfold gridRow centerLat; norm_num

theorem centerLon_inj {a : ℝ} (ha : 0 < a) {i j : ℤ} (h : centerLon a i = centerLon a j) : i = j := by
  unfold centerLon at h
  have : ((i : ℝ) + 1 / 2) = ((j : ℝ) + 1 / 2) := mul_right_cancel₀ ha.ne' (by linarith)
  have : (i : ℝ) = j := by linarith
  exact_mod_cast this
theorem centerLat_inj {a : ℝ} (ha : 0 < a) {i j : ℤ} (h : centerLat a i = centerLat a j) : i = j := by
  unfold centerLat at h
  have : ((i : ℝ) + 1 / 2) = ((j : ℝ) + 1 / 2) := mul_right_cancel₀ ha.ne' (by linarith)
  have : (i : ℝ) = j := by linarith
  exact_mod_cast this

theorem range_of_mem {x y a o : ℝ} (ha : 0 < a) {i : ℤ}
    (h : i ∈ pyRange (roundHalfEven ((x + o) / a)) (roundHalfEven ((y + o) / a))) :
    x ≤ -o + ((i : ℝ) + 1 / 2) * a ∧ -o + ((i : ℝ) + 1 / 2) * a ≤ y := by
  rw [mem_pyRange] at h
  have h1 := of_round_le h.1
  have h2 := of_lt_round h.2
  rw [div_le_iff₀ ha] at h1
  rw [le_div_iff₀ ha] at h2
  constructor <;> linarith

theorem mem_of_range {x y a o : ℝ} (ha : 0 < a) {i : ℤ} (h1 : x < -o + ((i : ℝ) + 1 / 2) * a)
    (h2 : -o + ((i : ℝ) + 1 / 2) * a < y) :
    i ∈ pyRange (roundHalfEven ((x + o) / a)) (roundHalfEven ((y + o) / a)) := by
  rw [mem_pyRange]
  constructor
  · apply round_le_of_lt
    rw [div_lt_iff₀ ha]; linarith
  · have := le_round_of_lt (x := (y + o) / a) (i := i) (by rw [lt_div_iff₀ ha]; linarith)
    omega

/-! ## C41 -/

/-- C41: the step of the grid is the angle the distance subtends on the mean sphere. -/
theorem C41_step (distance : ℝ) : gridStep distance * Real.pi / 180 * meanRadius = distance := by
  have hR := meanRadius_gt
  have hpi := Real.pi_pos
  unfold gridStep degrees
  field_simp

/-- C41: for all positive steps and every valid mask (or none), every point lies within the bounding box, in the
mask, at the given elevation and at a grid centre; and every grid centre strictly inside the box (and in the
mask) is generated exactly once. -/
theorem C41_points (clip : Clip) (a b el : ℝ) (ha : 0 < a) (hb : 0 < b) (mask : Option Mask) (hv : Acceptable mask) :
    ∃ pts, gridPoints' clip a b el mask = .ok pts ∧
      (∀ p ∈ pts, InBox mask p.lon p.lat ∧ InMask mask p.lon p.lat ∧ p.elevation = el ∧
        ∃ i j : ℤ, p.lon = centerLon a i ∧ p.lat = centerLat b j) ∧
      (∀ i j : ℤ, StrictlyInBox mask (centerLon a i) (centerLat b j) → InMask mask (centerLon a i) (centerLat b j) →
        pts.countP (fun p => decide (p.lon = centerLon a i ∧ p.lat = centerLat b j)) = 1) := by
  obtain ⟨pts, hok, -, hperm⟩ := grid_ok clip (a := a) (b := b) (el := el) hv
  refine ⟨pts, hok, ?_, ?_⟩
  · intro p hp
    rw [hperm.mem_iff, List.mem_filter, List.mem_map, decide_eq_true_eq] at hp
    obtain ⟨⟨q, hq, rfl⟩, hm⟩ := hp
    rw [mem_product] at hq
    refine ⟨?_, hm, rfl, q.1, q.2, center_lon .., center_lat ..⟩
    have h1 := range_of_mem ha hq.1
    have h2 := range_of_mem hb hq.2
    rw [center_lon, center_lat] at hm ⊢
    cases mask with
    | none => exact ⟨h1.1, h1.2, h2.1, h2.2⟩
    | some m => exact m.inBounds _ _ hm
  · intro i j hs hm
    rw [hperm.countP_eq, List.countP_filter]
    rw [List.countP_map]
    have hnd : (product (rows b mask) (columns a mask)).Nodup := nodup_product (nodup_pyRange _ _) (nodup_pyRange _ _)
    have hmem : (i, j) ∈ product (rows b mask) (columns a mask) := by
      rw [mem_product]
      have hE : (∀ m, mask = some m → True) := fun _ _ => trivial
      constructor
      · apply mem_of_range ha
        · cases mask with
          | none => exact hs.1
          | some m => exact hs.1
        · cases mask with
          | none => exact hs.2.1
          | some m =>
            have h := hs.2.1
            show _ < (if m.maxLon = -180 then (180 : ℝ) else m.maxLon)
            unfold centerLon at h
            split_ifs with hc
            · rw [hc] at h; linarith
            · exact h
      · apply mem_of_range hb
        · cases mask with
          | none => exact hs.2.2.1
          | some m => exact hs.2.2.1
        · cases mask with
          | none => exact hs.2.2.2
          | some m => exact hs.2.2.2
    have hc := List.count_eq_one_of_mem hnd hmem
    rw [List.count] at hc
    rw [← hc]
    apply List.countP_congr
    intro q _
    simp only [Function.comp, center_lon, center_lat, Bool.and_eq_true, decide_eq_true_eq, beq_iff_eq]
    constructor
    · rintro ⟨⟨h1, h2⟩, -⟩
      exact Prod.ext (centerLon_inj ha h1) (centerLat_inj hb h2)
    · rintro rfl
      exact ⟨⟨rfl, rfl⟩, hm⟩

/-- Grid centres strictly inside the globe exist: step 10, column 3, row 4. -/
example : StrictlyInBox none (centerLon 10 3) (centerLat 10 4) := by
  unfold StrictlyInBox centerLon centerLat; norm_num

/-! ## C42 -/

/-- A mask that does not reach beyond the globe. -/
def WithinGlobe (m : Mask) : Prop := -180 ≤ m.minLon ∧ m.maxLon ≤ 180 ∧ -90 ≤ m.minLat ∧ m.maxLat ≤ 90

theorem masked_indices {a b : ℝ} (ha : 0 < a) (hb : 0 < b) {m : Mask} (hg : WithinGlobe m) :
    product (rows b (some m)) (columns a (some m)) =
      (product (rows b none) (columns a none)).filter (fun q =>
        decide (roundHalfEven ((west (some m) + 180) / a) ≤ q.1 ∧ q.1 < roundHalfEven ((east (some m) + 180) / a)) &&
        decide (roundHalfEven ((south (some m) + 90) / b) ≤ q.2 ∧ q.2 < roundHalfEven ((north (some m) + 90) / b))) := by
  obtain ⟨g1, g2, g3, g4⟩ := hg
  rw [filter_product (rows b none) (columns a none)
    (fun i => decide (roundHalfEven ((west (some m) + 180) / a) ≤ i ∧ i < roundHalfEven ((east (some m) + 180) / a)))
    (fun j => decide (roundHalfEven ((south (some m) + 90) / b) ≤ j ∧ j < roundHalfEven ((north (some m) + 90) / b)))]
  have hE : east (some m) ≤ 180 := by unfold east; simp only; split_ifs <;> linarith
  congr 1
  · unfold rows
    rw [pyRange_filter]
    · apply round_mono; apply div_le_div_of_nonneg_right _ hb.le
      show (-90 : ℝ) + 90 ≤ m.minLat + 90; linarith
    · apply round_mono; apply div_le_div_of_nonneg_right _ hb.le
      show m.maxLat + 90 ≤ (90 : ℝ) + 90; linarith
  · unfold columns
    rw [pyRange_filter]
    · apply round_mono; apply div_le_div_of_nonneg_right _ ha.le
      show (-180 : ℝ) + 180 ≤ m.minLon + 180; linarith
    · apply round_mono; apply div_le_div_of_nonneg_right _ ha.le
      show east (some m) + 180 ≤ (180 : ℝ) + 180; linarith

/-- C42, nothing foreign: every point of the masked grid is a point of the global grid inside the mask, with the
same identifier, and none occurs more often. -/
theorem C42_mask_sound (clip : Clip) (a b el : ℝ) (ha : 0 < a) (hb : 0 < b) (m : Mask) (hv : m.valid = true)
    (hg : WithinGlobe m) : ∃ pts all, gridPoints' clip a b el (some m) = .ok pts ∧
      gridPoints' clip a b el none = .ok all ∧
      pts.Subperm (all.filter fun g => decide (m.contains g.lon g.lat)) := by
  obtain ⟨pts, hok, -, hperm⟩ := grid_ok clip (a := a) (b := b) (el := el) (mask := some m)
    (by intro m' h; injection h with h; rw [← h]; exact hv)
  obtain ⟨all, hok2, hall, -⟩ := grid_ok clip (a := a) (b := b) (el := el) (mask := none) (by intro m' h; cases h)
  refine ⟨pts, all, hok, hok2, ?_⟩
  rw [hall rfl]
  refine hperm.subperm.trans ?_
  rw [masked_indices ha hb hg]
  apply List.Sublist.subperm
  exact ((List.filter_sublist).map _).filter _

/-- C42, full statement: the masked grid is exactly the part of the global grid inside the mask.  Proved (`_partial`)
when no grid centre of the mask lies on a side of its bounding box; there the rounding may lose it.  The order is
that of the clipping operation, which does not promise to keep the order of rows. -/
theorem C42_mask_partial (clip : Clip) (a b el : ℝ) (ha : 0 < a) (hb : 0 < b) (m : Mask) (hv : m.valid = true)
    (hg : WithinGlobe m)
    (hside : ∀ i j : ℤ, m.contains (centerLon a i) (centerLat b j) →
      StrictlyInBox (some m) (centerLon a i) (centerLat b j)) :
    ∃ pts all, gridPoints' clip a b el (some m) = .ok pts ∧
      gridPoints' clip a b el none = .ok all ∧
      pts.Perm (all.filter fun g => decide (m.contains g.lon g.lat)) := by
  obtain ⟨pts, hok, -, hperm⟩ := grid_ok clip (a := a) (b := b) (el := el) (mask := some m)
    (by intro m' h; injection h with h; rw [← h]; exact hv)
  obtain ⟨all, hok2, hall, -⟩ := grid_ok clip (a := a) (b := b) (el := el) (mask := none) (by intro m' h; cases h)
  refine ⟨pts, all, hok, hok2, ?_⟩
  rw [hall rfl]
  refine hperm.trans ?_
  rw [masked_indices ha hb hg, List.filter_map, List.filter_map, List.filter_filter]
  apply List.Perm.of_eq
  congr 1
  apply List.filter_congr
  intro q _
  rw [Bool.eq_iff_iff]
  simp only [Function.comp, center_lon, center_lat, InMask, Bool.and_eq_true, decide_eq_true_eq]
  constructor
  · rintro ⟨h, -⟩; exact h
  · intro h
    refine ⟨h, ?_⟩
    obtain ⟨s1, s2, s3, s4⟩ := hside _ _ h
    have e1 := mem_of_range (x := west (some m)) (y := east (some m)) (o := 180) ha (i := q.1) s1 (by
      unfold centerLon at s2 s1
      show _ < (if m.maxLon = -180 then (180 : ℝ) else m.maxLon)
      split_ifs with hc
      · have := hg.1; rw [hc] at s2; linarith
      · exact s2)
    have e2 := mem_of_range (x := south (some m)) (y := north (some m)) (o := 90) hb (i := q.2) s3 s4
    exact ⟨mem_pyRange.mp e1, mem_pyRange.mp e2⟩

/-- The rectangle from longitude -165, east of which lies column 1 of a grid of step 10. -/
def sideMask : Mask where
  minLon := -165
  minLat := -90
  maxLon := 180
  maxLat := 90
  valid := true
  contains x y := -165 ≤ x ∧ x ≤ 180 ∧ -90 ≤ y ∧ y ≤ 90
  inBounds _ _ h := h

/-- C42 is false on the side of a mask: with a step of 10 degrees the points at longitude -165 lie in the mask
whose western side is -165, but the rounding of 1.5 to 2 leaves them out. -/
theorem C42_mask_false (clip : Clip) (el : ℝ) : ∃ pts all g, gridPoints' clip 10 10 el (some sideMask) = .ok pts ∧
    gridPoints' clip 10 10 el none = .ok all ∧ g ∈ all ∧ sideMask.contains g.lon g.lat ∧ g ∉ pts := by
  obtain ⟨pts, hok, -, hperm⟩ := grid_ok clip (a := 10) (b := 10) (el := el) (mask := some sideMask)
    (by intro m' h; injection h with h; rw [← h]; rfl)
  obtain ⟨all, hok2, hall, -⟩ := grid_ok clip (a := 10) (b := 10) (el := el) (mask := none) (by intro m' h; cases h)
  have h15 : roundHalfEven ((west (some sideMask) + 180) / 10) = 2 := by
    show roundHalfEven (((-165 : ℝ) + 180) / 10) = 2
    have hf : ⌊((-165 : ℝ) + 180) / 10⌋ = 1 := by rw [Int.floor_eq_iff]; norm_num
    unfold roundHalfEven
    simp only [hf]
    norm_num
  refine ⟨pts, all, gridRow 10 10 el (1, 0), hok, hok2, ?_, ?_, ?_⟩
  · rw [hall rfl]
    apply List.mem_map_of_mem
    rw [mem_product]
    constructor
    · apply mem_of_range (by norm_num)
      · show (-180 : ℝ) < _; norm_num
      · show _ < (180 : ℝ); norm_num
    · apply mem_of_range (by norm_num)
      · show (-90 : ℝ) < _; norm_num
      · show _ < (90 : ℝ); norm_num
  · rw [center_lon, center_lat]
    show -165 ≤ _ ∧ _ ∧ _ ∧ _
    unfold centerLon centerLat
    norm_num
  · intro hmem
    rw [hperm.mem_iff, List.mem_filter, List.mem_map] at hmem
    obtain ⟨⟨q, hq, he⟩, -⟩ := hmem
    have hlon : centerLon 10 q.1 = centerLon 10 1 := by rw [← center_lon 10 10 el q, he, center_lon]
    have hq1 := centerLon_inj (by norm_num) hlon
    rw [mem_product] at hq
    have := (mem_pyRange.mp hq.1).1
    rw [h15] at this
    omega

/-- The hypotheses of C42 are met: the mask from longitude -160 to 180 and latitude -90 to 90 has no centre of a grid
of step 20 degrees on a side. -/
example : ∃ m : Mask, m.valid = true ∧ WithinGlobe m ∧ (∃ x y, m.contains x y) ∧
    ∀ i j : ℤ, m.contains (centerLon 20 i) (centerLat 20 j) → StrictlyInBox (some m) (centerLon 20 i) (centerLat 20 j) := by
  refine ⟨⟨-160, -80, 180, 80, true, fun x y => -160 ≤ x ∧ x ≤ 180 ∧ -79 ≤ y ∧ y ≤ 79, ?_⟩, rfl, ?_, ⟨0, 0, by norm_num⟩, ?_⟩
  · rintro x y ⟨h1, h2, h3, h4⟩; refine ⟨h1, h2, by linarith, by linarith⟩
  · unfold WithinGlobe; norm_num
  · rintro i j ⟨h1, h2, h3, h4⟩
    unfold StrictlyInBox
    refine ⟨lt_of_le_of_ne h1 ?_, lt_of_le_of_ne h2 ?_, by show (-80 : ℝ) < _; linarith, by show _ < (80 : ℝ); linarith⟩
    · show (-160 : ℝ) ≠ _
      intro h
      unfold centerLon at h
      have : ((2 * i + 1 : ℤ) : ℝ) = ((2 : ℤ) : ℝ) := by push_cast; linarith
      have : 2 * i + 1 = 2 := by exact_mod_cast this
      omega
    · show _ ≠ (180 : ℝ)
      intro h
      unfold centerLon at h
      have : ((2 * i + 1 : ℤ) : ℝ) = ((36 : ℤ) : ℝ) := by push_cast; linarith
      have : 2 * i + 1 = 36 := by exact_mod_cast this
      omega

/-! ## C40 -/

theorem pyInt_floor {x : ℝ} (h : 0 ≤ x) : pyInt x = ⌊x⌋ := by unfold pyInt; rw [if_pos h]

/-- Identifiers determine indices within a window of columns no wider than a full turn. -/
theorem pointId_inj {t : ℝ} (N : ℤ) (hN : pyInt (360 / t) = N) (hN0 : 0 < N) {i i' j j' lo : ℤ} (h1 : lo ≤ i) (h2 : i < lo + N)
    (h3 : lo ≤ i') (h4 : i' < lo + N) (h : pointId i j t t = pointId i' j' t t) : i = i' ∧ j = j' := by
  unfold pointId at h
  rw [hN] at h
  have m1 := Int.emod_nonneg i hN0.ne'
  have m2 := Int.emod_lt_of_pos i hN0
  have m3 := Int.emod_nonneg i' hN0.ne'
  have m4 := Int.emod_lt_of_pos i' hN0
  have hj : j = j' := by
    have e1 : (j * N + i % N) / N = j := by
      rw [add_comm, Int.add_mul_ediv_right _ _ hN0.ne', Int.ediv_eq_zero_of_lt m1 m2, zero_add]
    have e2 : (j' * N + i' % N) / N = j' := by
      rw [add_comm, Int.add_mul_ediv_right _ _ hN0.ne', Int.ediv_eq_zero_of_lt m3 m4, zero_add]
    rw [← e1, ← e2, h]
  refine ⟨?_, hj⟩
  subst hj
  have hmod : i % N = i' % N := by omega
  have hd := Int.emod_emod_of_dvd (i - i') (dvd_refl N)
  have h0 : (i - i') % N = 0 := by rw [Int.sub_emod, hmod, sub_self, Int.zero_emod]
  obtain ⟨c, hc⟩ := Int.dvd_of_emod_eq_zero h0
  have hc0 : c = 0 := by
    by_contra hne
    rcases lt_or_gt_of_ne hne with hneg | hpos
    · have : c ≤ -1 := by omega
      nlinarith
    · have : 1 ≤ c := by omega
      nlinarith
  rw [hc0] at hc
  omega

theorem turn_pos {t : ℝ} (ht : 0 < t) (ht2 : t ≤ 360) : 0 < ⌊360 / t⌋ := by
  have : (1 : ℝ) ≤ 360 / t := by rw [le_div_iff₀ ht]; linarith
  have : 1 ≤ ⌊360 / t⌋ := Int.le_floor.mpr (by exact_mod_cast this)
  omega

/-- The longitudes span few enough whole steps: without a mask, 360 degrees less than half a step above a whole
number of steps (or just half a step above an even number), otherwise a mask at least one step narrower than a
full turn of whole steps. -/
def NarrowEnough (t : ℝ) (mask : Option Mask) : Prop :=
  match mask with
  | none => Int.fract (360 / t) < 1 / 2 ∨ (Int.fract (360 / t) = 1 / 2 ∧ Even ⌊360 / t⌋)
  | some m => (if m.maxLon = -180 then 180 else m.maxLon) - m.minLon ≤ (⌊360 / t⌋ - 1) * t

/-- The number of columns of the global grid is the number of whole steps exactly when it is narrow enough. -/
theorem global_columns (t : ℝ) : NarrowEnough t none ↔ roundHalfEven (360 / t) = ⌊360 / t⌋ := by
  have h1 := Int.floor_le (360 / t)
  have h2 := Int.lt_floor_add_one (360 / t)
  show (Int.fract (360 / t) < 1 / 2 ∨ _) ↔ _
  rw [Int.fract, Int.even_iff]
  unfold roundHalfEven
  simp only
  split_ifs with c1 c2 c3
  · exact ⟨fun _ => rfl, fun _ => Or.inl c1⟩
  · simp only [not_lt] at c1
    constructor
    · rintro (h | h)
      · linarith
      · linarith [h.1]
    · intro h; omega
  · have : 360 / t - ⌊360 / t⌋ = 1 / 2 := le_antisymm (not_lt.mp c2) (not_lt.mp c1)
    simp [this, c3]
  · have : 360 / t - ⌊360 / t⌋ = 1 / 2 := le_antisymm (not_lt.mp c2) (not_lt.mp c1)
    simp [this, c3]

theorem columns_window {t : ℝ} (ht : 0 < t) (mask : Option Mask) (hn : NarrowEnough t mask) {i : Int}
    (hi : i ∈ columns t mask) : roundHalfEven ((west mask + 180) / t) ≤ i ∧
      i < roundHalfEven ((west mask + 180) / t) + ⌊360 / t⌋ := by
  unfold columns at hi
  rw [mem_pyRange] at hi
  refine ⟨hi.1, lt_of_lt_of_le hi.2 ?_⟩
  cases mask with
  | none =>
    have h1 : roundHalfEven ((west none + 180) / t) = 0 := by
      have : (west none + 180) / t = ((0 : ℤ) : ℝ) := by unfold west; norm_num
      rw [this, round_intCast]
    have h2 : roundHalfEven ((east none + 180) / t) ≤ ⌊360 / t⌋ := by
      have : (east none + 180) / t = 360 / t := by unfold east; norm_num
      rw [this, (global_columns t).mp hn]
    omega
  | some m =>
    have hn' : east (some m) - west (some m) ≤ (⌊360 / t⌋ - 1) * t := hn
    have h1 := abs_le.mp (round_close ((west (some m) + 180) / t))
    have h2 := abs_le.mp (round_close ((east (some m) + 180) / t))
    have h3 : (east (some m) + 180) / t ≤ (west (some m) + 180) / t + (⌊360 / t⌋ - 1) := by
      rw [div_le_iff₀ ht, add_mul, div_mul_cancel₀ _ ht.ne']
      linarith
    have h4 : (roundHalfEven ((east (some m) + 180) / t) : ℝ) ≤
        roundHalfEven ((west (some m) + 180) / t) + ⌊360 / t⌋ := by linarith [h1.1, h2.2]
    exact_mod_cast h4

/-- C40, full statement: for every distance and mask.  Proved (`_partial`) for steps up to 360 degrees when the
longitudes span few enough whole steps; false otherwise. -/
theorem C40_points_partial (clip : Clip) (distance el : ℝ) (h0 : 0 < gridStep distance) (h1 : gridStep distance ≤ 360)
    (mask : Option Mask) (hv : Acceptable mask) (hn : NarrowEnough (gridStep distance) mask) :
    ∃ pts, gridPoints clip distance el mask = .ok pts ∧ (pts.map (·.id)).Nodup := by
  unfold gridPoints
  set t := gridStep distance
  obtain ⟨pts, hok, -, hperm⟩ := grid_ok clip (a := t) (b := t) (el := el) hv
  refine ⟨pts, hok, ?_⟩
  rw [(hperm.map _).nodup_iff]
  refine List.Nodup.sublist ((List.filter_sublist).map _) ?_
  rw [List.map_map]
  refine List.Nodup.map_on ?_ (nodup_product (nodup_pyRange _ _) (nodup_pyRange _ _))
  intro p hp q hq h
  rw [mem_product] at hp hq
  have wp := columns_window h0 mask hn hp.1
  have wq := columns_window h0 mask hn hq.1
  have hN0 := turn_pos h0 h1
  obtain ⟨e1, e2⟩ := pointId_inj ⌊360 / t⌋ (pyInt_floor (by positivity)) hN0 wp.1 wp.2 wq.1 wq.2 h
  exact Prod.ext e1 e2

/-- C40 is false whenever the condition fails without a mask (360 degrees more than half a step above a whole number
of steps): the last column then has the identifiers of the first. -/
theorem C40_points_false (clip : Clip) (distance el : ℝ) (h0 : 0 < gridStep distance) (h1 : gridStep distance < 360)
    (hf : ¬ NarrowEnough (gridStep distance) none) :
    ∃ pts p q, gridPoints clip distance el none = .ok pts ∧ p ∈ pts ∧ q ∈ pts ∧ p.id = q.id ∧ p.lon ≠ q.lon := by
  unfold gridPoints
  set t := gridStep distance
  obtain ⟨pts, hok, hall, -⟩ := grid_ok clip (a := t) (b := t) (el := el) (mask := none) (by intro m h; cases h)
  have hN0 := turn_pos h0 h1.le
  have hfl := Int.floor_le (360 / t)
  have hlt := Int.lt_floor_add_one (360 / t)
  rw [global_columns] at hf
  have hround : ⌊360 / t⌋ < roundHalfEven (360 / t) := by
    have : ⌊360 / t⌋ ≤ roundHalfEven (360 / t) := by
      unfold roundHalfEven; simp only; split_ifs <;> omega
    omega
  have hrow : (0 : ℤ) ∈ rows t none := by
    apply mem_of_range h0
    · show (-90 : ℝ) < -90 + _; push_cast; linarith
    · show -90 + _ < (90 : ℝ); push_cast; linarith
  have hw : (west none + 180) / t = ((0 : ℤ) : ℝ) := by unfold west; norm_num
  have he : (east none + 180) / t = 360 / t := by unfold east; norm_num
  have hc0 : (0 : ℤ) ∈ columns t none := by
    unfold columns
    rw [hw, he, round_intCast, mem_pyRange]
    omega
  have hcN : ⌊360 / t⌋ ∈ columns t none := by
    unfold columns
    rw [hw, he, round_intCast, mem_pyRange]
    omega
  refine ⟨pts, gridRow t t el (0, 0), gridRow t t el (⌊360 / t⌋, 0), hok, ?_, ?_, ?_, ?_⟩
  · rw [hall rfl]; exact List.mem_map_of_mem (mem_product.mpr ⟨hc0, hrow⟩)
  · rw [hall rfl]; exact List.mem_map_of_mem (mem_product.mpr ⟨hcN, hrow⟩)
  · show pointId 0 0 t t = pointId ⌊360 / t⌋ 0 t t
    unfold pointId
    rw [pyInt_floor (by positivity)]
    simp
  · rw [center_lon, center_lon]
    intro h
    have := centerLon_inj h0 h
    simp only at this
    omega

/-- A distance of 100 degrees: 3.6 steps to a turn, so that the fourth column repeats the first. -/
example : ∃ d, 0 < gridStep d ∧ gridStep d < 360 ∧ ¬ NarrowEnough (gridStep d) none := by
  have hR := meanRadius_gt
  have hpi := Real.pi_pos
  refine ⟨100 * Real.pi / 180 * meanRadius, ?_⟩
  have : gridStep (100 * Real.pi / 180 * meanRadius) = 100 := by unfold gridStep degrees; field_simp
  rw [this]
  refine ⟨by norm_num, by norm_num, ?_⟩
  have hf : ⌊(360 : ℝ) / 100⌋ = 3 := by rw [Int.floor_eq_iff]; norm_num
  show ¬ (_ ∨ _)
  rw [Int.fract, hf]
  norm_num

/-! ## Cells -/

/-- The rectangle of indices `(i, j)`. -/
noncomputable def cellRect (t : ℝ) (p : Int × Int) : Set (ℝ × ℝ) :=
  rectangle (-180 + (p.1 : ℝ) * t) (-180 + ((p.1 : ℝ) + 1) * t) (-90 + (p.2 : ℝ) * t) (-90 + ((p.2 : ℝ) + 1) * t)

theorem cells_ok (clip : CellClip) {t el : ℝ} {mask : Option Mask} (hv : Acceptable mask) :
    ∃ cells, gridCells' clip t t el mask none = .ok cells ∧
      (mask = none → cells = (product (rows t mask) (columns t mask)).map
        fun p => ⟨pointId p.1 p.2 t t, cellRect t p, el⟩) ∧
      (∀ m, mask = some m → cells.Perm
        (((product (rows t mask) (columns t mask)).filter fun p => decide (∃ x ∈ cellRect t p, m.contains x.1 x.2)).map
          fun p => ⟨pointId p.1 p.2 t t, convexHull ℝ {x ∈ cellRect t p | m.contains x.1 x.2}, el⟩)) := by
  unfold gridCells'
  simp only [indices_ok hv, bounds_ok hv, bind, Except.bind, pure, Except.pure]
  cases mask with
  | none =>
    refine ⟨_, rfl, fun _ => ?_, by simp⟩
    apply List.map_congr_left
    rintro ⟨i, j⟩ _
    simp [cellRect]
  | some m =>
    refine ⟨_, rfl, by simp, ?_⟩
    intro m' hm'
    obtain rfl : m = m' := by injection hm'
    refine ((clip.perm m _).map _).trans ?_
    rw [List.filter_map, List.map_map, List.map_map]
    apply List.Perm.of_eq
    have h1 : ∀ p : Int × Int, rectangle
        (if (none : Option Strips) = some .lat then west (some m) else -180 + (p.1 : ℝ) * t)
        (if (none : Option Strips) = some .lat then east (some m) else -180 + ((p.1 : ℝ) + 1) * t)
        (if (none : Option Strips) = some .lon then south (some m) else -90 + (p.2 : ℝ) * t)
        (if (none : Option Strips) = some .lon then north (some m) else -90 + ((p.2 : ℝ) + 1) * t) = cellRect t p := by
      intro p; simp [cellRect]
    simp only [Function.comp_def, h1]

/-- C40 for cells: identifiers are unique under the same condition. -/
theorem C40_cells_partial (clip : CellClip) (distance el : ℝ) (h0 : 0 < gridStep distance) (h1 : gridStep distance ≤ 360)
    (mask : Option Mask) (hv : Acceptable mask) (hn : NarrowEnough (gridStep distance) mask) :
    ∃ cells, gridCells clip distance el mask none = .ok cells ∧ (cells.map (·.id)).Nodup := by
  unfold gridCells
  set t := gridStep distance
  obtain ⟨cells, hok, hnone, hsome⟩ := cells_ok clip (t := t) (el := el) hv
  refine ⟨cells, hok, ?_⟩
  have base : ((product (rows t mask) (columns t mask)).map fun p => pointId p.1 p.2 t t).Nodup := by
    refine List.Nodup.map_on ?_ (nodup_product (nodup_pyRange _ _) (nodup_pyRange _ _))
    intro p hp q hq h
    rw [mem_product] at hp hq
    have wp := columns_window h0 mask hn hp.1
    have wq := columns_window h0 mask hn hq.1
    obtain ⟨e1, e2⟩ := pointId_inj ⌊360 / t⌋ (pyInt_floor (by positivity)) (turn_pos h0 h1) wp.1 wp.2 wq.1 wq.2 h
    exact Prod.ext e1 e2
  cases mask with
  | none => rw [hnone rfl, List.map_map]; exact base
  | some m =>
    rw [((hsome m rfl).map _).nodup_iff, List.map_map]
    exact base.sublist ((List.filter_sublist).map _)

/-- C40 for strips of cells: identifiers of strips along parallels are always unique, of strips along meridians
under the same condition. -/
theorem C40_strips_partial (clip : CellClip) (distance el : ℝ) (h0 : 0 < gridStep distance) (h1 : gridStep distance ≤ 360)
    (mask : Option Mask) (hv : Acceptable mask) (strips : Strips)
    (hn : strips = .lon → NarrowEnough (gridStep distance) mask) :
    ∃ cells, gridCells clip distance el mask (some strips) = .ok cells ∧ (cells.map (·.id)).Nodup := by
  unfold gridCells
  set t := gridStep distance
  have hN := turn_pos h0 h1
  have key : ∀ idx : List (Int × Int), idx.Nodup → (∀ p ∈ idx, ∀ q ∈ idx, pointId p.1 p.2 t t = pointId q.1 q.2 t t → p = q) →
      gridIndices t t mask (some strips) = .ok idx →
      ∃ cells, gridCells' clip t t el mask (some strips) = .ok cells ∧ (cells.map (·.id)).Nodup := by
    intro idx hnd hinj hidx
    have base : (idx.map fun p => pointId p.1 p.2 t t).Nodup := List.Nodup.map_on (fun p hp q hq h => hinj p hp q hq h) hnd
    unfold gridCells'
    simp only [hidx, bounds_ok hv, bind, Except.bind, pure, Except.pure]
    cases mask with
    | none => exact ⟨_, rfl, by rw [List.map_map]; exact base⟩
    | some m =>
      refine ⟨_, rfl, ?_⟩
      rw [List.map_map]
      refine (((clip.perm m _).map _).nodup_iff).mpr ?_
      rw [List.map_map, List.filter_map, List.map_map]
      exact base.sublist ((List.filter_sublist).map _)
  cases strips with
  | lat =>
    refine key ((rows t mask).map fun j => (0, j)) ?_ ?_ ?_
    · exact (nodup_pyRange _ _).map (by intro a b h; simpa using h)
    · intro p hp q hq h
      rw [List.mem_map] at hp hq
      obtain ⟨j, -, rfl⟩ := hp
      obtain ⟨j', -, rfl⟩ := hq
      have := pointId_inj ⌊360 / t⌋ (pyInt_floor (by positivity)) hN (lo := 0) le_rfl (by omega) le_rfl (by omega) h
      exact Prod.ext rfl this.2
    · unfold gridIndices
      simp only [bounds_ok hv, bind, Except.bind, pure, Except.pure]
      rfl
  | lon =>
    refine key ((columns t mask).map fun i => (i, 0)) ?_ ?_ ?_
    · exact (nodup_pyRange _ _).map (by intro a b h; simpa using h)
    · intro p hp q hq h
      rw [List.mem_map] at hp hq
      obtain ⟨i, hi, rfl⟩ := hp
      obtain ⟨i', hi', rfl⟩ := hq
      have wp := columns_window h0 mask (hn rfl) hi
      have wq := columns_window h0 mask (hn rfl) hi'
      have := pointId_inj ⌊360 / t⌋ (pyInt_floor (by positivity)) hN wp.1 wp.2 wq.1 wq.2 h
      exact Prod.ext this.1 rfl
    · unfold gridIndices
      simp only [bounds_ok hv, bind, Except.bind, pure, Except.pure]
      rfl

/-- C43: without a mask, points and cells of the same distance carry the same identifiers in the same order; every
point lies inside the cell in its place and in no other; the interiors of two cells do not meet. -/
theorem C43_cells (clip : Clip) (cellClip : CellClip) (distance el : ℝ) (h0 : 0 < gridStep distance) :
    ∃ pts cells, gridPoints clip distance el none = .ok pts ∧ gridCells cellClip distance el none none = .ok cells ∧
      pts.map (·.id) = cells.map (·.id) ∧
      ∀ k l, (hk : k < pts.length) → (hl : l < cells.length) →
        ((pts[k].lon, pts[k].lat) ∈ cells[l].shape ↔ k = l) ∧
        (k = l → (pts[k].lon, pts[k].lat) ∈ interior cells[l].shape) ∧
        (∀ hk' : k < cells.length, k ≠ l → Disjoint (interior cells[k].shape) (interior cells[l].shape)) := by
  unfold gridPoints gridCells
  set t := gridStep distance
  obtain ⟨pts, hok, hall, -⟩ := grid_ok clip (a := t) (b := t) (el := el) (mask := none) (by intro m h; cases h)
  obtain ⟨cells, hok2, hnone, -⟩ := cells_ok cellClip (t := t) (el := el) (mask := none) (by intro m h; cases h)
  have hpts := hall rfl
  have hcells := hnone rfl
  refine ⟨pts, cells, hok, hok2, ?_, ?_⟩
  · rw [hpts, hcells, List.map_map, List.map_map]; rfl
  · subst hpts hcells
    intro k l hk hl
    simp only [List.length_map] at hk hl
    set idx := product (rows t none) (columns t none) with hidx
    have hnd : idx.Nodup := nodup_product (nodup_pyRange _ _) (nodup_pyRange _ _)
    simp only [List.getElem_map, center_lon, center_lat]
    have hint : ∀ p : Int × Int, interior (cellRect t p) =
        Set.Ioo (-180 + (p.1 : ℝ) * t) (-180 + ((p.1 : ℝ) + 1) * t) ×ˢ
          Set.Ioo (-90 + (p.2 : ℝ) * t) (-90 + ((p.2 : ℝ) + 1) * t) := by
      intro p
      have : cellRect t p = Set.Icc (-180 + (p.1 : ℝ) * t) (-180 + ((p.1 : ℝ) + 1) * t) ×ˢ
          Set.Icc (-90 + (p.2 : ℝ) * t) (-90 + ((p.2 : ℝ) + 1) * t) := by
        ext x
        simp only [cellRect, rectangle, Set.mem_ofPred_eq, Set.mem_prod, Set.mem_Icc]
        tauto
      rw [this, interior_prod_eq, interior_Icc, interior_Icc]
    -- an open or closed unit interval contains a half-integer only at its own index
    have half : ∀ i j : ℤ, ∀ o : ℝ, o + (j : ℝ) * t ≤ o + ((i : ℝ) + 1 / 2) * t →
        o + ((i : ℝ) + 1 / 2) * t ≤ o + ((j : ℝ) + 1) * t → i = j := by
      intro i j o g1 g2
      have g1' : (j : ℝ) ≤ (i : ℝ) + 1 / 2 := le_of_mul_le_mul_right (by linarith) h0
      have g2' : (i : ℝ) + 1 / 2 ≤ (j : ℝ) + 1 := le_of_mul_le_mul_right (by linarith) h0
      have a1 : (j : ℝ) < ((i + 1 : ℤ) : ℝ) := by push_cast; linarith
      have a2 : (i : ℝ) < ((j + 1 : ℤ) : ℝ) := by push_cast; linarith
      have b1 : j < i + 1 := by exact_mod_cast a1
      have b2 : i < j + 1 := by exact_mod_cast a2
      omega
    have inside : ∀ p : Int × Int, (centerLon t p.1, centerLat t p.2) ∈ interior (cellRect t p) := by
      intro p
      rw [hint]
      simp only [Set.mem_prod, Set.mem_Ioo, centerLon, centerLat]
      refine ⟨⟨?_, ?_⟩, ?_, ?_⟩ <;> nlinarith
    refine ⟨⟨?_, ?_⟩, ?_, ?_⟩
    · intro hm
      simp only [cellRect, rectangle, Set.mem_ofPred_eq, centerLon, centerLat] at hm
      have e1 := half _ _ _ hm.1 hm.2.1
      have e2 := half _ _ _ hm.2.2.1 hm.2.2.2
      exact (List.Nodup.getElem_inj_iff hnd).mp (Prod.ext e1 e2)
    · rintro rfl
      exact interior_subset (inside _)
    · rintro rfl
      exact inside _
    · intro hk' hne
      rw [Set.disjoint_left]
      intro x hx hy
      rw [hint] at hx hy
      simp only [Set.mem_prod, Set.mem_Ioo] at hx hy
      apply hne
      have meet : ∀ i j : ℤ, ∀ o z : ℝ, o + (i : ℝ) * t < z → z < o + ((i : ℝ) + 1) * t → o + (j : ℝ) * t < z →
          z < o + ((j : ℝ) + 1) * t → i = j := by
        intro i j o z g1 g2 g3 g4
        have g1' : (i : ℝ) < ((j + 1 : ℤ) : ℝ) := by
          push_cast; exact lt_of_mul_lt_mul_right (by linarith) h0.le
        have g2' : (j : ℝ) < ((i + 1 : ℤ) : ℝ) := by
          push_cast; exact lt_of_mul_lt_mul_right (by linarith) h0.le
        have b1 : i < j + 1 := by exact_mod_cast g1'
        have b2 : j < i + 1 := by exact_mod_cast g2'
        omega
      have e1 := meet _ _ _ _ hx.1.1 hx.1.2 hy.1.1 hy.1.2
      have e2 := meet _ _ _ _ hx.2.1 hx.2.2 hy.2.1 hy.2.2
      exact (List.Nodup.getElem_inj_iff hnd).mp (Prod.ext e1 e2)

/-! ## C75 -/

/-- At least half a step inside the bounding box. -/
def WellInside (t : ℝ) (mask : Option Mask) (x y : ℝ) : Prop :=
  StrictlyInBox mask (x - t / 2) (y - t / 2) ∧ StrictlyInBox mask (x + t / 2) (y + t / 2)

/-- C75, full statement: the cells cover the whole globe, or mask.  Proved (`_partial`) for all positions more than
half a step inside the bounding box. -/
theorem C75_cover_partial (clip : CellClip) (distance el : ℝ) (h0 : 0 < gridStep distance) (mask : Option Mask)
    (hv : Acceptable mask) : ∃ cells, gridCells clip distance el mask none = .ok cells ∧
      ∀ x y, InMask mask x y → WellInside (gridStep distance) mask x y → ∃ c ∈ cells, (x, y) ∈ c.shape := by
  unfold gridCells
  set t := gridStep distance
  obtain ⟨cells, hok, hnone, hsome⟩ := cells_ok clip (t := t) (el := el) hv
  refine ⟨cells, hok, ?_⟩
  intro x y hm ⟨hw1, hw2⟩
  set i := ⌊(x + 180) / t⌋ with hi
  set j := ⌊(y + 90) / t⌋ with hj
  have i1 := Int.floor_le ((x + 180) / t)
  have i2 := Int.lt_floor_add_one ((x + 180) / t)
  have j1 := Int.floor_le ((y + 90) / t)
  have j2 := Int.lt_floor_add_one ((y + 90) / t)
  rw [← hi, le_div_iff₀ h0] at i1
  rw [← hi, div_lt_iff₀ h0] at i2
  rw [← hj, le_div_iff₀ h0] at j1
  rw [← hj, div_lt_iff₀ h0] at j2
  have hrect : (x, y) ∈ cellRect t (i, j) := by
    simp only [cellRect, rectangle, Set.mem_ofPred_eq]
    refine ⟨by linarith, by linarith, by linarith, by linarith⟩
  have hidx : (i, j) ∈ product (rows t mask) (columns t mask) := by
    rw [mem_product]
    constructor
    · apply mem_of_range h0
      · cases mask with
        | none => have := hw1.1; show (-180 : ℝ) < _; linarith
        | some m => have := hw1.1; show m.minLon < _; linarith
      · cases mask with
        | none => have := hw2.2.1; show _ < (180 : ℝ); linarith
        | some m =>
          have h := hw2.2.1
          show _ < (if m.maxLon = -180 then (180 : ℝ) else m.maxLon)
          split_ifs with hc
          · rw [hc] at h; linarith
          · linarith
    · apply mem_of_range h0
      · cases mask with
        | none => have := hw1.2.2.1; show (-90 : ℝ) < _; linarith
        | some m => have := hw1.2.2.1; show m.minLat < _; linarith
      · cases mask with
        | none => have := hw2.2.2.2; show _ < (90 : ℝ); linarith
        | some m => have := hw2.2.2.2; show _ < m.maxLat; linarith
  cases mask with
  | none =>
    rw [hnone rfl]
    exact ⟨_, List.mem_map_of_mem hidx, hrect⟩
  | some m =>
    refine ⟨⟨pointId i j t t, convexHull ℝ {z ∈ cellRect t (i, j) | m.contains z.1 z.2}, el⟩, ?_, ?_⟩
    · rw [(hsome m rfl).mem_iff, List.mem_map]
      exact ⟨(i, j), List.mem_filter.mpr ⟨hidx, by simp only [decide_eq_true_eq]; exact ⟨(x, y), hrect, hm⟩⟩, rfl⟩
    · exact subset_convexHull ℝ _ ⟨hrect, hm⟩

/-- A small mask: longitudes -178 to -176, latitudes 0 to 10. -/
def smallMask : Mask where
  minLon := -178
  minLat := 0
  maxLon := -176
  maxLat := 10
  valid := true
  contains x y := -178 ≤ x ∧ x ≤ -176 ∧ 0 ≤ y ∧ y ≤ 10
  inBounds _ _ h := h

/-- C75 is false: with a step of 10 degrees the mask from -178 to -176 gets no cell at all. -/
theorem C75_cover_false (clip : CellClip) (el : ℝ) : ∃ d, gridStep d = 10 ∧
    gridCells clip d el (some smallMask) none = .ok [] := by
  have hR := meanRadius_gt
  have hpi := Real.pi_pos
  refine ⟨10 * Real.pi / 180 * meanRadius, ?_⟩
  have hs : gridStep (10 * Real.pi / 180 * meanRadius) = 10 := by unfold gridStep degrees; field_simp
  refine ⟨hs, ?_⟩
  unfold gridCells
  rw [hs]
  obtain ⟨cells, hok, -, hsome⟩ := cells_ok clip (t := 10) (el := el) (mask := some smallMask)
    (by intro m' h; injection h with h; rw [← h]; rfl)
  rw [hok]
  have hcol : columns 10 (some smallMask) = [] := by
    rw [List.eq_nil_iff_forall_not_mem]
    intro i hi
    have h1 := range_of_mem (by norm_num) hi
    have w : west (some smallMask) = -178 := rfl
    have e : east (some smallMask) = -176 := by
      show (if (-176 : ℝ) = -180 then (180 : ℝ) else -176) = -176
      norm_num
    rw [w, e] at h1
    have a1 : ((0 : ℤ) : ℝ) < 2 * i + 1 := by push_cast; linarith
    have a2 : (2 * (i : ℝ) + 1) < ((1 : ℤ) : ℝ) := by push_cast; linarith
    have b1 : 0 < 2 * i + 1 := by exact_mod_cast a1
    have b2 : 2 * i + 1 < 1 := by exact_mod_cast a2
    omega
  have hp := hsome smallMask rfl
  have hnil : product (rows 10 (some smallMask)) (columns 10 (some smallMask)) = [] := by
    rw [List.eq_nil_iff_forall_not_mem]
    intro p hp
    rw [mem_product, hcol] at hp
    simp at hp
  rw [hnil] at hp
  simp only [List.filter_nil, List.map_nil] at hp
  rw [hp.eq_nil]

end Tatc.Props
