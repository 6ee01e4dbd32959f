import Verif.Props.OrbitTrack
import Verif.Props.Instrument

/-! C85 and C86: records of ground tracks and ground pixels, and the effect of masks on them. -/

namespace Tatc.Props
open Tatc.Track Tatc.Instruments Tatc.Num Tatc.Spec Tatc.Geometry
open scoped Classical

/-! ## C85 -/

/-- Whether the observation of a place at a time meets both of the instrument's requirements. -/
def Allowed (sky : Sky) (tool : Tool) (t : Int) (p : Place) : Prop :=
  Meets tool.reqSelfSunlit (sky.propagate t).sunlit ∧
    Meets tool.reqTargetSunlit (decide (0 < sky.solarAltitude p t))

theorem verdict_iff (sky : Sky) (tool : Tool) (t : Int) (p : Place) :
    verdict sky tool (sky.propagate t) p = true ↔ Allowed sky tool t p := by
  unfold verdict Allowed
  rw [decide_eq_true_iff, sky.propagate_time]

/-- What the record of a time must hold in a ground track with exact footprints. -/
structure FootprintAt {P G : Type} (sky : Sky) (ops : Ops P G) (tool : Tool) (t : Int) (r : GroundRecord G) : Prop where
  time : r.time = sky.report t
  validObs : r.validObs = true ↔ Allowed sky tool t (ops.center (sky.propagate t))
  geometry : r.geometry = ops.footprint (sky.propagate t)

/-- What the record of a time must hold in a ground track with projected circles: the satellite's swath at the reported
time. -/
structure CircleAt {P G : Type} (sky : Sky) (ops : Ops P G) (tool : Tool) (elevation : ℝ) (t : Int)
    (r : GroundRecord G) : Prop where
  time : r.time = sky.report t
  validObs : r.validObs = true ↔ Allowed sky tool t (ops.center (sky.propagate t))
  geometry : r.geometry = ops.buffered (sky.propagate (sky.report t))
    (forToSwath (sky.propagate (sky.report t)).height tool.fieldOfRegard elevation)

/-- **C85**: a ground track of exact footprints has one record per time, in order, each of its own time. -/
theorem C85_footprints {P G : Type} (sky : Sky) (ops : Ops P G) (clipRecords : Clip Record)
    (clip : Clip (GroundRecord G)) (tools : List Tool) (index : Int) (times : List Int) (elevation : ℝ) (tool : Tool)
    (h0 : 0 ≤ index) (ht : tools[index.toNat]? = some tool) :
    ∃ records, collectGroundTrack sky ops clipRecords clip tools index times elevation none true = .ok records ∧
      List.Forall₂ (FootprintAt sky ops tool) times records := by
  refine ⟨_, collectGroundTrack_none sky ops clipRecords clip tools index times elevation true tool
    (getItem_of_nonneg h0 ht), ?_⟩
  rw [List.map_map]
  induction times with
  | nil => exact .nil
  | cons t ts ih =>
    refine .cons ⟨?_, verdict_iff _ _ _ _, rfl⟩ ih
    show sky.report (sky.propagate t).time = _
    rw [sky.propagate_time]

/-- **C85**: a ground track of projected circles has one record per time, in order, each of its own time. -/
theorem C85_circles {P G : Type} (sky : Sky) (ops : Ops P G) (clipRecords : Clip Record)
    (clip : Clip (GroundRecord G)) (tools : List Tool) (index : Int) (times : List Int) (elevation : ℝ) (tool : Tool)
    (h0 : 0 ≤ index) (ht : tools[index.toNat]? = some tool) :
    ∃ records, collectGroundTrack sky ops clipRecords clip tools index times elevation none false = .ok records ∧
      List.Forall₂ (CircleAt sky ops tool elevation) times records := by
  refine ⟨_, collectGroundTrack_none sky ops clipRecords clip tools index times elevation false tool
    (getItem_of_nonneg h0 ht), ?_⟩
  rw [List.map_map]
  induction times with
  | nil => exact .nil
  | cons t ts ih =>
    refine .cons ⟨?_, verdict_iff _ _ _ _, ?_⟩ ih
    · show sky.report (sky.propagate t).time = _
      rw [sky.propagate_time]
    · show geometryOf sky ops tool elevation false (sky.propagate t) = _
      simp [geometryOf, sky.propagate_time]

/-- What the record of a time and a pixel must hold. -/
structure PixelAt (sky : Sky) (tool : Tool) (t : Int) (pixel : Place) (r : PixelRecord) : Prop where
  time : r.time = sky.report t
  validObs : r.validObs = true ↔ Allowed sky tool t pixel
  geometry : r.geometry = pixel

theorem pixelRecords_eq (sky : Sky) (tool : Tool) (pixels : Sample → List Place) (track : List Sample) :
    pixelRecords sky tool pixels track =
      .ok (track.map fun s => (pixels s).map fun q => (⟨sky.report s.time, verdict sky tool s q, q⟩ : PixelRecord)).flatten := by
  unfold pixelRecords
  rw [mapM_ok _ (fun s => (pixels s).map fun q => (⟨sky.report s.time, verdict sky tool s q, q⟩ : PixelRecord))]
  · rfl
  · intro s _
    rw [mapM_ok _ (fun q => (⟨sky.report s.time, verdict sky tool s q, q⟩ : PixelRecord))]
    intro q _
    obtain ⟨v, hv, hiff⟩ := C65_scalar tool.reqSelfSunlit tool.reqTargetSunlit s.sunlit s.subpoint
      (fun p => sky.solarAltitude p s.time) (some q)
    rw [hv]
    show Except.ok _ = _
    congr 2
    rw [Bool.eq_iff_iff, hiff]
    unfold verdict
    rw [decide_eq_true_iff]; rfl

/-- **C85**: the ground pixels are one block of records per time, in order, with one record per pixel of the detector in
each block, in the detector's order, each with its own pixel's validity. -/
theorem C85_pixels {P G : Type} (sky : Sky) (ops : Ops P G) (clip : Clip PixelRecord)
    (inside : MaskShape P → Place → Bool) (rectangular : Tool → Bool) (tools : List Tool) (index : Int)
    (times : List Int) (tool : Tool) (h0 : 0 ≤ index) (ht : tools[index.toNat]? = some tool)
    (hr : rectangular tool = true) :
    ∃ blocks, collectGroundPixels sky ops clip inside rectangular tools index times none = .ok blocks.flatten ∧
      List.Forall₂ (fun t block => List.Forall₂ (PixelAt sky tool t) (ops.pixels (sky.propagate t)) block) times blocks := by
  refine ⟨times.map fun t => (ops.pixels (sky.propagate t)).map fun q =>
    (⟨sky.report t, verdict sky tool (sky.propagate t) q, q⟩ : PixelRecord), ?_, ?_⟩
  · unfold collectGroundPixels
    by_cases h : times = []
    · rw [if_pos h, h]; rfl
    · have hne : times.map sky.propagate ≠ [] := by simpa using h
      rw [if_neg h, getItem_of_nonneg h0 ht]
      show (require (rectangular tool = true) .valueError >>= _) = _
      rw [(require_eq_ok _ _ ()).mpr hr]
      simp only [cull]
      show (if times.map sky.propagate = [] then _ else _) = _
      rw [if_neg hne, pixelRecords_eq]
      show Except.ok _ = _
      rw [List.map_map]
      congr 3
      funext t
      simp only [Function.comp, sky.propagate_time]
  · induction times with
    | nil => exact .nil
    | cons t ts ih =>
      refine .cons ?_ ih
      simp only
      generalize ops.pixels (sky.propagate t) = qs
      induction qs with
      | nil => exact .nil
      | cons q qs ih2 => exact .cons ⟨rfl, verdict_iff _ _ _ _, rfl⟩ ih2

/-- **C85**: instruments without a rectangular field of view are refused. -/
theorem C85_refused {P G : Type} (sky : Sky) (ops : Ops P G) (clip : Clip PixelRecord)
    (inside : MaskShape P → Place → Bool) (rectangular : Tool → Bool) (tools : List Tool) (index : Int)
    (times : List Int) (mask : Option (MaskShape P)) (tool : Tool) (h0 : 0 ≤ index) (ht : tools[index.toNat]? = some tool)
    (hr : rectangular tool = false) (hne : times ≠ []) :
    collectGroundPixels sky ops clip inside rectangular tools index times mask = .error .valueError := by
  unfold collectGroundPixels
  rw [if_neg hne, getItem_of_nonneg h0 ht]
  show (require (rectangular tool = true) .valueError >>= _) = _
  have : require (rectangular tool = true) PyErr.valueError = .error .valueError := by
    unfold require
    rw [if_neg (by simp [hr])]
  rw [this]; rfl

/-! ## C86 -/

/-- **C86**, exact footprints: masking a ground track is clipping the track that has no mask: the records are those whose
footprint meets the mask, with the same time and validity, and the part of the footprint inside it.  `near` must hold
where the buffered target lets a footprint meet the mask; this is what `buffer_target` is for. -/
theorem C86_footprints_partial {P G : Type} (sky : Sky) (ops : Ops P G) (clipRecords : Clip Record)
    (clip : Clip (GroundRecord G)) (tools : List Tool) (index : Int) (times : List Int) (elevation : ℝ)
    (m : MaskShape P) (tool : Tool) (h0 : 0 ≤ index) (ht : tools[index.toNat]? = some tool) (target : P)
    (htarget : m.target ops.dissolve = .ok target)
    (hnear : ∀ t ∈ times, m.meets ops.intersects (ops.footprint (sky.propagate t)) = true →
      ops.near target (sky.propagate t).lon (sky.propagate t).lat = true)
    (all : List (GroundRecord G))
    (hall : collectGroundTrack sky ops clipRecords clip tools index times elevation none true = .ok all) :
    ∃ records, collectGroundTrack sky ops clipRecords clip tools index times elevation (some m) true = .ok records ∧
      records.Perm ((all.filter fun r => m.meets ops.intersects r.geometry).map
        fun r => { r with geometry := ops.cut m r.geometry }) := by
  have hg := getItem_of_nonneg h0 ht
  rw [collectGroundTrack_none _ _ _ _ _ _ _ _ _ tool hg] at hall
  cases hall
  have hcull : ∃ track, cull ops (some m) (times.map sky.propagate) = .ok track ∧
      track.filter (fun s => m.meets ops.intersects (ops.footprint s)) =
        (times.map sky.propagate).filter fun s => m.meets ops.intersects (ops.footprint s) := by
    unfold cull
    simp only
    split_ifs with hl
    · rw [htarget]
      refine ⟨_, rfl, ?_⟩
      rw [List.filter_filter, List.filter_filter, List.filter_congr]
      intro s hs
      obtain ⟨t, htm, rfl⟩ := List.mem_map.mp hs
      have := hnear t htm
      cases hmm : m.meets ops.intersects (ops.footprint (sky.propagate t)) with
      | false => simp
      | true => simp [this hmm]
    · exact ⟨_, rfl, rfl⟩
  obtain ⟨track, hc, hf⟩ := hcull
  obtain ⟨out, h1, h2⟩ := collectGroundTrack_some sky ops clipRecords clip tools index times elevation true tool hg m track hc
  refine ⟨out, h1, h2.trans (List.Perm.of_eq ?_)⟩
  congr 1
  have e : ∀ l : List Sample, (l.map (groundRecordOf sky ops tool elevation true)).filter
      (fun r => m.meets ops.intersects r.geometry) =
      (l.filter fun s => m.meets ops.intersects (ops.footprint s)).map (groundRecordOf sky ops tool elevation true) := by
    intro l; rw [List.filter_map]; rfl
  rw [e, e, hf]

/-- **C86**, one time: the same holds of circles as well, as nothing is culled. -/
theorem C86_single {P G : Type} (sky : Sky) (ops : Ops P G) (clipRecords : Clip Record)
    (clip : Clip (GroundRecord G)) (tools : List Tool) (index : Int) (t : Int) (elevation : ℝ) (spice : Bool)
    (m : MaskShape P) (tool : Tool) (h0 : 0 ≤ index) (ht : tools[index.toNat]? = some tool)
    (all : List (GroundRecord G))
    (hall : collectGroundTrack sky ops clipRecords clip tools index [t] elevation none spice = .ok all) :
    ∃ records, collectGroundTrack sky ops clipRecords clip tools index [t] elevation (some m) spice = .ok records ∧
      records.Perm ((all.filter fun r => m.meets ops.intersects r.geometry).map
        fun r => { r with geometry := ops.cut m r.geometry }) := by
  have hg := getItem_of_nonneg h0 ht
  rw [collectGroundTrack_none _ _ _ _ _ _ _ _ _ tool hg] at hall
  cases hall
  exact collectGroundTrack_some sky ops clipRecords clip tools index [t] elevation spice tool hg m _ (by simp [cull])

/-- Geometries that are intervals of longitude: footprints reach one degree, circles five, and targets are buffered by
twenty. -/
noncomputable def bands : Ops (ℝ × ℝ) (ℝ × ℝ) where
  dissolve ps := ps.headD (0, 0)
  intersects p g := decide (p.1 ≤ g.2 ∧ g.1 ≤ p.2)
  near p lon _ := decide (p.1 - 20 ≤ lon ∧ lon ≤ p.2 + 20)
  cut _ g := g
  footprint s := (s.lon - 1, s.lon + 1)
  center s := s.subpoint
  pixels s := [s.subpoint]
  buffered s _ := (s.lon - 5, s.lon + 5)

/-- A clipping that keeps the order. -/
def inOrder {α : Type} : Clip α := ⟨fun p l => l.filter p, fun _ _ => List.Perm.refl _⟩

/-- The hypotheses of C86 are met by a polygon. -/
example : (MaskShape.polygon ((3 : ℝ), (4 : ℝ))).target bands.dissolve = .ok (3, 4) ∧
    (∀ t ∈ ([0, 3, 90] : List Int), (MaskShape.polygon ((3 : ℝ), (4 : ℝ))).meets bands.intersects
      (bands.footprint (eastward.propagate t)) = true →
      bands.near (3, 4) (eastward.propagate t).lon (eastward.propagate t).lat = true) ∧
    (MaskShape.polygon ((3 : ℝ), (4 : ℝ))).meets bands.intersects (bands.footprint (eastward.propagate 3)) = true ∧
    (MaskShape.polygon ((3 : ℝ), (4 : ℝ))).meets bands.intersects (bands.footprint (eastward.propagate 90)) = false := by
  refine ⟨rfl, ?_, ?_, ?_⟩
  · intro t _ h
    simp only [MaskShape.meets, bands, decide_eq_true_eq] at h ⊢
    constructor <;> linarith [h.1, h.2]
  · norm_num [MaskShape.meets, bands, eastward]
  · norm_num [MaskShape.meets, bands, eastward]

/-- **C86** fails for series of geometries: only the first is buffered to cull the track, so that a footprint inside another
one is lost. -/
theorem C86_series_false : ∃ (ops : Ops (ℝ × ℝ) (ℝ × ℝ)) (sky : Sky) (tools : List Tool) (a b : GroundRecord (ℝ × ℝ)),
    collectGroundTrack sky ops inOrder inOrder tools 0 [0, 100] 0 none true = .ok [a, b] ∧
    (∀ p s, (MaskShape.series [p]).meets ops.intersects (ops.footprint s) = true → ops.near p s.lon s.lat = true) ∧
    (MaskShape.series [(0, 1), (100, 101)]).meets ops.intersects b.geometry = true ∧
    ∃ c, collectGroundTrack sky ops inOrder inOrder tools 0 [0, 100] 0 (some (.series [(0, 1), (100, 101)])) true = .ok [c] ∧
      c.time = a.time ∧ a.time ≠ b.time := by
  let tool : Tool := ⟨60, none, none⟩
  refine ⟨bands, eastward, [tool], groundRecordOf eastward bands tool 0 true (eastward.propagate 0),
    groundRecordOf eastward bands tool 0 true (eastward.propagate 100),
    collectGroundTrack_none eastward bands inOrder inOrder [tool] 0 [0, 100] 0 true tool rfl, ?_, ?_, ?_⟩
  · intro p s h
    simp only [MaskShape.meets, bands, decide_eq_true_eq, List.any_cons, List.any_nil, Bool.or_false] at h ⊢
    constructor <;> linarith [h.1, h.2]
  · norm_num [MaskShape.meets, bands, groundRecordOf, geometryOf, eastward]
  · have hc : cull bands (some (.series [(0, 1), (100, 101)])) ([0, 100].map eastward.propagate) =
        .ok [eastward.propagate 0] := by
      have h1 : bands.near (0, 1) (eastward.propagate 0).lon (eastward.propagate 0).lat = true := by
        norm_num [bands, eastward]
      have h2 : bands.near (0, 1) (eastward.propagate 100).lon (eastward.propagate 100).lat = false := by
        norm_num [bands, eastward]
      have h3 : (MaskShape.series [((0 : ℝ), (1 : ℝ)), (100, 101)]).meets bands.intersects
          (bands.footprint (eastward.propagate 0)) = true := by
        norm_num [MaskShape.meets, bands, eastward]
      simp [cull, MaskShape.target, bind, Except.bind, pure, Except.pure, h1, h2, h3]
    obtain ⟨out, h1, h2⟩ := collectGroundTrack_some eastward bands inOrder inOrder [tool] 0 [0, 100] 0 true tool rfl _ _ hc
    have h3 : (MaskShape.series [((0 : ℝ), (1 : ℝ)), (100, 101)]).meets bands.intersects
        (groundRecordOf eastward bands tool 0 true (eastward.propagate 0)).geometry = true := by
      norm_num [MaskShape.meets, bands, groundRecordOf, geometryOf, eastward]
    simp only [List.map_cons, List.map_nil, List.filter_cons, h3, if_true, List.filter_nil] at h2
    rw [List.perm_singleton.mp h2] at h1
    exact ⟨_, h1, rfl, by norm_num [groundRecordOf, eastward]⟩

/-- **C86** fails for circles: the track is culled by the exact footprints, so that a circle that meets the mask is lost if
the footprint does not, although with a single time it is kept. -/
theorem C86_circles_false : ∃ (ops : Ops (ℝ × ℝ) (ℝ × ℝ)) (sky : Sky) (tools : List Tool) (a b : GroundRecord (ℝ × ℝ)),
    collectGroundTrack sky ops inOrder inOrder tools 0 [0, 3] 0 none false = .ok [a, b] ∧
    (MaskShape.polygon (3, 4)).meets ops.intersects a.geometry = true ∧
    (∃ c, collectGroundTrack sky ops inOrder inOrder tools 0 [0] 0 (some (.polygon (3, 4))) false = .ok [c] ∧
      c.time = a.time) ∧
    ∃ c, collectGroundTrack sky ops inOrder inOrder tools 0 [0, 3] 0 (some (.polygon (3, 4))) false = .ok [c] ∧
      c.time = b.time ∧ a.time ≠ b.time := by
  let tool : Tool := ⟨60, none, none⟩
  have ha : (MaskShape.polygon ((3 : ℝ), (4 : ℝ))).meets bands.intersects
      (groundRecordOf eastward bands tool 0 false (eastward.propagate 0)).geometry = true := by
    norm_num [MaskShape.meets, bands, groundRecordOf, geometryOf, eastward]
  refine ⟨bands, eastward, [tool], groundRecordOf eastward bands tool 0 false (eastward.propagate 0),
    groundRecordOf eastward bands tool 0 false (eastward.propagate 3),
    collectGroundTrack_none eastward bands inOrder inOrder [tool] 0 [0, 3] 0 false tool rfl, ha, ?_, ?_⟩
  · obtain ⟨out, h1, h2⟩ := collectGroundTrack_some eastward bands inOrder inOrder [tool] 0 [0] 0 false tool rfl
      (.polygon (3, 4)) [eastward.propagate 0] (by simp [cull])
    simp only [List.map_cons, List.map_nil, List.filter_cons, ha, if_true, List.filter_nil] at h2
    rw [List.perm_singleton.mp h2] at h1
    exact ⟨_, h1, rfl⟩
  · have hc : cull bands (some (.polygon (3, 4))) ([0, 3].map eastward.propagate) = .ok [eastward.propagate 3] := by
      have h1 : bands.near (3, 4) (eastward.propagate 0).lon (eastward.propagate 0).lat = true := by
        norm_num [bands, eastward]
      have h2 : bands.near (3, 4) (eastward.propagate 3).lon (eastward.propagate 3).lat = true := by
        norm_num [bands, eastward]
      have h3 : (MaskShape.polygon ((3 : ℝ), (4 : ℝ))).meets bands.intersects
          (bands.footprint (eastward.propagate 0)) = false := by
        norm_num [MaskShape.meets, bands, eastward]
      have h4 : (MaskShape.polygon ((3 : ℝ), (4 : ℝ))).meets bands.intersects
          (bands.footprint (eastward.propagate 3)) = true := by
        norm_num [MaskShape.meets, bands, eastward]
      simp [cull, MaskShape.target, bind, Except.bind, pure, Except.pure, h1, h2, h3, h4]
    obtain ⟨out, h1, h2⟩ := collectGroundTrack_some eastward bands inOrder inOrder [tool] 0 [0, 3] 0 false tool rfl _ _ hc
    have h3 : (MaskShape.polygon ((3 : ℝ), (4 : ℝ))).meets bands.intersects
        (groundRecordOf eastward bands tool 0 false (eastward.propagate 3)).geometry = true := by
      norm_num [MaskShape.meets, bands, groundRecordOf, geometryOf, eastward]
    simp only [List.map_cons, List.map_nil, List.filter_cons, h3, if_true, List.filter_nil] at h2
    rw [List.perm_singleton.mp h2] at h1
    exact ⟨_, h1, rfl, by norm_num [groundRecordOf, eastward]⟩

end Tatc.Props
