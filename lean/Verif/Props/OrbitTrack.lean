import Verif.Lemmas.Track
import Mathlib.Tactic.Linarith
import Mathlib.Tactic.NormNum

/-! C69 and C71: orbit tracks, and projections of ground footprints. -/

namespace Tatc.Props
open Tatc.Track Tatc.Instruments Tatc.Num Tatc.Spec Tatc.Geometry
open scoped Classical

/-! ## C69 -/

/-- What the record of a time must hold: the time as it is reported, the satellite's position in the chosen frame at that
time, its velocity when asked for, the swath width seen from its height, and whether its observation of the point below
it meets the instrument's requirements. -/
structure RecordAt (sky : Sky) (tool : Tool) (elevation : ℝ) (coordinates : Coordinates) (velocity : Bool) (t : Int)
    (r : Record) : Prop where
  time : r.time = sky.report t
  swathWidth : r.swathWidth = forToSwath (sky.propagate t).height tool.fieldOfRegard elevation
  validObs : r.validObs = true ↔ Meets tool.reqSelfSunlit (sky.propagate t).sunlit ∧
    Meets tool.reqTargetSunlit (decide (0 < sky.solarAltitude ⟨(sky.propagate t).lon, (sky.propagate t).lat, 0⟩ t))
  wgs84 : coordinates = .wgs84 → r.geometry = ⟨(sky.propagate t).lon, (sky.propagate t).lat, (sky.propagate t).height⟩
  ecef : coordinates = .ecef → r.geometry = (sky.propagate t).ecef
  eci : coordinates = .eci → r.geometry = (sky.propagate t).eci
  noVelocity : velocity = false → r.velocity = none
  eciVelocity : velocity = true → coordinates = .eci → r.velocity = some (sky.propagate t).eciVelocity
  ecefVelocity : velocity = true → coordinates ≠ .eci → r.velocity = some (sky.propagate t).ecefVelocity

theorem recordOf_recordAt (sky : Sky) (tool : Tool) (elevation : ℝ) (coordinates : Coordinates) (velocity : Bool)
    (t : Int) :
    RecordAt sky tool elevation coordinates velocity t (recordOf sky tool elevation coordinates velocity (sky.propagate t)) := by
  constructor
  · show sky.report (sky.propagate t).time = _
    rw [sky.propagate_time]
  · rfl
  · show verdict _ _ _ _ = true ↔ _
    unfold verdict
    rw [decide_eq_true_iff, sky.propagate_time]; rfl
  · rintro rfl; rfl
  · rintro rfl; rfl
  · rintro rfl; rfl
  · rintro rfl; rfl
  · rintro rfl rfl; rfl
  · rintro rfl h; cases coordinates <;> first | rfl | exact absurd rfl h

theorem getItem_of_nonneg {α : Type} {l : List α} {i : Int} {a : α} (h0 : 0 ≤ i) (h : l[i.toNat]? = some a) :
    getItem l i = .ok a := by
  have : ¬ i < 0 := by omega
  simp [getItem, this, h]

/-- **C69**, without a mask: there is one record per time, in order, and each is the record of its own time. -/
theorem C69_unmasked (sky : Sky) (clip : Clip Record) (tools : List Tool) (index : Int) (times : List Int)
    (elevation : ℝ) (coordinates : Coordinates) (velocity : Bool) (tool : Tool) (h0 : 0 ≤ index)
    (ht : tools[index.toNat]? = some tool) :
    ∃ records, collectOrbitTrack sky clip tools index times elevation none coordinates velocity = .ok records ∧
      List.Forall₂ (RecordAt sky tool elevation coordinates velocity) times records := by
  refine ⟨_, collectOrbitTrack_none sky clip tools index times elevation coordinates velocity tool
    (getItem_of_nonneg h0 ht), ?_⟩
  rw [List.map_map]
  induction times with
  | nil => exact .nil
  | cons t ts ih => exact .cons (recordOf_recordAt _ _ _ _ _ _) ih

/-- **C69**, with a mask, in geodetic coordinates: the records are those of the unmasked track whose points are in the
mask, each with the same contents, none twice.  The mask's clipping must keep what the mask contains. -/
theorem C69_masked_partial (sky : Sky) (clip : Clip Record) (tools : List Tool) (index : Int) (times : List Int)
    (elevation : ℝ) (m : Mask) (hm : ∀ x y, m.contains x y = true → m.meets x y = true) (velocity : Bool)
    (all : List Record)
    (hall : collectOrbitTrack sky clip tools index times elevation none .wgs84 velocity = .ok all) :
    ∃ records, collectOrbitTrack sky clip tools index times elevation (some m) .wgs84 velocity = .ok records ∧
      records.Perm (all.filter fun r => m.contains r.geometry.x r.geometry.y) := by
  by_cases hts : times = []
  · subst hts
    refine ⟨[], by simp [collectOrbitTrack, pure, Except.pure], ?_⟩
    have : all = [] := by
      simp [collectOrbitTrack, pure, Except.pure] at hall; exact hall
    simp [this]
  have ht : ∃ tool, getItem tools index = .ok tool := by
    cases hg : getItem tools index with
    | ok tool => exact ⟨tool, rfl⟩
    | error e =>
      unfold collectOrbitTrack at hall
      rw [if_neg hts, hg] at hall; cases hall
  obtain ⟨tool, ht⟩ := ht
  rw [collectOrbitTrack_none _ _ _ _ _ _ _ _ tool ht] at hall
  cases hall
  obtain ⟨out, h1, h2⟩ := collectOrbitTrack_some sky clip tools index times elevation m .wgs84 velocity tool ht
  refine ⟨out, h1, h2.trans (List.Perm.of_eq ?_)⟩
  generalize times.map sky.propagate = track
  induction track with
  | nil => rfl
  | cons s t ih =>
    have e : (recordOf sky tool elevation .wgs84 velocity s).geometry = ⟨s.lon, s.lat, s.height⟩ := rfl
    by_cases hc : m.contains s.lon s.lat = true
    · simp [hc, e, hm _ _ hc, ih]
    · simp [hc, e, ih]

/-- Records of a mask that is a hemisphere, from a satellite that moves east one degree per tick. -/
noncomputable def eastward : Sky where
  propagate t := ⟨t, t, 0, 500000, ⟨6878137, 0, 0⟩, ⟨6878137, 0, 0⟩, ⟨0, 7600, 0⟩, ⟨0, 7600, 0⟩, true⟩
  solarAltitude _ _ := 10
  report t := t
  propagate_time _ := rfl

/-- The mask of the longitudes from 1 to 100. -/
noncomputable def eastHalf : Mask := ⟨fun x _ => decide (1 ≤ x ∧ x ≤ 100), fun x _ => decide (1 ≤ x ∧ x ≤ 100)⟩

/-- The hypotheses of both theorems are met. -/
example : (∀ x y, eastHalf.contains x y = true → eastHalf.meets x y = true) ∧
    ([⟨60, none, some true⟩] : List Tool)[(0 : Int).toNat]? = some ⟨60, none, some true⟩ ∧
    eastHalf.contains ((eastward.propagate 1).lon) 0 = true ∧ eastHalf.contains ((eastward.propagate 0).lon) 0 = false := by
  refine ⟨fun _ _ h => h, rfl, ?_, ?_⟩ <;> norm_num [eastHalf, eastward]

/-- A clipping that gives the rows it keeps in the opposite order. -/
def backwards : Clip Record := ⟨fun p l => (l.filter p).reverse, fun _ _ => List.reverse_perm _⟩

/-- **C69** fails on order: clipping by the mask does not promise to keep the order of the rows, and a masked track may be
the opposite of the unmasked one although the mask removes nothing. -/
theorem C69_order_false : ∃ (sky : Sky) (clip : Clip Record) (tools : List Tool) (times : List Int) (m : Mask)
    (a b : Record), (∀ x y, m.contains x y = true) ∧ (∀ x y, m.meets x y = true) ∧ a.time < b.time ∧
    collectOrbitTrack sky clip tools 0 times 0 none .wgs84 false = .ok [a, b] ∧
    collectOrbitTrack sky clip tools 0 times 0 (some m) .wgs84 false = .ok [b, a] := by
  let tool : Tool := ⟨60, none, none⟩
  refine ⟨eastward, backwards, [tool], [0, 1], ⟨fun _ _ => true, fun _ _ => true⟩,
    recordOf eastward tool 0 .wgs84 false (eastward.propagate 0), recordOf eastward tool 0 .wgs84 false (eastward.propagate 1),
    by simp, by simp, by norm_num [recordOf, eastward], ?_, ?_⟩
  · exact collectOrbitTrack_none eastward backwards [tool] 0 [0, 1] 0 .wgs84 false tool rfl
  · have hg : getItem [tool] 0 = .ok tool := rfl
    unfold collectOrbitTrack
    rw [if_neg (by simp), hg]
    simp only [bind, Except.bind]
    have e : ([0, 1].map eastward.propagate).filter (fun s => (fun _ _ => true : ℝ → ℝ → Bool) s.lon s.lat) =
        [0, 1].map eastward.propagate := by simp
    rw [e, if_neg (by simp), orbitRecords_eq eastward tool _ (by simp)]
    rfl

/-- **C69** fails for the other frames: the mask, in degrees, is compared with coordinates in metres, so that no record of a
satellite whose first two coordinates are not both within 180 and 90 metres of the axis is left, wherever it is. -/
theorem C69_frame_false (sky : Sky) (clip : Clip Record) (tools : List Tool) (index : Int) (times : List Int)
    (elevation : ℝ) (m : Mask) (hm : ∀ x y, m.meets x y = true → |x| ≤ 180 ∧ |y| ≤ 90) (coordinates : Coordinates)
    (velocity : Bool) (tool : Tool) (h0 : 0 ≤ index) (ht : tools[index.toNat]? = some tool)
    (hecef : coordinates = .ecef → ∀ t ∈ times, 180 < |(sky.propagate t).ecef.x| ∨ 90 < |(sky.propagate t).ecef.y|)
    (heci : coordinates = .eci → ∀ t ∈ times, 180 < |(sky.propagate t).eci.x| ∨ 90 < |(sky.propagate t).eci.y|)
    (hc : coordinates ≠ .wgs84) :
    collectOrbitTrack sky clip tools index times elevation (some m) coordinates velocity = .ok [] := by
  obtain ⟨out, h1, h2⟩ := collectOrbitTrack_some sky clip tools index times elevation m coordinates velocity tool
    (getItem_of_nonneg h0 ht)
  rw [h1]
  congr 1
  have : (((times.map sky.propagate).filter fun s => m.contains s.lon s.lat).map
      (recordOf sky tool elevation coordinates velocity)).filter (fun r => m.meets r.geometry.x r.geometry.y) = [] := by
    rw [List.filter_eq_nil_iff]
    intro r hr hmeet
    obtain ⟨s, hs, rfl⟩ := List.mem_map.mp hr
    obtain ⟨t, htm, rfl⟩ := List.mem_map.mp (List.mem_of_mem_filter hs)
    have hb := hm _ _ hmeet
    cases coordinates with
    | wgs84 => exact hc rfl
    | ecef =>
      have hb : |(sky.propagate t).ecef.x| ≤ 180 ∧ |(sky.propagate t).ecef.y| ≤ 90 := hb
      rcases hecef rfl t htm with h | h <;> linarith [hb.1, hb.2]
    | eci =>
      have hb : |(sky.propagate t).eci.x| ≤ 180 ∧ |(sky.propagate t).eci.y| ≤ 90 := hb
      rcases heci rfl t htm with h | h <;> linarith [hb.1, hb.2]
  rw [this] at h2
  exact List.perm_nil.mp h2

/-- The whole globe as a mask, and a satellite over the equator: its record is lost. -/
example : collectOrbitTrack eastward backwards [⟨60, none, none⟩] 0 [5] 0
    (some ⟨fun x y => decide (|x| ≤ 180 ∧ |y| ≤ 90), fun x y => decide (|x| ≤ 180 ∧ |y| ≤ 90)⟩) .ecef false = .ok [] :=
  C69_frame_false _ _ _ _ _ _ _ (by intro x y h; simpa using h) _ _ ⟨60, none, none⟩ (by norm_num) rfl
    (by intro _ t _; left; norm_num [eastward]) (by intro h; cases h) (by intro h; cases h)

/-! ## C71 -/

/-- **C71**: a footprint of radius `r` degrees (half the swath width seen from the centre of the earth) that reaches beyond
84 degrees north is projected on the north polar system; one that does not, but reaches beyond 80 degrees south, on
the south polar system; any other on the first zone that the database gives, or on the global system if it gives none. -/
theorem C71_code (lat swathWidth : ℝ) (zones : List String) (r : ℝ)
    (hr : r * Real.pi / 180 * meanRadius = swathWidth / 2) :
    (84 < lat + r → utmCode lat swathWidth zones = "EPSG:5041") ∧
    (lat + r ≤ 84 → lat - r < -80 → utmCode lat swathWidth zones = "EPSG:5042") ∧
    (lat + r ≤ 84 → -80 ≤ lat - r → ∀ z zs, zones = z :: zs → utmCode lat swathWidth zones = "EPSG:" ++ z) ∧
    (lat + r ≤ 84 → -80 ≤ lat - r → zones = [] → utmCode lat swathWidth zones = "EPSG:4087") := by
  have hR : (0 : ℝ) < meanRadius := by norm_num [meanRadius, equatorialRadius, polarRadius]
  have e : footprintRadius swathWidth = r := by
    unfold footprintRadius degrees
    rw [← hr]
    have := Real.pi_pos
    field_simp
  unfold utmCode
  rw [e]
  refine ⟨fun h => if_pos h, fun h1 h2 => ?_, fun h1 h2 z zs hz => ?_, fun h1 h2 hz => ?_⟩
  · rw [if_neg (not_lt.mpr h1), if_pos h2]
  · rw [if_neg (not_lt.mpr h1), if_neg (not_lt.mpr h2), hz]
  · rw [if_neg (not_lt.mpr h1), if_neg (not_lt.mpr h2), hz]

/-- **C71**: when the database gives UTM zones only, the polar systems are chosen for no other footprints. -/
theorem C71_polar (lat swathWidth : ℝ) (zones : List String) (r : ℝ)
    (hr : r * Real.pi / 180 * meanRadius = swathWidth / 2) (hz : ∀ z ∈ zones, z ≠ "5041" ∧ z ≠ "5042") :
    (utmCode lat swathWidth zones = "EPSG:5041" ↔ 84 < lat + r) ∧
    (utmCode lat swathWidth zones = "EPSG:5042" ↔ lat + r ≤ 84 ∧ lat - r < -80) := by
  obtain ⟨h1, h2, h3, h4⟩ := C71_code lat swathWidth zones r hr
  have hs : ∀ z w : String, ("EPSG:" ++ z = "EPSG:" ++ w) → z = w := by
    intro z w h
    have := congrArg String.toList h
    rw [String.toList_append, String.toList_append] at this
    exact String.toList_inj.mp (List.append_cancel_left this)
  by_cases a : 84 < lat + r
  · rw [h1 a]
    exact ⟨⟨fun _ => a, fun _ => rfl⟩, ⟨fun h => absurd h (by decide), fun h => absurd a (not_lt.mpr h.1)⟩⟩
  · have a' := not_lt.mp a
    by_cases b : lat - r < -80
    · rw [h2 a' b]
      exact ⟨⟨fun h => absurd h (by decide), fun h => absurd h a⟩, ⟨fun _ => ⟨a', b⟩, fun _ => rfl⟩⟩
    · have b' := not_lt.mp b
      cases zones with
      | nil =>
        rw [h4 a' b' rfl]
        exact ⟨⟨fun h => absurd h (by decide), fun h => absurd h a⟩, ⟨fun h => absurd h (by decide), fun h => absurd h.2 b⟩⟩
      | cons z zs =>
        rw [h3 a' b' z zs rfl]
        have hz' := hz z List.mem_cons_self
        exact ⟨⟨fun h => absurd (hs z "5041" h) hz'.1, fun h => absurd h a⟩,
          ⟨fun h => absurd (hs z "5042" h) hz'.2, fun h => absurd h.2 b⟩⟩

/-- A footprint of one degree around 83.5 degrees north. -/
example : ∃ swathWidth : ℝ, (1 : ℝ) * Real.pi / 180 * meanRadius = swathWidth / 2 ∧ (84 : ℝ) < 83.5 + 1 ∧
    ∀ z ∈ ["32633"], z ≠ "5041" ∧ z ≠ "5042" :=
  ⟨2 * (1 * Real.pi / 180 * meanRadius), by ring, by norm_num, by decide⟩

end Tatc.Props
