import Verif.Props.InView
import Verif.Props.Latency

/-!
# C161: a contact lasts while the satellite stands above the minimum elevation angle of the station
-/

namespace Tatc.Props
open Tatc Tatc.Num Tatc.Geometry Tatc.Spec Tatc.Orbit Tatc.Coverage Tatc.Latency Tatc.Pandas

/-- A visible interval begins at a rise or at the start, and ends at a set or at the end. -/
theorem interval_ends {start end_ M : Int} {events : List (Int × EventKind)} {I : Interval}
    (h : I ∈ visibleIntervals start end_ M events) :
    (I.left = start ∨ (I.left, .rise) ∈ events) ∧ (I.right = end_ ∨ (I.right, .set) ∈ events) := by
  have hrise : ∀ r, r ∈ risesOf events → (r, EventKind.rise) ∈ events := by
    intro r hr
    obtain ⟨e, he, rfl⟩ := List.mem_map.1 hr
    obtain ⟨h1, h2⟩ := List.mem_filter.1 he
    have : e.2 = .rise := by simpa using h2
    rw [← this]
    exact h1
  have hset : ∀ r, r ∈ setsOf events → (r, EventKind.set) ∈ events := by
    intro r hr
    obtain ⟨e, he, rfl⟩ := List.mem_map.1 hr
    obtain ⟨h1, h2⟩ := List.mem_filter.1 he
    have : e.2 = .set := by simpa using h2
    rw [← this]
    exact h1
  rw [visibleIntervals_eq] at h
  split_ifs at h with h1 h2
  · rw [List.mem_singleton.1 h]
    exact ⟨.inl rfl, .inl rfl⟩
  · rcases List.mem_append.1 h with h | h
    · rcases List.mem_append.1 h with h | h
      · unfold leadingOf at h
        split at h
        · simp at h
        · next s hs =>
          split_ifs at h
          · rw [List.mem_singleton.1 h]
            exact ⟨.inl rfl, .inr (hset s (List.mem_of_head? hs))⟩
          · simp at h
      · unfold matchedOf at h
        obtain ⟨r, hr, hm⟩ := List.mem_filterMap.1 h
        split at hm
        · simp at hm
        · next s rest hs =>
          have : s ∈ matching M r (setsOf events) := by rw [hs]; exact List.mem_cons_self
          unfold matching at this
          simp only [Option.some.injEq] at hm
          rw [← hm]
          exact ⟨.inr (hrise r hr), .inr (hset s (List.mem_filter.1 this).1)⟩
    · unfold trailingOf at h
      split at h
      · simp at h
      · next r hr =>
        split_ifs at h
        · rw [List.mem_singleton.1 h]
          exact ⟨.inr (hrise r (List.mem_of_getLast? hr)), .inl rfl⟩
        · simp at h
  · simp at h

/-- The satellite stands at least `e` degrees above the horizon of the place at the time `t` (nanoseconds). -/
def Craft.Stands (c : Craft) (e lat lon : ℝ) (t : ℚ) : Prop := ElevationAtLeast e
  (circularPosition (meanRadius + c.altitude) (orbitPeriodSeconds c.altitude) c.u c.v ((t : ℝ) / 10 ^ 9))
  (turningAt meanRadius lat lon siderealDay ((t : ℝ) / 10 ^ 9))

/-- A station of the analysis: rises and sets through its minimum elevation angle are reported as they happen (to within
`tolerance` nanoseconds), and passes can last three times that and two microseconds. -/
structure Heard (start end_ tolerance : Int) (c : Craft) (l : Listening) : Prop where
  angle : 0 ≤ l.minElevation ∧ l.minElevation ≤ 90
  enough : (3 * (tolerance : ℝ) + 2000) / 10 ^ 9 ≤ maxAccessTime c.altitude l.minElevation
  reported : Reported start end_ tolerance (c.Stands l.minElevation l.latitude l.longitude) l.events

/-- The time is within `tolerance` of a rise or set. -/
def NearEvent (tolerance : Int) (events : List (Int × EventKind)) (t : ℚ) : Prop :=
  ∃ e ∈ events, isCrossing e ∧ |t - e.1| < tolerance

/-- The ticks of the visible intervals of a station. -/
theorem station_ticks {start end_ tolerance : Int} (hse : start ≤ end_) (ht : 0 ≤ tolerance) {c : Craft} (hc : c.Low)
    {l : Listening} (h : Heard start end_ tolerance c l) :
    (∀ p ∈ (stationRun c.altitude start end_ l).2, start ≤ p.left ∧ p.left ≤ p.right ∧ p.right ≤ end_) ∧
    ∀ t : Int, ¬ NearEvent tolerance l.events ((t : ℚ) + 1 / 2) → start ≤ t → t + 1 ≤ end_ →
      ((∃ p ∈ (stationRun c.altitude start end_ l).2, p.left ≤ t ∧ t + 1 ≤ p.right) ↔
        c.Stands l.minElevation l.latitude l.longitude ((t : ℚ) + 1 / 2)) := by
  obtain ⟨b, cs, hs, hcs, hag⟩ := signal_of_reported c hc l.minElevation h.angle.1 h.angle.2 l.latitude l.longitude start end_
    tolerance ht h.enough l.events h.reported
  refine ⟨visibleIntervals_window hs hse, ?_⟩
  intro t hnear h1 h2
  have hseen : SeenAs start end_ (b, cs) ⟨⟨"", 0, false⟩, fun _ => true, (stationRun c.altitude start end_ l).2⟩ := ⟨_, _, hs, rfl⟩
  have htick := tick_in_period hse hseen t
  simp only at htick
  have q1 : (start : ℚ) ≤ t := by exact_mod_cast h1
  have q2 : (t : ℚ) + 1 ≤ end_ := by exact_mod_cast h2
  have hag := hag ((t : ℚ) + 1 / 2) (by linarith) (by linarith) (by
    intro x hx
    constructor
    · intro he
      have : (2 * t + 1 : ℤ) = 2 * x := by
        have : ((2 * t + 1 : ℤ) : ℚ) = ((2 * x : ℤ) : ℚ) := by push_cast; linarith
        exact_mod_cast this
      omega
    · rw [hcs] at hx
      obtain ⟨e, he, rfl⟩ := List.mem_map.1 hx
      obtain ⟨he1, he2⟩ := List.mem_filter.1 he
      by_contra hlt
      exact hnear ⟨e, he1, he2, not_le.1 hlt⟩)
  rw [htick]
  unfold Craft.Stands
  rw [← hag]
  exact ⟨fun x => x.2.2, fun x => ⟨h1, h2, x⟩⟩

/-- The satellite stands above the minimum elevation angle of the station from one time to another (except within the
tolerance of rises and sets). -/
def Up (tolerance : Int) (c : Craft) (l : Listening) (rise set : Int) : Prop :=
  ∀ t : Int, rise ≤ t → t + 1 ≤ set → NearEvent tolerance l.events ((t : ℚ) + 1 / 2) ∨
    c.Stands l.minElevation l.latitude l.longitude ((t : ℚ) + 1 / 2)

/-- The epoch is the middle of a contact, rounded down to nanoseconds. -/
def IsMiddle (epoch : ℚ) (start end_ : Int) : Prop := 2 * epoch = start + end_ ∨ 2 * epoch + 1 = start + end_

/-- **C161 (contacts are passes).** Every row of `collect_downlinks` is of a station above whose minimum elevation angle the
satellite stands for the whole contact (except within the tolerance of rises and sets); it lasts at least the minimum access
time, is within the window, begins at a rise or at the start of the window and ends at a set or at its end, and its epoch is
the middle (rounded down to nanoseconds). -/
theorem C161_contact (sort : SortValues Downlink.start) (start end_ tolerance : Int) (hse : start ≤ end_) (ht : 0 ≤ tolerance)
    (c : Craft) (hc : c.Low) (stations : List Listening) (h : ∀ l ∈ stations, Heard start end_ tolerance c l) (d : Downlink)
    (hd : d ∈ collectDownlinks sort c.name (stations.map (stationRun c.altitude start end_))) :
    ∃ l ∈ stations, d.station = l.station.name ∧ d.satellite = c.name ∧ 1000 * l.station.minAccess ≤ d.end_ - d.start ∧
      start ≤ d.start ∧ d.start ≤ d.end_ ∧ d.end_ ≤ end_ ∧
      (d.start = start ∨ (d.start, .rise) ∈ l.events) ∧ (d.end_ = end_ ∨ (d.end_, .set) ∈ l.events) ∧
      IsMiddle d.epoch d.start d.end_ ∧ Up tolerance c l d.start d.end_ := by
  obtain ⟨-, source, hperm, hall⟩ := C73_downlinks sort c.name (stations.map (stationRun c.altitude start end_))
  obtain ⟨i, hi, rfl⟩ := List.getElem_of_mem hd
  have hlen := hall.length_eq
  have hrel := List.forall₂_iff_get.1 hall |>.2 i (by omega) hi
  have hmem : source.get ⟨i, by omega⟩ ∈ source := List.get_mem _ _
  rw [hperm.mem_iff] at hmem
  obtain ⟨sp, hsp, hmem⟩ := List.mem_flatMap.1 hmem
  obtain ⟨l, hl, rfl⟩ := List.mem_map.1 hsp
  obtain ⟨p, hp, hpe⟩ := List.mem_map.1 hmem
  obtain ⟨hp1, hp2⟩ := List.mem_filter.1 hp
  rw [← hpe] at hrel
  obtain ⟨r1, r2, r3, r4, r5⟩ := hrel
  simp only [List.get_eq_getElem] at r1 r2 r3 r4 r5
  obtain ⟨hw, hticks⟩ := station_ticks hse ht hc (h l hl)
  obtain ⟨w1, w2, w3⟩ := hw p hp1
  obtain ⟨e1, e2⟩ := interval_ends hp1
  simp only [decide_eq_true_eq] at hp2
  refine ⟨l, hl, r1, r2, ?_, ?_, ?_, ?_, ?_, ?_, by unfold IsMiddle; rw [r3, r4]; exact r5, ?_⟩
  · rw [r3, r4]; exact hp2
  · rw [r3]; exact w1
  · rw [r3, r4]; exact w2
  · rw [r4]; exact w3
  · rw [r3]; exact e1
  · rw [r4]; exact e2
  · intro t t1 t2
    rw [r3] at t1
    rw [r4] at t2
    by_cases hn : NearEvent tolerance l.events ((t : ℚ) + 1 / 2)
    · exact .inl hn
    · exact .inr ((hticks t hn (by omega) (by omega)).1 ⟨p, hp1, t1, t2⟩)

/-- **C161 (passes are contacts).** Whenever the satellite stands above the minimum elevation angle of a station (and it is
not within the tolerance of a rise or set), there is a row of `collect_downlinks` for the station that lasts at this time,
unless the pass is shorter than the minimum access time of the station. -/
theorem C161_pass (sort : SortValues Downlink.start) (start end_ tolerance : Int) (hse : start ≤ end_) (ht : 0 ≤ tolerance)
    (c : Craft) (hc : c.Low) (stations : List Listening) (h : ∀ l ∈ stations, Heard start end_ tolerance c l)
    (l : Listening) (hl : l ∈ stations) (t : Int) (h1 : start ≤ t) (h2 : t + 1 ≤ end_)
    (hn : ¬ NearEvent tolerance l.events ((t : ℚ) + 1 / 2))
    (hs : c.Stands l.minElevation l.latitude l.longitude ((t : ℚ) + 1 / 2)) :
    (∃ d ∈ collectDownlinks sort c.name (stations.map (stationRun c.altitude start end_)),
      d.station = l.station.name ∧ d.satellite = c.name ∧ d.start ≤ t ∧ t + 1 ≤ d.end_ ∧
      (d.start = start ∨ (d.start, .rise) ∈ l.events) ∧ (d.end_ = end_ ∨ (d.end_, .set) ∈ l.events) ∧
      Up tolerance c l d.start d.end_) ∨
    ∃ rise set : Int, rise ≤ t ∧ t + 1 ≤ set ∧ set - rise < 1000 * l.station.minAccess ∧
      (rise = start ∨ (rise, .rise) ∈ l.events) ∧ (set = end_ ∨ (set, .set) ∈ l.events) ∧ Up tolerance c l rise set := by
  obtain ⟨hw, hticks⟩ := station_ticks hse ht hc (h l hl)
  obtain ⟨p, hp, p1, p2⟩ := (hticks t hn h1 h2).2 hs
  obtain ⟨e1, e2⟩ := interval_ends hp
  have hup : Up tolerance c l p.left p.right := by
    intro t t1 t2
    obtain ⟨w1, w2, w3⟩ := hw p hp
    by_cases hn : NearEvent tolerance l.events ((t : ℚ) + 1 / 2)
    · exact .inl hn
    · exact .inr ((hticks t hn (by omega) (by omega)).1 ⟨p, hp, t1, t2⟩)
  rcases lt_or_ge (p.right - p.left) (1000 * l.station.minAccess) with hlt | hge
  · exact .inr ⟨p.left, p.right, p1, p2, hlt, e1, e2, hup⟩
  · left
    obtain ⟨-, source, hperm, hall⟩ := C73_downlinks sort c.name (stations.map (stationRun c.altitude start end_))
    have hmem : (l.station, p) ∈ source := by
      rw [hperm.mem_iff]
      refine List.mem_flatMap.2 ⟨_, List.mem_map_of_mem hl, List.mem_map.2 ⟨p, List.mem_filter.2 ⟨hp, ?_⟩, rfl⟩⟩
      exact decide_eq_true hge
    obtain ⟨i, hi, he⟩ := List.getElem_of_mem hmem
    have hlen := hall.length_eq
    have hrel := (List.forall₂_iff_get.1 hall).2 i hi (by omega)
    simp only [List.get_eq_getElem, he] at hrel
    obtain ⟨r1, r2, r3, r4, -⟩ := hrel
    exact ⟨_, List.getElem_mem (by omega : i < (collectDownlinks sort c.name (stations.map (stationRun c.altitude start end_))).length),
      r1, r2, by rw [r3]; exact p1, by rw [r4]; exact p2, by rw [r3]; exact e1, by rw [r4]; exact e2,
      by rw [r3, r4]; exact hup⟩

/-- The satellite cannot start a contact with the station during `[after, before)`: whenever it stands above its minimum
elevation angle then (and not within the tolerance of a rise or set), it rose before, or the pass is shorter than the
minimum access time. -/
def NoneStarts (start end_ tolerance : Int) (c : Craft) (l : Listening) (after before : Int) : Prop :=
  ∀ t : Int, start ≤ t → t + 1 ≤ end_ → after ≤ t → t < before → ¬ NearEvent tolerance l.events ((t : ℚ) + 1 / 2) →
    c.Stands l.minElevation l.latitude l.longitude ((t : ℚ) + 1 / 2) →
    ∃ rise set : Int, rise ≤ t ∧ t + 1 ≤ set ∧ (rise = start ∨ (rise, .rise) ∈ l.events) ∧
      (set = end_ ∨ (set, .set) ∈ l.events) ∧ Up tolerance c l rise set ∧ (rise < after ∨ set - rise < 1000 * l.station.minAccess)

/-- **C161 (delivery).** A row of `compute_latencies` names a station over which the satellite rises after the observation
ends, and stands above its minimum elevation angle during a contact of at least the minimum access time, in the middle of
which the observation is downlinked; and no contact with any station can start before it.  A row without station is one for
which no contact can start any more in the window. -/
theorem C161_delivery (sort : SortValues Downlink.start) (sortEnd : SortValues Obs.end_) (sortStart : SortValues Downlink.start)
    (sortObserved : SortValues LatRow.observed) (start end_ tolerance : Int) (hse : start ≤ end_) (ht : 0 ≤ tolerance)
    (c : Craft) (hc : c.Low) (stations : List Listening) (h : ∀ l ∈ stations, Heard start end_ tolerance c l)
    (observations : List Obs) (row : LatRow)
    (hrow : row ∈ computeLatencies sortEnd sortStart sortObserved observations
      (collectDownlinks sort c.name (stations.map (stationRun c.altitude start end_))))
    (hsat : row.obs.satellite = c.name) :
    row.obs ∈ observations ∧
    ((∃ l ∈ stations, ∃ (rise set : Int) (epoch : ℚ), row.station = some l.station.name ∧
      row.downlinked = some epoch ∧ row.latency = some (epoch - row.obs.epoch) ∧ IsMiddle epoch rise set ∧
      row.obs.end_ ≤ rise ∧ start ≤ rise ∧ set ≤ end_ ∧ 1000 * l.station.minAccess ≤ set - rise ∧
      (rise = start ∨ (rise, .rise) ∈ l.events) ∧ (set = end_ ∨ (set, .set) ∈ l.events) ∧
      Up tolerance c l rise set ∧
      ∀ l' ∈ stations, NoneStarts start end_ tolerance c l' row.obs.end_ rise) ∨
    (row.station = none ∧ row.downlinked = none ∧ row.latency = none ∧
      ∀ l' ∈ stations, NoneStarts start end_ tolerance c l' row.obs.end_ end_)) := by
  obtain ⟨o, ho, rfl⟩ := mem_computeLatencies sortEnd sortStart sortObserved hrow
  refine ⟨ho, ?_⟩
  have hnone : ∀ before : Int, (∀ d ∈ collectDownlinks sort c.name (stations.map (stationRun c.altitude start end_)),
      Eligible o d → before ≤ d.start) → ∀ l' ∈ stations, NoneStarts start end_ tolerance c l' o.end_ before := by
    intro before hb l' hl' t t1 t2 t3 t4 t5 t6
    rcases C161_pass sort start end_ tolerance hse ht c hc stations h l' hl' t t1 t2 t5 t6 with ⟨d, hd, d1, d2, d3, d4, d5, d6, d7⟩ | hx
    · refine ⟨d.start, d.end_, d3, d4, d5, d6, d7, .inl ?_⟩
      by_contra hge
      have := hb d hd ⟨by rw [d2]; exact hsat.symm, not_lt.1 hge⟩
      omega
    · obtain ⟨r, s, x1, x2, x3, x4, x5, x6⟩ := hx
      exact ⟨r, s, x1, x2, x4, x5, x6, .inr x3⟩
  cases hd : asofForward (sortStart.run (collectDownlinks sort c.name (stations.map (stationRun c.altitude start end_)))) o with
  | none =>
    right
    have hno := asofForward_none hd
    refine ⟨by simp [latencyRow, hd], by simp [latencyRow, hd], by simp [latencyRow, hd], ?_⟩
    exact hnone end_ fun d hd he => absurd ⟨d, hd, he⟩ hno
  | some d =>
    left
    obtain ⟨d1, d2, d3⟩ := asofForward_some hd
    obtain ⟨l, hl, a1, a2, a3, a4, a5, a6, a7, a8, a10, a9⟩ := C161_contact sort start end_ tolerance hse ht c hc stations h d d1
    exact ⟨l, hl, d.start, d.end_, d.epoch, by simp [latencyRow, hd, a1], by simp [latencyRow, hd], by simp [latencyRow, hd], a10,
      d2.2, a4, a6, a3, a7, a8, a9, hnone d.start fun d' hd' he => d3 d' hd' he⟩

/-- The station below `passingCraft`, that hears it down to the horizon for at least 10 s. -/
def passedStation (c : Int) : Listening :=
  ⟨⟨"s", 10000000⟩, 0, 0, 0, [(-c, .rise), (0, .culminate), (c, .set)]⟩

theorem passed_heard : ∃ c : Int, 2000000000000 < c ∧ c < 3600000000000 ∧ (passingCraft c).Low ∧
    Heard (-5000000000000) 5000000000000 1 (passingCraft c) (passedStation c) ∧
    (passingCraft c).Stands 0 0 0 ((0 : Int) + 1 / 2) ∧
    ¬ (passingCraft c).Stands 0 0 0 ((-4000000000000 : Int) + 1 / 2) := by
  obtain ⟨c, hc, hcu, h⟩ := passing_analysed
  have hthr : regardThreshold meanRadius 180 = 0 := by
    unfold regardThreshold minElevation
    have hR := meanRadius_gt
    have e1 : radians 180 / 2 = Real.pi / 2 := by unfold radians; ring
    have e2 : sinRho meanRadius 0 = 1 / 2 := by
      unfold sinRho
      rw [div_eq_div_iff (by linarith) (by norm_num)]
      ring
    rw [e1, Real.sin_pi_div_two, e2]
    norm_num
  have hl : (⟨⟨"x", 0, false⟩, 180, fun _ => true, [(-c, .rise), (0, .culminate), (c, .set)]⟩ : Looking) ∈
    (passingCraft c).instruments := List.mem_singleton_self _
  have e := h.enough _ hl
  have r := h.reported _ hl
  simp only [passingCraft, hthr] at e r
  refine ⟨c, hc, hcu, h.low, ⟨by simp [passedStation], e, r⟩, ?_⟩
  obtain ⟨T, hT1, hT2, hT⟩ := pass_iff
  have eq : ∀ x, turningAt meanRadius 0 0 siderealDay x = turning meanRadius siderealDay x := by
    intro x; simp [turningAt, turning]
  simp only [Craft.Stands, passingCraft]
  refine ⟨?_, ?_⟩
  · rw [eq, hT]
    · rw [abs_of_nonneg (by norm_num)]; norm_num; linarith
    · rw [abs_of_nonneg (by norm_num)]; norm_num
  · rw [eq, hT]
    · rw [abs_of_nonpos (by norm_num)]; norm_num; linarith
    · rw [abs_of_nonpos (by norm_num)]; norm_num

theorem passed_far {c : Int} (hc : 2000000000000 < c) (hcu : c < 3600000000000) {t : Int} (ht : t = 0 ∨ t = -4000000000000) :
    ¬ NearEvent 1 (passedStation c).events ((t : ℚ) + 1 / 2) := by
  have hcq : (2000000000000 : ℚ) < c := by exact_mod_cast hc
  have hcq' : (c : ℚ) < 3600000000000 := by exact_mod_cast hcu
  rintro ⟨e, he, h1, h2⟩
  simp only [passedStation, List.mem_cons, List.not_mem_nil, or_false] at he
  rw [abs_lt] at h2
  rcases ht with rfl | rfl
  · rcases he with rfl | rfl | rfl
    · push_cast at h2; linarith [h2.2]
    · simp [isCrossing] at h1
    · push_cast at h2; linarith [h2.1]
  · rcases he with rfl | rfl | rfl
    · push_cast at h2; linarith [h2.1]
    · simp [isCrossing] at h1
    · push_cast at h2; linarith [h2.1]

/-- The station is in contact with it at 0. -/
theorem passed_contact (sort : SortValues Downlink.start) {c : Int} (hc : 2000000000000 < c) (hcu : c < 3600000000000)
    (hlow : (passingCraft c).Low) (h : Heard (-5000000000000) 5000000000000 1 (passingCraft c) (passedStation c))
    (hs : (passingCraft c).Stands 0 0 0 ((0 : Int) + 1 / 2)) :
    ∃ d ∈ collectDownlinks sort "a" ([passedStation c].map (stationRun meanRadius (-5000000000000) 5000000000000)),
      d.station = "s" ∧ d.start ≤ 0 ∧ 0 + 1 ≤ d.end_ := by
  rcases C161_pass sort (-5000000000000) 5000000000000 1 (by norm_num) (by norm_num) (passingCraft c) hlow [passedStation c]
    (by intro l hl; rw [List.mem_singleton.1 hl]; exact h) (passedStation c) (List.mem_singleton_self _) 0 (by norm_num)
    (by norm_num) (passed_far hc hcu (.inl rfl)) hs with ⟨d, hd, h1, -, h3, h4, -⟩ | ⟨r, s, h1, h2, h3, h4, h5, -⟩
  · exact ⟨d, hd, h1, h3, h4⟩
  · exfalso
    simp [passedStation] at h3 h4 h5
    omega

/-- An observation that ends 4000 s before is downlinked during this pass, as the satellite rises after that. -/
example (sort : SortValues Downlink.start) (sortEnd : SortValues Obs.end_) (sortStart : SortValues Downlink.start)
    (sortObserved : SortValues LatRow.observed) : ∃ c : Int, ∃ row ∈ computeLatencies sortEnd sortStart sortObserved
      [⟨1, "a", "x", -4100000000000, -4050000000000, -4000000000000⟩]
      (collectDownlinks sort "a" ([passedStation c].map (stationRun meanRadius (-5000000000000) 5000000000000))),
      row.station = some "s" := by
  obtain ⟨c, hc, hcu, hlow, h, hs, hns⟩ := passed_heard
  obtain ⟨d, hd, -⟩ := passed_contact sort hc hcu hlow h hs
  refine ⟨c, ?_⟩
  have hp := (C12_earliest_downlink_partial sortEnd sortStart sortObserved
    [⟨1, "a", "x", -4100000000000, -4050000000000, -4000000000000⟩] _ (List.ne_nil_of_mem hd)).1
  have := hp.mem_iff.2 (List.mem_singleton_self _)
  obtain ⟨row, hrow, ho⟩ := List.mem_map.1 this
  refine ⟨row, hrow, ?_⟩
  rcases (C161_delivery sort sortEnd sortStart sortObserved (-5000000000000) 5000000000000 1 (by norm_num) (by norm_num)
    (passingCraft c) hlow [passedStation c] (by intro l hl; rw [List.mem_singleton.1 hl]; exact h) _ row hrow
    (by rw [ho]; rfl)).2 with ⟨l, hl, rise, set, epoch, h1, -⟩ | ⟨-, -, -, h4⟩
  · rw [List.mem_singleton.1 hl] at h1
    exact h1
  · exfalso
    obtain ⟨r, s, s1, s2, s3, s4, s5, s6⟩ := h4 _ (List.mem_singleton_self _) 0 (by norm_num) (by norm_num) (by rw [ho]; norm_num)
      (by norm_num) (passed_far hc hcu (.inl rfl)) hs
    rw [ho] at s6
    rcases s6 with s6 | s6
    · rcases s5 (-4000000000000) s6.le (by omega) with h7 | h7
      · exact passed_far hc hcu (.inr rfl) h7
      · exact hns h7
    · simp [passedStation] at s3 s4 s6
      omega

end Tatc.Props
