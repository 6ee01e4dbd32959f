import Verif.Props.SightGap
import Verif.Props.Contact

/-!
# C173: from the pass over a point to the arrival of its data on the ground
-/

namespace Tatc.Props
open Tatc Tatc.Num Tatc.Geometry Tatc.Spec Tatc.Orbit Tatc.Coverage Tatc.Pandas Tatc.Latency

/-- All contacts of the satellites, each with the stations (and events) of `heard`: the frames of `collect_downlinks` of the
satellites, one after the other. -/
noncomputable def contactsOf (sort : SortValues Downlink.start) (start end_ : Int) (heard : Craft → List Listening)
    (satellites : List (List Craft)) : List Downlink :=
  satellites.flatten.flatMap fun c => collectDownlinks sort c.name ((heard c).map (stationRun c.altitude start end_))

/-- The first contact that the satellite can start after the time `after` lasts from `rise` to `set`, with the station `l`. -/
structure FirstContact (start end_ tolerance : Int) (c : Craft) (stations : List Listening) (after : Int) (l : Listening)
    (rise set : Int) : Prop where
  later : after ≤ rise
  window : start ≤ rise ∧ set ≤ end_
  long : 1000 * l.station.minAccess ≤ set - rise
  begins : rise = start ∨ (rise, .rise) ∈ l.events
  ends : set = end_ ∨ (set, .set) ∈ l.events
  up : Up tolerance c l rise set
  first : ∀ l' ∈ stations, NoneStarts start end_ tolerance c l' after rise

theorem contact_satellite {sort : SortValues Downlink.start} {name : String} {stations : List (Station × List Interval)}
    {d : Downlink} (hd : d ∈ collectDownlinks sort name stations) : d.satellite = name := by
  unfold collectDownlinks at hd
  simp only at hd
  split_ifs at hd with h
  · rw [(sort.perm _).mem_iff] at hd
    obtain ⟨sp, -, hd⟩ := List.mem_flatMap.1 hd
    obtain ⟨p, -, rfl⟩ := List.mem_map.1 hd
    rfl
  · simp at hd

/-- How the observation `o` of the satellite `c` is delivered. -/
theorem delivered {sort : SortValues Downlink.start} {start end_ tolerance : Int} (hse : start ≤ end_) (ht : 0 ≤ tolerance)
    {c : Craft} (hc : c.Low) {stations : List Listening} (h : ∀ l ∈ stations, Heard start end_ tolerance c l)
    {downlinks : List Downlink}
    (hown : ∀ d : Downlink, d.satellite = c.name →
      (d ∈ downlinks ↔ d ∈ collectDownlinks sort c.name (stations.map (stationRun c.altitude start end_))))
    (sortStart : SortValues Downlink.start) {o : Obs} (hsat : o.satellite = c.name) :
    (∃ l ∈ stations, ∃ (rise set : Int) (epoch : ℚ), FirstContact start end_ tolerance c stations o.end_ l rise set ∧
      IsMiddle epoch rise set ∧ (latencyRow (sortStart.run downlinks) o).station = some l.station.name ∧
      (latencyRow (sortStart.run downlinks) o).downlinked = some epoch ∧
      (latencyRow (sortStart.run downlinks) o).latency = some (epoch - o.epoch)) ∨
    ((latencyRow (sortStart.run downlinks) o).station = none ∧ (latencyRow (sortStart.run downlinks) o).downlinked = none ∧
      (latencyRow (sortStart.run downlinks) o).latency = none ∧
      ∀ l' ∈ stations, NoneStarts start end_ tolerance c l' o.end_ end_) := by
  have hnone : ∀ before : Int, (∀ d ∈ downlinks, Eligible o d → before ≤ d.start) →
      ∀ l' ∈ stations, NoneStarts start end_ tolerance c l' o.end_ before := by
    intro before hb l' hl' t t1 t2 t3 t4 t5 t6
    rcases C161_pass sort start end_ tolerance hse ht c hc stations h l' hl' t t1 t2 t5 t6 with ⟨d, hd, d1, d2, d3, d4, d5, d6, d7⟩ | hx
    · refine ⟨d.start, d.end_, d3, d4, d5, d6, d7, .inl ?_⟩
      by_contra hge
      have := hb d ((hown d d2).2 hd) ⟨by rw [d2]; exact hsat.symm, not_lt.1 hge⟩
      omega
    · obtain ⟨r, s, x1, x2, x3, x4, x5, x6⟩ := hx
      exact ⟨r, s, x1, x2, x4, x5, x6, .inr x3⟩
  cases hd : asofForward (sortStart.run downlinks) o with
  | none =>
    right
    have hno := asofForward_none hd
    refine ⟨by simp [latencyRow, hd], by simp [latencyRow, hd], by simp [latencyRow, hd], ?_⟩
    exact hnone end_ fun d hd he => absurd ⟨d, hd, he⟩ hno
  | some d =>
    left
    obtain ⟨d1, d2, d3⟩ := asofForward_some hd
    obtain ⟨l, hl, a1, a2, a3, a4, a5, a6, a7, a8, a10, a9⟩ := C161_contact sort start end_ tolerance hse ht c hc stations h d
      ((hown d (d2.1.trans hsat)).1 d1)
    exact ⟨l, hl, d.start, d.end_, d.epoch, ⟨d2.2, ⟨a4, a6⟩, a3, a7, a8, a9, hnone d.start fun d' hd' he => d3 d' hd' he⟩, a10,
      by simp [latencyRow, hd, a1], by simp [latencyRow, hd], by simp [latencyRow, hd]⟩

/-- With different names, the contacts of a satellite are its own. -/
theorem contactsOf_own {sort : SortValues Downlink.start} {start end_ : Int} {heard : Craft → List Listening}
    {satellites : List (List Craft)}
    (hnames : ∀ c ∈ satellites.flatten, ∀ c' ∈ satellites.flatten, c.name = c'.name → c = c') {c : Craft}
    (hc : c ∈ satellites.flatten) (d : Downlink) (hd : d.satellite = c.name) :
    d ∈ contactsOf sort start end_ heard satellites ↔
      d ∈ collectDownlinks sort c.name ((heard c).map (stationRun c.altitude start end_)) := by
  unfold contactsOf
  rw [List.mem_flatMap]
  constructor
  · rintro ⟨c', hc', h⟩
    rw [hnames c hc c' hc' (hd.symm.trans (contact_satellite h))]
    exact h
  · intro h
    exact ⟨c, hc, h⟩

/-- What C173 says about a row: it is of a pass of the satellite `c` over the point, and its data arrives in the middle of the
first contact after that (or it has no latency, if no contact can start any more in the window). -/
def Arrives (start end_ tolerance : Int) (lat lon : ℝ) (k : Int) (heard : Craft → List Listening) (c : Craft) (l : Looking)
    (rise set : Int) (row : LatRow) : Prop :=
  PassOf start end_ tolerance lat lon c l rise set ∧ ReportOf l c k rise set row.obs ∧
  ((∃ g ∈ heard c, ∃ (contactRise contactSet : Int) (epoch : ℚ),
      FirstContact start end_ tolerance c (heard c) row.obs.end_ g contactRise contactSet ∧
      IsMiddle epoch contactRise contactSet ∧ row.station = some g.station.name ∧ row.downlinked = some epoch ∧
      row.latency = some (epoch - row.obs.epoch)) ∨
    (row.station = none ∧ row.downlinked = none ∧ row.latency = none ∧
      ∀ g ∈ heard c, NoneStarts start end_ tolerance c g row.obs.end_ end_))

/-- **C173 (rows).** Every row of the latencies of a point is of a pass of one of the satellites over it, of at least the
minimum access time, and of the first contact of that satellite after the observation. -/
theorem C173_row (sort : SortValues Obs.start) (sortDown : SortValues Downlink.start) (sortEnd : SortValues Obs.end_)
    (sortStart : SortValues Downlink.start) (sortObserved : SortValues LatRow.observed) (k start end_ tolerance : Int)
    (lat lon : ℝ) (satellites : List (List Craft)) (heard : Craft → List Listening) (rows : List Obs) (hse : start ≤ end_)
    (ht : 0 ≤ tolerance) (hnames : ∀ c ∈ satellites.flatten, ∀ c' ∈ satellites.flatten, c.name = c'.name → c = c')
    (h : ∀ s ∈ satellites, ∀ c ∈ s, Watched start end_ tolerance lat lon c)
    (hheard : ∀ s ∈ satellites, ∀ c ∈ s, ∀ g ∈ heard c, Heard start end_ tolerance c g)
    (hrun : collectMultiObservations sort k (satellites.map fun s => s.map (Craft.member start end_)) = .ok rows)
    (row : LatRow)
    (hrow : row ∈ computeLatencies sortEnd sortStart sortObserved rows (contactsOf sortDown start end_ heard satellites)) :
    ∃ s ∈ satellites, ∃ c ∈ s, ∃ l ∈ c.instruments, ∃ rise set : Int, 1000 * l.spec.minAccess ≤ set - rise ∧
      l.valid ⟨rise, set⟩ = true ∧ Arrives start end_ tolerance lat lon k heard c l rise set row := by
  obtain ⟨o, ho, rfl⟩ := mem_computeLatencies sortEnd sortStart sortObserved hrow
  obtain ⟨s, hs, c, hc, l, hl, rise, set, hpass, hlong, hvalid, hrep⟩ :=
    C170_row sort k start end_ tolerance lat lon satellites rows hse ht h hrun o ho
  have hcf : c ∈ satellites.flatten := List.mem_flatten.2 ⟨s, hs, hc⟩
  exact ⟨s, hs, c, hc, l, hl, rise, set, hlong, hvalid, hpass, hrep,
    delivered hse ht (h s hs c hc).low (hheard s hs c hc) (contactsOf_own hnames hcf) sortStart hrep.satellite⟩

/-- **C173 (passes).** Whenever an instrument sees the point, not within the tolerance of a rise or set, there is a row of
the latencies of this pass, with the first contact of the satellite after the observation, unless the pass is shorter than
the minimum access time or does not meet the tests of the instrument, or no satellite has any contact in the window. -/
theorem C173_pass (sort : SortValues Obs.start) (sortDown : SortValues Downlink.start) (sortEnd : SortValues Obs.end_)
    (sortStart : SortValues Downlink.start) (sortObserved : SortValues LatRow.observed) (k start end_ tolerance : Int)
    (lat lon : ℝ) (satellites : List (List Craft)) (heard : Craft → List Listening) (rows : List Obs) (hse : start ≤ end_)
    (ht : 0 ≤ tolerance) (hnames : ∀ c ∈ satellites.flatten, ∀ c' ∈ satellites.flatten, c.name = c'.name → c = c')
    (h : ∀ s ∈ satellites, ∀ c ∈ s, Watched start end_ tolerance lat lon c)
    (hheard : ∀ s ∈ satellites, ∀ c ∈ s, ∀ g ∈ heard c, Heard start end_ tolerance c g)
    (hrun : collectMultiObservations sort k (satellites.map fun s => s.map (Craft.member start end_)) = .ok rows)
    (hsome : contactsOf sortDown start end_ heard satellites ≠ [])
    (s : List Craft) (hs : s ∈ satellites) (c : Craft) (hc : c ∈ s) (l : Looking) (hl : l ∈ c.instruments)
    (t : Int) (h1 : start ≤ t) (h2 : t + 1 ≤ end_) (hn : ¬ Near tolerance l ((t : ℚ) + 1 / 2))
    (hsee : c.flight.Sees (l.fieldOfRegard / 2) meanRadius siderealDay lat lon ((t : ℚ) + 1 / 2)) :
    ∃ rise set : Int, rise ≤ t ∧ t + 1 ≤ set ∧
      ((∃ row ∈ computeLatencies sortEnd sortStart sortObserved rows (contactsOf sortDown start end_ heard satellites),
          Arrives start end_ tolerance lat lon k heard c l rise set row) ∨
        set - rise < 1000 * l.spec.minAccess ∨ l.valid ⟨rise, set⟩ = false) := by
  obtain ⟨rise, set, t1, t2, hpass, hcase⟩ :=
    C170_pass sort k start end_ tolerance lat lon satellites rows hse ht h hrun s hs c hc l hl t h1 h2 hn hsee
  refine ⟨rise, set, t1, t2, ?_⟩
  rcases hcase with ⟨o, ho, hrep⟩ | hcase
  · left
    have hp := (C12_earliest_downlink_partial sortEnd sortStart sortObserved rows _ hsome).1
    obtain ⟨row, hrow, hro⟩ := List.mem_map.1 (hp.mem_iff.2 ho)
    refine ⟨row, hrow, ?_⟩
    obtain ⟨o', ho', rfl⟩ := mem_computeLatencies sortEnd sortStart sortObserved hrow
    have : o' = o := hro
    subst this
    have hcf : c ∈ satellites.flatten := List.mem_flatten.2 ⟨s, hs, hc⟩
    exact ⟨hpass, hrep,
      delivered hse ht (h s hs c hc).low (hheard s hs c hc) (contactsOf_own hnames hcf) sortStart hrep.satellite⟩
  · exact .inr hcase

/-- How far East a place is over which the satellite `laterCraft 0` passes at the time `τ` (seconds). -/
noncomputable def eastOf (τ : ℝ) : ℝ := 2 * Real.pi * τ / orbitPeriodSeconds meanRadius - 2 * Real.pi * τ / siderealDay

/-- From there it is seen as another satellite from the longitude 0. -/
theorem stands_east (τ e : ℝ) (events events' : List (Int × EventKind)) (t : ℚ) :
    (laterCraft 0 events).Stands e 0 (eastOf τ) t ↔ (laterCraft τ events').Stands e 0 0 t := by
  unfold Craft.Stands
  have e0 : eastOf τ * 180 / Real.pi * Real.pi / 180 = eastOf τ := by field_simp
  have h1 : turningAt meanRadius 0 (eastOf τ) siderealDay ((t : ℝ) / 10 ^ 9) =
      moved (eastOf τ * 180 / Real.pi) 1 (turningAt meanRadius 0 0 siderealDay ((t : ℝ) / 10 ^ 9)) := by
    simp only [turningAt, moved, cosDeg, sinDeg, e0, V3.mk.injEq, add_zero]
    rw [Real.cos_add, Real.sin_add]
    refine ⟨?_, ?_, ?_⟩ <;> ring
  have h2 : circularPosition (meanRadius + (laterCraft 0 events).altitude) (orbitPeriodSeconds (laterCraft 0 events).altitude)
      (laterCraft 0 events).u (laterCraft 0 events).v ((t : ℝ) / 10 ^ 9) = moved (eastOf τ * 180 / Real.pi) 1
      (circularPosition (meanRadius + (laterCraft τ events').altitude) (orbitPeriodSeconds (laterCraft τ events').altitude)
      (laterCraft τ events').u (laterCraft τ events').v ((t : ℝ) / 10 ^ 9)) := by
    have hφ : 2 * Real.pi * τ / orbitPeriodSeconds meanRadius - 2 * Real.pi * τ / siderealDay = eastOf τ := rfl
    simp only [laterCraft, circularPosition, moved, V3.add, V3.smul, cosDeg, sinDeg, e0, hφ, V3.mk.injEq, mul_zero, zero_div,
      sub_zero, Real.cos_zero, Real.sin_zero]
    generalize 2 * Real.pi * ((t : ℝ) / 10 ^ 9) / orbitPeriodSeconds meanRadius = A
    have hB := Real.cos_sq_add_sin_sq (eastOf τ)
    refine ⟨?_, ?_, ?_⟩
    · linear_combination -(meanRadius + meanRadius) * Real.cos A * hB
    · linear_combination -(meanRadius + meanRadius) * Real.sin A * hB
    · ring
  rw [h1, h2, moved_elevation _ (by norm_num)]

/-- A satellite that sets over the point at the time `c` rises 1000 s later over a station: what it sees at the start of the
window is downlinked there. -/
example (sort : SortValues Obs.start) (sortDown : SortValues Downlink.start) (sortEnd : SortValues Obs.end_)
    (sortStart : SortValues Downlink.start) (sortObserved : SortValues LatRow.observed) :
    ∃ (craft : Craft) (g : Listening) (c start : Int) (rows : List Obs),
      collectMultiObservations sort 1 [[craft.member start 5000000000000]] = .ok rows ∧
      ∃ row ∈ computeLatencies sortEnd sortStart sortObserved rows
        (contactsOf sortDown start 5000000000000 (fun _ => [g]) [[craft]]),
        row.station = some g.station.name ∧ row.obs.end_ = c ∧ row.obs.start = start := by
  obtain ⟨T, c, hT1, hT2, hc1, hc2, hcl, hcu, hA, hAs, hB, hBs⟩ := gap_analysed
  have hcl' : (2000000000000 : ℝ) < c := by exact_mod_cast hcl
  have hcu' : (c : ℝ) ≤ 3500000000000 := by exact_mod_cast hcu
  have hcq : (2000000000000 : ℚ) < c := by exact_mod_cast hcl
  have hcq' : (c : ℚ) ≤ 3500000000000 := by exact_mod_cast hcu
  have hthr : regardThreshold meanRadius 180 = 0 := by
    unfold regardThreshold minElevation
    have hR := meanRadius_gt
    have e1 : radians 180 / 2 = Real.pi / 2 := by unfold radians; ring
    have e2 : sinRho meanRadius 0 = 1 / 2 := by
      unfold sinRho
      rw [div_eq_div_iff (by linarith) (by norm_num)]
      ring
    rw [e1, Real.sin_pi_div_two, e2]
    norm_num
  let τ : ℝ := T + (c + 1000000000000 : ℝ) / 10 ^ 9
  let A : Craft := laterCraft 0 [(c, .set)]
  let lA : Looking := ⟨⟨"x", 0, false⟩, 180, fun _ => true, [(c, .set)]⟩
  let g : Listening := ⟨⟨"s", 10000000⟩, 0, eastOf τ, 0, [(c + 1000000000000, .rise)]⟩
  have hlB : (⟨⟨"x", 0, false⟩, 180, fun _ => true, [(c + 1000000000000, .rise)]⟩ : Looking) ∈
    (laterCraft τ [(c + 1000000000000, .rise)]).instruments := List.mem_singleton_self _
  have hlA : lA ∈ A.instruments := List.mem_singleton_self _
  have hg : Heard (2 * c - 4000000000000) 5000000000000 1 A g := by
    have h1 := hB.enough _ hlB
    have h2 := hB.reported _ hlB
    have e : (laterCraft τ [(c + 1000000000000, .rise)]).altitude = meanRadius := rfl
    have e' : (laterCraft (T + (c + 1000000000000 : ℝ) / 10 ^ 9) [(c + 1000000000000, .rise)]).altitude = meanRadius := rfl
    simp only [e', hthr] at h1 h2
    refine ⟨by norm_num [g], h1, ?_⟩
    have : A.Stands g.minElevation g.latitude g.longitude = (laterCraft τ [(c + 1000000000000, .rise)]).Stands 0 0 0 := by
      funext t
      exact propext (stands_east τ 0 _ _ t)
    rw [this]
    exact h2
  have hstand : ∀ t : ℚ, ((2 * c - 4000000000000 : Int) : ℚ) < t → t < ((5000000000000 : Int) : ℚ) →
      (A.Stands g.minElevation g.latitude g.longitude t ↔ |(t : ℝ) / 10 ^ 9 - τ| ≤ T) := by
    intro t t1 t2
    rw [← hBs t t1 t2]
    have := stands_east τ 0 [(c, .set)] [(c + 1000000000000, .rise)] t
    rw [show A.Stands g.minElevation g.latitude g.longitude t ↔ _ from this, ← sees_iff hB.low (by norm_num) (by norm_num)]
    have e' : (laterCraft (T + (c + 1000000000000 : ℝ) / 10 ^ 9) [(c + 1000000000000, .rise)]).altitude = meanRadius := rfl
    rw [e', hthr]
    exact Iff.rfl
  have hfar : ¬ NearEvent 1 g.events (((4900000000000 : Int) : ℚ) + 1 / 2) := by
    rintro ⟨e, he, -, h2⟩
    rw [List.mem_singleton.1 he] at h2
    rw [abs_lt] at h2
    push_cast at h2
    linarith [h2.2]
  have hup : A.Stands g.minElevation g.latitude g.longitude (((4900000000000 : Int) : ℚ) + 1 / 2) := by
    rw [hstand _ (by push_cast; linarith) (by norm_num)]
    rw [abs_le]
    simp only [τ]
    push_cast
    constructor <;> linarith
  have hwin : (2 * c - 4000000000000) ≤ (5000000000000 : Int) := by omega
  have hgs : ∀ l ∈ [g], Heard (2 * c - 4000000000000) 5000000000000 1 A l := by
    intro l hl; rw [List.mem_singleton.1 hl]; exact hg
  have hshort : ∀ rise set : Int, rise ≤ 4900000000000 → 4900000000000 + 1 ≤ set →
      (rise = 2 * c - 4000000000000 ∨ (rise, EventKind.rise) ∈ g.events) →
      (set = 5000000000000 ∨ (set, EventKind.set) ∈ g.events) → set - rise < 1000 * g.station.minAccess → False := by
    intro rise set h1 h2 h3 h4 h5
    simp only [g, List.mem_singleton, Prod.mk.injEq, reduceCtorEq, and_false, or_false, and_true] at h3 h4 h5
    omega
  obtain ⟨d, hd⟩ : ∃ d, d ∈ collectDownlinks sortDown A.name ([g].map (stationRun A.altitude (2 * c - 4000000000000) 5000000000000)) := by
    rcases C161_pass sortDown (2 * c - 4000000000000) 5000000000000 1 hwin (by norm_num) A hA.low [g] hgs g
      (List.mem_singleton_self _) 4900000000000 (by omega) (by norm_num) hfar hup with ⟨d, hd, -⟩ | ⟨r, s, h1, h2, h3, h4, h5, -⟩
    · exact ⟨d, hd⟩
    · exact (hshort r s h1 h2 h4 h5 h3).elim
  obtain ⟨rows, hrows⟩ : ∃ rows, collectMultiObservations sort 1
      [[A.member (2 * c - 4000000000000) 5000000000000]] = .ok rows := ⟨_, rfl⟩
  refine ⟨A, g, c, _, rows, hrows, ?_⟩
  obtain ⟨rise, set, t1, t2, hcase⟩ := C173_pass sort sortDown sortEnd sortStart sortObserved 1 (2 * c - 4000000000000)
    5000000000000 1 0 0 [[A]] (fun _ => [g]) rows hwin (by norm_num)
    (by intro x hx y hy _; simp at hx hy; rw [hx, hy])
    (by intro s hs x hx; rw [List.mem_singleton.1 hs] at hx; rw [List.mem_singleton.1 hx]; exact hA.watched)
    (by intro s hs x hx; rw [List.mem_singleton.1 hs] at hx; rw [List.mem_singleton.1 hx]; exact hgs) hrows
    (List.ne_nil_of_mem (List.mem_flatMap.2 ⟨A, by simp, hd⟩)) [A] (List.mem_singleton_self _) A (List.mem_singleton_self _) lA hlA
    (2 * c - 4000000000000) le_rfl (by omega)
    (by
      rintro ⟨e, he, -, h2⟩
      rw [List.mem_singleton.1 he] at h2
      rw [abs_lt] at h2
      push_cast at h2
      linarith [h2.1])
    ((hAs _ (by push_cast; linarith) (by push_cast; linarith)).2 (by push_cast; rw [abs_le]; constructor <;> linarith))
  rcases hcase with ⟨row, hrow, hpass, hrep, harr⟩ | hcase | hcase
  · obtain ⟨o1, o2⟩ := hrep.whole rfl
    have b1 : rise = 2 * c - 4000000000000 := by
      rcases hpass.begins with h | h
      · exact h
      · simp [lA] at h
    have b2 : set = c := by
      rcases hpass.ends with h | h
      · exfalso
        rcases hpass.seen 4900000000000 (by omega) (by omega) with h1 | h1
        · obtain ⟨e, he, -, h2⟩ := h1
          rw [List.mem_singleton.1 he] at h2
          rw [abs_lt] at h2
          push_cast at h2
          linarith [h2.2]
        · have := (hAs _ (by push_cast; linarith) (by norm_num)).1 h1
          rw [abs_le] at this
          push_cast at this
          linarith [this.2]
      · simpa [lA] using h
    refine ⟨row, hrow, ?_, by rw [o2, b2], by rw [o1, b1]⟩
    rcases harr with ⟨g', hg', r', s', epoch, -, -, h1, -⟩ | ⟨-, -, -, h4⟩
    · rw [List.mem_singleton.1 hg'] at h1
      exact h1
    · exfalso
      obtain ⟨r', s', s1, s2, s3, s4, s5, s6⟩ := h4 g (List.mem_singleton_self _) 4900000000000 (by omega) (by norm_num)
        (by rw [o2, b2]; omega) (by norm_num) hfar hup
      rw [o2, b2] at s6
      rcases s6 with s6 | s6
      · rcases s3 with s3 | s3
        · rcases s5 (c + 1) (by omega) (by omega) with h7 | h7
          · obtain ⟨e, he, -, h2⟩ := h7
            rw [List.mem_singleton.1 he] at h2
            rw [abs_lt] at h2
            push_cast at h2
            linarith [h2.1]
          · rw [hstand _ (by push_cast; linarith) (by push_cast; linarith), abs_le] at h7
            simp only [τ] at h7
            push_cast at h7
            linarith [h7.1]
        · simp only [g, List.mem_singleton, Prod.mk.injEq, and_true] at s3
          omega
      · exact hshort r' s' s1 s2 s3 s4 s6
  · simp only [lA] at hcase
    omega
  · simp [lA] at hcase

end Tatc.Props
