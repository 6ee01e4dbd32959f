import Verif.Props.InView
import Verif.Props.Contact
import Verif.Props.Collect

/-!
# C170: the rows of a point are its passes
-/

namespace Tatc.Props
open Tatc Tatc.Num Tatc.Geometry Tatc.Spec Tatc.Orbit Tatc.Coverage Tatc.Pandas

/-- A pass of the satellite during which the instrument can see the point: it begins at a rise or at the start of the window,
ends at a set or at its end, and at every time in between the instrument sees the point, except within the tolerance of a rise
or set. -/
structure PassOf (start end_ tolerance : Int) (lat lon : ℝ) (c : Craft) (l : Looking) (rise set : Int) : Prop where
  window : start ≤ rise ∧ rise ≤ set ∧ set ≤ end_
  begins : rise = start ∨ (rise, .rise) ∈ l.events
  ends : set = end_ ∨ (set, .set) ∈ l.events
  seen : ∀ t : Int, rise ≤ t → t + 1 ≤ set → Near tolerance l ((t : ℚ) + 1 / 2) ∨
    c.flight.Sees (l.fieldOfRegard / 2) meanRadius siderealDay lat lon ((t : ℚ) + 1 / 2)

/-- What is reported of a pass: the middle, and the whole pass, or as much around the middle as the minimum access time (to a
microsecond) if access times are fixed. -/
structure ReportOf (l : Looking) (c : Craft) (k rise set : Int) (o : Obs) : Prop where
  point : o.pointId = k
  satellite : o.satellite = c.name
  instrument : o.instrument = l.spec.name
  middle : IsMiddle o.epoch rise set
  whole : l.spec.fixed = false → o.start = rise ∧ o.end_ = set
  fixed : l.spec.fixed = true → |(o.end_ - o.start) - 1000 * l.spec.minAccess| ≤ 1000 ∧ o.epoch - o.start = o.end_ - o.epoch ∧
    rise - 500 ≤ o.start ∧ o.end_ ≤ set + 500

theorem pass_of_period {start end_ tolerance : Int} (hse : start ≤ end_) (ht : 0 ≤ tolerance) {lat lon : ℝ} {c : Craft}
    (h : Watched start end_ tolerance lat lon c) {l : Looking} (hl : l ∈ c.instruments) {p : Interval}
    (hp : p ∈ (instrumentRun c.altitude start end_ l).periods) :
    PassOf start end_ tolerance lat lon c l p.left p.right := by
  obtain ⟨f0, f1⟩ := h.looks l hl
  have hR := meanRadius_gt
  have hb := C47_bounds c.altitude 0 l.fieldOfRegard ⟨by linarith, h.low.above⟩ f0.le (by linarith)
  obtain ⟨b, cs, hs, -, -⟩ := signal_of_reported c h.low (regardThreshold c.altitude l.fieldOfRegard) hb.2.2.1 hb.2.2.2
    lat lon start end_ tolerance ht (h.enough l hl) l.events (h.reported l hl)
  obtain ⟨w1, w2, w3⟩ := visibleIntervals_window hs hse p hp
  obtain ⟨e1, e2⟩ := interval_ends hp
  refine ⟨⟨w1, w2, w3⟩, e1, e2, ?_⟩
  intro t t1 t2
  by_cases hn : Near tolerance l ((t : ℚ) + 1 / 2)
  · exact .inl hn
  · exact .inr (((period_ticks hse ht h hl t).2 hn (by omega) (by omega)).1 ⟨p, hp, t1, t2⟩)

theorem report_of_period {k : Int} {c : Craft} {l : Looking} {p : Interval}
    (hm : 1000 * l.spec.minAccess ≤ p.right - p.left) :
    ReportOf l c k p.left p.right (observationRecord k c.name l.spec p) := by
  have hc := halfAccess_close l.spec.minAccess
  have hmid := mid_spec p
  refine ⟨rfl, rfl, rfl, ?_, ?_, ?_⟩
  · simp only [observationRecord, IsMiddle]
    exact_mod_cast hmid
  · intro hf
    simp [observationRecord, hf]
  · intro hf
    simp only [observationRecord, hf, if_true]
    refine ⟨by rw [abs_le]; omega, by push_cast; ring, by omega, by omega⟩

/-- **C170 (rows are passes).** Every row that is collected is of a pass of one of the satellites, of at least the minimum
access time, that meets the tests of the instrument. -/
theorem C170_row (sort : SortValues Obs.start) (k start end_ tolerance : Int) (lat lon : ℝ)
    (satellites : List (List Craft)) (rows : List Obs) (hse : start ≤ end_) (ht : 0 ≤ tolerance)
    (h : ∀ s ∈ satellites, ∀ c ∈ s, Watched start end_ tolerance lat lon c)
    (hrun : collectMultiObservations sort k (satellites.map fun s => s.map (Craft.member start end_)) = .ok rows)
    (o : Obs) (ho : o ∈ rows) :
    ∃ s ∈ satellites, ∃ c ∈ s, ∃ l ∈ c.instruments, ∃ rise set : Int, PassOf start end_ tolerance lat lon c l rise set ∧
      1000 * l.spec.minAccess ≤ set - rise ∧ l.valid ⟨rise, set⟩ = true ∧ ReportOf l c k rise set o := by
  rw [mem_collectMulti hrun] at ho
  obtain ⟨_, hs', _, hm, _, hr, ho⟩ := ho
  obtain ⟨s, hs, rfl⟩ := List.mem_map.1 hs'
  obtain ⟨c, hc, rfl⟩ := List.mem_map.1 hm
  obtain ⟨l, hl, rfl⟩ := List.mem_map.1 hr
  obtain ⟨p, hp, rfl⟩ := List.mem_map.1 ho
  obtain ⟨hp, hq⟩ := List.mem_filter.1 hp
  rw [Bool.and_eq_true, decide_eq_true_eq] at hq
  have hpass := pass_of_period hse ht (h s hs c hc) hl hp
  exact ⟨s, hs, c, hc, l, hl, p.left, p.right, hpass, hq.1, hq.2, report_of_period hq.1⟩

/-- **C170 (passes are rows).** Whenever an instrument sees the point, not within the tolerance of a rise or set, there is a
row of the pass, unless it is shorter than the minimum access time or does not meet the tests of the instrument. -/
theorem C170_pass (sort : SortValues Obs.start) (k start end_ tolerance : Int) (lat lon : ℝ)
    (satellites : List (List Craft)) (rows : List Obs) (hse : start ≤ end_) (ht : 0 ≤ tolerance)
    (h : ∀ s ∈ satellites, ∀ c ∈ s, Watched start end_ tolerance lat lon c)
    (hrun : collectMultiObservations sort k (satellites.map fun s => s.map (Craft.member start end_)) = .ok rows)
    (s : List Craft) (hs : s ∈ satellites) (c : Craft) (hc : c ∈ s) (l : Looking) (hl : l ∈ c.instruments)
    (t : Int) (h1 : start ≤ t) (h2 : t + 1 ≤ end_) (hn : ¬ Near tolerance l ((t : ℚ) + 1 / 2))
    (hsee : c.flight.Sees (l.fieldOfRegard / 2) meanRadius siderealDay lat lon ((t : ℚ) + 1 / 2)) :
    ∃ rise set : Int, rise ≤ t ∧ t + 1 ≤ set ∧ PassOf start end_ tolerance lat lon c l rise set ∧
      ((∃ o ∈ rows, ReportOf l c k rise set o) ∨ set - rise < 1000 * l.spec.minAccess ∨ l.valid ⟨rise, set⟩ = false) := by
  obtain ⟨p, hp, p1, p2⟩ := ((period_ticks hse ht (h s hs c hc) hl t).2 hn h1 h2).2 hsee
  have hpass := pass_of_period hse ht (h s hs c hc) hl hp
  refine ⟨p.left, p.right, p1, p2, hpass, ?_⟩
  rcases lt_or_ge (p.right - p.left) (1000 * l.spec.minAccess) with hlt | hge
  · exact .inr (.inl hlt)
  · rcases hv : l.valid ⟨p.left, p.right⟩ with _ | _
    · exact .inr (.inr rfl)
    · refine .inl ⟨observationRecord k c.name l.spec p, ?_, report_of_period hge⟩
      rw [mem_collectMulti hrun]
      refine ⟨_, List.mem_map_of_mem hs, _, List.mem_map_of_mem hc, _, List.mem_map_of_mem hl, ?_⟩
      refine List.mem_map_of_mem (List.mem_filter.2 ⟨hp, ?_⟩)
      rw [Bool.and_eq_true, decide_eq_true_eq]
      exact ⟨hge, hv⟩

/-- The satellite of the example of C160 sees the place half a nanosecond after it is overhead. -/
theorem passing_sees {T : Int} (h : (passingCraft T).Low) :
    (passingCraft T).flight.Sees (180 / 2) meanRadius siderealDay 0 0 (((0 : Int) : ℚ) + 1 / 2) := by
  rw [← sees_iff h (by norm_num) (by norm_num)]
  obtain ⟨T, hT1, -, hT⟩ := pass_iff
  have hthr : regardThreshold meanRadius 180 = 0 := by
    unfold regardThreshold minElevation
    have hR := meanRadius_gt
    have e1 : radians 180 / 2 = Real.pi / 2 := by unfold radians; ring
    have e2 : sinRho meanRadius 0 = 1 / 2 := by
      unfold sinRho
      rw [div_eq_div_iff (by linarith) (by norm_num)]
      ring
    rw [e1, Real.sin_pi_div_two, e2]
    norm_num
  simp only [passingCraft, hthr]
  have e : ∀ x, turningAt meanRadius 0 0 siderealDay x = turning meanRadius siderealDay x := by
    intro x; simp [turningAt, turning]
  rw [e, hT]
  · rw [abs_of_nonneg (by norm_num)]; norm_num; linarith
  · rw [abs_of_nonneg (by norm_num)]; norm_num

/-- A pass of more than 4000 s over a place of the equator, with a minimum access time of an hour: it has a row, of the whole
pass or of an hour around its middle. -/
example (sort : SortValues Obs.start) (fixed : Bool) : ∃ (c : Craft) (l : Looking) (rows : List Obs) (o : Obs) (rise set : Int),
    c.instruments = [l] ∧ l.spec.minAccess = 3600000000 ∧ l.spec.fixed = fixed ∧
    collectMultiObservations sort 1 [[c.member (-5000000000000) 5000000000000]] = .ok rows ∧
    rise ≤ 0 ∧ 0 + 1 ≤ set ∧ o ∈ rows ∧ ReportOf l c 1 rise set o := by
  obtain ⟨T, hT, hT', h⟩ := passing_analysed
  let l₀ : Looking := ⟨⟨"x", 0, false⟩, 180, fun _ => true, [(-T, .rise), (0, .culminate), (T, .set)]⟩
  have hl₀ : l₀ ∈ (passingCraft T).instruments := List.mem_singleton_self _
  let l : Looking := ⟨⟨"x", 3600000000, fixed⟩, 180, fun _ => true, [(-T, .rise), (0, .culminate), (T, .set)]⟩
  let c : Craft := { passingCraft T with instruments := [l] }
  have hw : Watched (-5000000000000) 5000000000000 1 0 0 c := by
    refine ⟨⟨h.low.above, h.low.below, h.low.unit_u, h.low.unit_v, h.low.orthogonal⟩, ?_, ?_, ?_⟩
    · intro l' hl'
      rw [List.mem_singleton.1 hl']
      exact h.looks l₀ hl₀
    · intro l' hl'
      rw [List.mem_singleton.1 hl']
      exact h.enough l₀ hl₀
    · intro l' hl'
      rw [List.mem_singleton.1 hl']
      exact h.reported l₀ hl₀
  have hall : ∀ s ∈ [[c]], ∀ x ∈ s, Watched (-5000000000000) 5000000000000 1 0 0 x := by
    intro s hs x hx
    rw [List.mem_singleton.1 hs] at hx
    rw [List.mem_singleton.1 hx]
    exact hw
  have hTq : (2000000000000 : ℚ) < T := by exact_mod_cast hT
  have hnear : ¬ Near 1 l (((0 : Int) : ℚ) + 1 / 2) := by
    rintro ⟨e, he, h1, h2⟩
    simp only [l, List.mem_cons, List.not_mem_nil, or_false] at he
    rw [abs_lt] at h2
    rcases he with rfl | rfl | rfl
    · push_cast at h2; linarith [h2.2]
    · simp [isCrossing] at h1
    · push_cast at h2; linarith [h2.1]
  obtain ⟨rows, hrows⟩ : ∃ rows, collectMultiObservations sort 1 [[c.member (-5000000000000) 5000000000000]] = .ok rows :=
    ⟨_, rfl⟩
  obtain ⟨rise, set, r1, r2, hpass, hrow⟩ := C170_pass sort 1 _ _ 1 0 0 [[c]] rows (by norm_num) (by norm_num) hall hrows _
    (List.mem_singleton_self _) c (List.mem_singleton_self _) l (List.mem_singleton_self _) 0 (by norm_num) (by norm_num) hnear
    (passing_sees h.low)
  refine ⟨c, l, rows, ?_⟩
  rcases hrow with ⟨o, ho, hr⟩ | hs | hv
  · exact ⟨o, rise, set, rfl, rfl, rfl, hrows, r1, r2, ho, hr⟩
  · exfalso
    have e1 : rise ≤ -T := by
      rcases hpass.begins with e | e
      · omega
      · simp only [l, List.mem_cons, Prod.mk.injEq, List.not_mem_nil, or_false] at e
        rcases e with e | e | e
        · exact e.1.le
        · cases e.2
        · cases e.2
    have e2 : T ≤ set := by
      rcases hpass.ends with e | e
      · omega
      · simp only [l, List.mem_cons, Prod.mk.injEq, List.not_mem_nil, or_false] at e
        rcases e with e | e | e
        · cases e.2
        · cases e.2
        · exact e.1.ge
    simp only [l] at hs
    omega
  · cases hv

end Tatc.Props
