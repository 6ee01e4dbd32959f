import Verif.Props.EndToEnd
import Verif.Props.Geometry

/-!
# C137: a wider field of regard never gives less access
-/

namespace Tatc.Props
open Tatc.Pandas Tatc.Coverage Tatc.Spec Tatc.Geometry Tatc.Num

/-- Two instruments on one satellite whose elevation above the horizon of the point (degrees) is given: each sees the point
while the satellite stands at least at the minimum elevation angle for its field of regard, and the second has the wider one. -/
structure WiderView (start end_ : Int) (elevation : ℚ → ℝ) (signal signal' : Bool × List Int) : Prop where
  regards : ∃ altitude ground f g : ℝ, Below altitude ground ∧ 0 ≤ f ∧ f ≤ g ∧ g ≤ 180 ∧
    (∀ t : ℚ, start < t → t < end_ → (∀ c ∈ signal.2, t ≠ (c : ℚ)) →
      (visibleAt signal.1 signal.2 t = true ↔ minElevation altitude f ground ≤ elevation t)) ∧
    (∀ t : ℚ, start < t → t < end_ → (∀ c ∈ signal'.2, t ≠ (c : ℚ)) →
      (visibleAt signal'.1 signal'.2 t = true ↔ minElevation altitude g ground ≤ elevation t))

/-- The middle of a tick is not the time of a crossing. -/
theorem middle_ne (t c : Int) : (t : ℚ) + 1 / 2 ≠ (c : ℚ) := by
  intro he
  have : (2 * t + 1 : ℤ) = 2 * c := by
    have : ((2 * t + 1 : ℤ) : ℚ) = ((2 * c : ℤ) : ℚ) := by push_cast; linarith
    exact_mod_cast this
  omega

/-- Whenever the one with the narrower field of regard sees the point, so does the other. -/
theorem WiderView.mono {start end_ : Int} {elevation : ℚ → ℝ} {signal signal' : Bool × List Int}
    (h : WiderView start end_ elevation signal signal') {t : Int} (h1 : start ≤ t) (h2 : t + 1 ≤ end_)
    (hv : visibleAt signal.1 signal.2 ((t : ℚ) + 1 / 2) = true) : visibleAt signal'.1 signal'.2 ((t : ℚ) + 1 / 2) = true := by
  obtain ⟨a, z, f, g, hz, hf, hfg, hg, hs, hs'⟩ := h.regards
  have w1 : (start : ℚ) < (t : ℚ) + 1 / 2 := by
    have : (start : ℚ) ≤ t := by exact_mod_cast h1
    linarith
  have w2 : (t : ℚ) + 1 / 2 < end_ := by
    have : (t : ℚ) + 1 ≤ end_ := by exact_mod_cast h2
    linarith
  have hm := (hs _ w1 w2 (fun c _ => middle_ne t c)).mp hv
  exact (hs' _ w1 w2 (fun c _ => middle_ne t c)).mpr (((C47_monotone_partial a z f g hz hf hfg hg).2).trans hm)

/-- Ticks that are in view one after the other are in one period. -/
theorem same_period {start end_ : Int} {signal : Bool × List Int} {r : InstrumentRun} (hse : start ≤ end_)
    (h : SeenAs start end_ signal r) {a b : Int} (hab : a < b)
    (hall : ∀ t, a ≤ t → t + 1 ≤ b → ∃ p ∈ r.periods, p.left ≤ t ∧ t + 1 ≤ p.right) :
    ∃ p ∈ r.periods, p.left ≤ a ∧ b ≤ p.right := by
  obtain ⟨M, events, hs, hp⟩ := h.periods
  have hdis := C08_visible_disjoint start end_ M signal.1 signal.2 events hs
  rw [← hp] at hdis
  obtain ⟨p, hpm, h1, h2⟩ := hall a le_rfl (by omega)
  refine ⟨p, hpm, h1, ?_⟩
  by_contra hlt
  push Not at hlt
  obtain ⟨q, hq, h3, h4⟩ := hall p.right (by omega) (by omega)
  have hne : p ≠ q := by rintro rfl; omega
  have hw := visibleIntervals_window hs hse
  rw [← hp] at hw
  have hwp := hw p hpm
  have hwq := hw q hq
  obtain ⟨i, hi, rfl⟩ := List.mem_iff_getElem.mp hpm
  obtain ⟨j, hj, rfl⟩ := List.mem_iff_getElem.mp hq
  rcases lt_trichotomy i j with hij | hij | hij
  · have := List.pairwise_iff_getElem.mp hdis i j hi hj hij
    omega
  · subst hij; exact hne rfl
  · have := List.pairwise_iff_getElem.mp hdis j i hj hi hij
    omega

/-- C137, full statement: with a wider field of regard the total access time is never less, whatever else is set.  Proved for
every number of satellites and all minimum access times, without fixed access times and tests of illumination, with which it
is false. -/
theorem C137_wider_partial (sort sort' : SortValues Obs.start) (k start end_ : Int) (hse : start ≤ end_)
    (satellites satellites' : List (List Member)) (rows rows' : List Obs)
    (h : collectMultiObservations sort k satellites = .ok rows)
    (h' : collectMultiObservations sort k satellites' = .ok rows')
    (signal signal' : InstrumentRun → Bool × List Int)
    (hseen : ∀ c ∈ satellites, ∀ m ∈ c, ∀ r ∈ m.instruments, SeenAs start end_ (signal r) r ∧ r.spec.fixed = false)
    (hseen' : ∀ c ∈ satellites', ∀ m ∈ c, ∀ r ∈ m.instruments,
      SeenAs start end_ (signal' r) r ∧ r.spec.fixed = false ∧ ∀ p, r.valid p = true)
    (hwide : ∀ c ∈ satellites, ∀ m ∈ c, ∀ r ∈ m.instruments, ∃ c' ∈ satellites', ∃ m' ∈ c', ∃ r' ∈ m'.instruments,
      r'.spec.minAccess = r.spec.minAccess ∧ ∃ elevation, WiderView start end_ elevation (signal r) (signal' r')) :
    totalAccess (aggregateObservations sort' rows) k ≤ totalAccess (aggregateObservations sort' rows') k := by
  have hwf' : ∀ o ∈ rows', o.start ≤ o.end_ :=
    rows_wf hse h' fun c hc m hm r hr => ⟨(hseen' c hc m hm r hr).1, (hseen' c hc m hm r hr).2.1⟩
  rw [C96_total_access sort' rows (rows_wf hse h hseen), C96_total_access sort' rows' hwf']
  have hsub : observedTicks rows k ⊆ observedTicks rows' k := by
    rintro t ⟨o, ho, -, h1, h2⟩
    obtain ⟨c, hc, m, hm, r, hr, ho⟩ := (mem_collectMulti h o).mp ho
    obtain ⟨hs, hf⟩ := hseen c hc m hm r hr
    obtain ⟨c', hc', m', hm', r', hr', hmin, el, hw⟩ := hwide c hc m hm r hr
    obtain ⟨hs', hf', hv'⟩ := hseen' c' hc' m' hm' r' hr'
    -- the period of the observation
    unfold collectObservations at ho
    obtain ⟨p, hp, rfl⟩ := List.mem_map.mp ho
    obtain ⟨hp, hlong⟩ := List.mem_filter.mp hp
    simp only [Bool.and_eq_true, decide_eq_true_eq] at hlong
    simp only [observationRecord, hf, Bool.false_eq_true, if_false] at h1 h2
    have hall : ∀ u, p.left ≤ u → u + 1 ≤ p.right → ∃ q ∈ r'.periods, q.left ≤ u ∧ u + 1 ≤ q.right := by
      intro u hu1 hu2
      obtain ⟨w1, w2, hv⟩ := (tick_in_period hse hs u).mp ⟨p, hp, hu1, hu2⟩
      exact (tick_in_period hse hs' u).mpr ⟨w1, w2, hw.mono w1 w2 hv⟩
    obtain ⟨q, hq, hq1, hq2⟩ := same_period hse hs' (by omega : p.left < p.right) hall
    refine ⟨observationRecord k m'.name r'.spec q, (mem_collectMulti h' _).mpr ⟨c', hc', m', hm', r', hr', ?_⟩, rfl, ?_, ?_⟩
    · refine List.mem_map_of_mem (List.mem_filter.mpr ⟨hq, ?_⟩)
      simp only [hv', Bool.and_true, decide_eq_true_eq, hmin]
      omega
    · simp only [observationRecord, hf', Bool.false_eq_true, if_false]; omega
    · simp only [observationRecord, hf', Bool.false_eq_true, if_false]; omega
  exact_mod_cast Set.ncard_le_ncard hsub (observedTicks_finite _ _)

/-- The elevation 90 where the first is visible, 0 where only the second is, and -1 elsewhere: fields of regard of 0 and 180
degrees see the point accordingly. -/
theorem stepView (start end_ : Int) (signal signal' : Bool × List Int)
    (h : ∀ t : ℚ, visibleAt signal.1 signal.2 t = true → visibleAt signal'.1 signal'.2 t = true) :
    WiderView start end_ (fun t => if visibleAt signal.1 signal.2 t = true then 90 else
      if visibleAt signal'.1 signal'.2 t = true then 0 else -1) signal signal' := by
  have hz : Below 500000 0 := by unfold Below meanRadius equatorialRadius polarRadius; norm_num
  obtain ⟨hk0, hk1⟩ := sinRho_range hz
  have h0 : minElevation 500000 0 0 = 90 := by
    unfold minElevation radians degrees
    simp only [zero_mul, zero_div, Real.sin_zero, Real.arccos_zero]
    have := Real.pi_pos
    rw [if_neg (by norm_num)]
    field_simp
    norm_num
  have h1 : minElevation 500000 180 0 = 0 := by
    have hsin : Real.sin (radians 180 / 2) = 1 := by
      rw [show radians 180 / 2 = Real.pi / 2 by unfold radians; ring, Real.sin_pi_div_two]
    unfold minElevation
    simp only [hsin]
    rw [if_pos ((one_lt_div hk0).mpr hk1)]
  refine ⟨500000, 0, 0, 180, hz, le_rfl, by norm_num, le_rfl, ?_, ?_⟩
  · intro t _ _ _
    rw [h0]
    by_cases hv : visibleAt signal.1 signal.2 t = true
    · simp [hv]
    · by_cases hv' : visibleAt signal'.1 signal'.2 t = true
      · simp only [hv, hv', Bool.false_eq_true, if_false, if_true, false_iff, not_le]; norm_num
      · simp only [hv, hv', Bool.false_eq_true, if_false, false_iff, not_le]; norm_num
  · intro t _ _ _
    rw [h1]
    by_cases hv : visibleAt signal.1 signal.2 t = true
    · simp [hv, h t hv]
    · by_cases hv' : visibleAt signal'.1 signal'.2 t = true
      · simp [hv, hv']
      · simp only [hv, hv', Bool.false_eq_true, if_false, false_iff, not_le]; norm_num

/-- A satellite in view from 10 to 20 µs and from 50 to 60 µs (ticks of a nanosecond) within a window of 100 µs. -/
def narrowPasses (spec : AccessSpec) (valid : Interval → Bool) : List (List Member) :=
  [[⟨"a", [⟨spec, valid, visibleIntervals 0 100000 60000 [(10000, .rise), (20000, .set), (50000, .rise), (60000, .set)]⟩]⟩]]

/-- The same satellite with a wider field of regard, in view from 8 to 62 µs. -/
def widePass (spec : AccessSpec) (valid : Interval → Bool) : List (List Member) :=
  [[⟨"a", [⟨spec, valid, visibleIntervals 0 100000 60000 [(8000, .rise), (62000, .set)]⟩]⟩]]

theorem narrowPasses_seen (spec : AccessSpec) (valid : Interval → Bool) : ∀ c ∈ narrowPasses spec valid, ∀ m ∈ c,
    ∀ r ∈ m.instruments, SeenAs 0 100000 (false, [10000, 20000, 50000, 60000]) r ∧ r.spec = spec ∧ r.valid = valid := by
  intro c hc m hm r hr
  simp only [narrowPasses, List.mem_singleton] at hc
  subst hc
  simp only [List.mem_singleton] at hm
  subst hm
  simp only [List.mem_singleton] at hr
  subst hr
  exact ⟨⟨60000, [(10000, .rise), (20000, .set), (50000, .rise), (60000, .set)], ⟨by decide, by decide, by decide, by decide, ⟨by decide, by decide, trivial⟩⟩, rfl⟩, rfl, rfl⟩

theorem widePass_seen (spec : AccessSpec) (valid : Interval → Bool) : ∀ c ∈ widePass spec valid, ∀ m ∈ c,
    ∀ r ∈ m.instruments, SeenAs 0 100000 (false, [8000, 62000]) r ∧ r.spec = spec ∧ r.valid = valid := by
  intro c hc m hm r hr
  simp only [widePass, List.mem_singleton] at hc
  subst hc
  simp only [List.mem_singleton] at hm
  subst hm
  simp only [List.mem_singleton] at hr
  subst hr
  exact ⟨⟨60000, [(8000, .rise), (62000, .set)], ⟨by decide, by decide, by decide, by decide, ⟨by decide, trivial⟩⟩, rfl⟩, rfl, rfl⟩

/-- Whenever the first is in view the second is. -/
theorem narrow_within_wide (t : ℚ) (h : visibleAt false [10000, 20000, 50000, 60000] t = true) :
    visibleAt false [8000, 62000] t = true := by
  have hb : (10000 : ℚ) ≤ t ∧ t < 60000 := by
    by_contra hn
    rw [not_and_or, not_le, not_lt] at hn
    rcases hn with hn | hn
    · have a1 : ¬ ((10000 : ℚ) ≤ t) := by linarith
      have a2 : ¬ ((20000 : ℚ) ≤ t) := by linarith
      have a3 : ¬ ((50000 : ℚ) ≤ t) := by linarith
      have a4 : ¬ ((60000 : ℚ) ≤ t) := by linarith
      simp [visibleAt, List.filter, a1, a2, a3, a4] at h
    · have a1 : ((10000 : ℚ) ≤ t) := by linarith
      have a2 : ((20000 : ℚ) ≤ t) := by linarith
      have a3 : ((50000 : ℚ) ≤ t) := by linarith
      simp [visibleAt, List.filter, a1, a2, a3, hn] at h
  have a1 : (8000 : ℚ) ≤ t := by linarith [hb.1]
  have a2 : ¬ ((62000 : ℚ) ≤ t) := by linarith [hb.2]
  simp [visibleAt, List.filter, a1, a2]

/-- The hypotheses of C137 hold of them: 20 µs of access become 54 µs. -/
example : (∃ rows rows', collectMultiObservations (SortValues.insertion _) 1 (narrowPasses ⟨"x", 4, false⟩ fun _ => true) = .ok rows ∧
      collectMultiObservations (SortValues.insertion _) 1 (widePass ⟨"x", 4, false⟩ fun _ => true) = .ok rows' ∧
      totalAccess (aggregateObservations (SortValues.insertion _) rows) 1 = 20000 ∧
      totalAccess (aggregateObservations (SortValues.insertion _) rows') 1 = 54000) ∧
    ∀ rows rows', collectMultiObservations (SortValues.insertion _) 1 (narrowPasses ⟨"x", 4, false⟩ fun _ => true) = .ok rows →
      collectMultiObservations (SortValues.insertion _) 1 (widePass ⟨"x", 4, false⟩ fun _ => true) = .ok rows' →
      totalAccess (aggregateObservations (SortValues.insertion _) rows) 1 ≤
        totalAccess (aggregateObservations (SortValues.insertion _) rows') 1 := by
  refine ⟨⟨_, _, rfl, rfl, by decide +kernel, by decide +kernel⟩, fun rows rows' h h' => ?_⟩
  refine C137_wider_partial (SortValues.insertion _) (SortValues.insertion _) 1 0 100000 (by decide) _ _ rows rows' h h'
    (fun _ => (false, [10000, 20000, 50000, 60000])) (fun _ => (false, [8000, 62000])) ?_ ?_ ?_
  · intro c hc m hm r hr
    obtain ⟨h1, h2, -⟩ := narrowPasses_seen _ _ c hc m hm r hr
    exact ⟨h1, by rw [h2]⟩
  · intro c hc m hm r hr
    obtain ⟨h1, h2, h3⟩ := widePass_seen _ _ c hc m hm r hr
    exact ⟨h1, by rw [h2], fun p => by rw [h3]⟩
  · intro c hc m hm r hr
    obtain ⟨-, h2, -⟩ := narrowPasses_seen _ _ c hc m hm r hr
    exact ⟨_, List.mem_singleton_self _, _, List.mem_singleton_self _, _, List.mem_singleton_self _, by rw [h2], _,
      stepView 0 100000 _ _ narrow_within_wide⟩

/-- **C137 is false of fixed access times**: the two passes, of 4 µs each, become one. -/
theorem C137_fixed_false : ∃ (satellites satellites' : List (List Member)) (signal signal' : Bool × List Int)
    (rows rows' : List Obs) (elevation : ℚ → ℝ), WiderView 0 100000 elevation signal signal' ∧
    (∀ c ∈ satellites, ∀ m ∈ c, ∀ r ∈ m.instruments, SeenAs 0 100000 signal r ∧ r.spec = ⟨"x", 4, true⟩ ∧ ∀ p, r.valid p = true) ∧
    (∀ c ∈ satellites', ∀ m ∈ c, ∀ r ∈ m.instruments, SeenAs 0 100000 signal' r ∧ r.spec = ⟨"x", 4, true⟩ ∧ ∀ p, r.valid p = true) ∧
    collectMultiObservations (SortValues.insertion _) 1 satellites = .ok rows ∧
    collectMultiObservations (SortValues.insertion _) 1 satellites' = .ok rows' ∧
    totalAccess (aggregateObservations (SortValues.insertion _) rows) 1 = 8000 ∧
    totalAccess (aggregateObservations (SortValues.insertion _) rows') 1 = 4000 := by
  refine ⟨narrowPasses ⟨"x", 4, true⟩ fun _ => true, widePass ⟨"x", 4, true⟩ fun _ => true, (false, [10000, 20000, 50000, 60000]),
    (false, [8000, 62000]), _, _, _, stepView 0 100000 _ _ narrow_within_wide, ?_, ?_, rfl, rfl, by decide +kernel, by decide +kernel⟩
  · intro c hc m hm r hr
    obtain ⟨h1, h2, h3⟩ := narrowPasses_seen _ _ c hc m hm r hr
    exact ⟨h1, h2, fun p => by rw [h3]⟩
  · intro c hc m hm r hr
    obtain ⟨h1, h2, h3⟩ := widePass_seen _ _ c hc m hm r hr
    exact ⟨h1, h2, fun p => by rw [h3]⟩

/-- **C137 is false of tests of illumination**, which look at the middle of the pass only: where it is light up to 30 µs, the
first narrow pass counts and the wide one does not. -/
theorem C137_test_false : ∃ (satellites satellites' : List (List Member)) (signal signal' : Bool × List Int)
    (rows rows' : List Obs) (elevation : ℚ → ℝ) (light : ℚ → Bool), WiderView 0 100000 elevation signal signal' ∧
    (∀ c ∈ satellites, ∀ m ∈ c, ∀ r ∈ m.instruments, SeenAs 0 100000 signal r ∧ r.spec = ⟨"x", 0, false⟩ ∧
      ∀ p, r.valid p = light (((p.left : ℚ) + p.right) / 2)) ∧
    (∀ c ∈ satellites', ∀ m ∈ c, ∀ r ∈ m.instruments, SeenAs 0 100000 signal' r ∧ r.spec = ⟨"x", 0, false⟩ ∧
      ∀ p, r.valid p = light (((p.left : ℚ) + p.right) / 2)) ∧
    collectMultiObservations (SortValues.insertion _) 1 satellites = .ok rows ∧
    collectMultiObservations (SortValues.insertion _) 1 satellites' = .ok rows' ∧
    totalAccess (aggregateObservations (SortValues.insertion _) rows) 1 = 10000 ∧
    totalAccess (aggregateObservations (SortValues.insertion _) rows') 1 = 0 := by
  refine ⟨narrowPasses ⟨"x", 0, false⟩ fun p => decide (((p.left : ℚ) + p.right) / 2 ≤ 30000),
    widePass ⟨"x", 0, false⟩ fun p => decide (((p.left : ℚ) + p.right) / 2 ≤ 30000), (false, [10000, 20000, 50000, 60000]),
    (false, [8000, 62000]), _, _, _, fun t => decide (t ≤ 30000), stepView 0 100000 _ _ narrow_within_wide, ?_, ?_, rfl, rfl,
    by decide +kernel, by decide +kernel⟩
  · intro c hc m hm r hr
    obtain ⟨h1, h2, h3⟩ := narrowPasses_seen _ _ c hc m hm r hr
    exact ⟨h1, h2, fun p => by rw [h3]⟩
  · intro c hc m hm r hr
    obtain ⟨h1, h2, h3⟩ := widePass_seen _ _ c hc m hm r hr
    exact ⟨h1, h2, fun p => by rw [h3]⟩

end Tatc.Props
