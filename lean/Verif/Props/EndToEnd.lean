import Verif.Props.TotalAccess
import Verif.Props.Visible
import Verif.Props.Collect

/-!
# C102: from the satellites in view to the total access time
-/

namespace Tatc.Props
open Tatc.Pandas Tatc.Coverage Tatc.Spec

/-- An instrument over the window from `start` to `end_` whose satellite is in view of the point as the signal
(its initial state and its crossings) says. -/
structure SeenAs (start end_ : Int) (signal : Bool × List Int) (r : InstrumentRun) : Prop where
  periods : ∃ (M : Int) (events : List (Int × EventKind)),
    SignalEvents start end_ M signal.1 signal.2 events ∧ r.periods = visibleIntervals start end_ M events

/-- The settings with which every period counts: no minimum access time, access time not fixed, and no illumination
or footprint test that fails. -/
structure CountsAll (r : InstrumentRun) : Prop where
  minimum : r.spec.minAccess = 0
  notFixed : r.spec.fixed = false
  valid : ∀ p, r.valid p = true

/-- The ticks of the window (from `t` to `t + 1`) in whose middle one of the satellites is in view. -/
def inViewTicks (start end_ : Int) (signal : InstrumentRun → Bool × List Int) (satellites : List (List Member)) :
    Set Int :=
  {t | start ≤ t ∧ t + 1 ≤ end_ ∧ ∃ c ∈ satellites, ∃ m ∈ c, ∃ r ∈ m.instruments,
    visibleAt (signal r).1 (signal r).2 ((t : ℚ) + 1 / 2) = true}

/-- The rows of `collect_multi_observations`. -/
theorem mem_collectMulti {sort : SortValues Obs.start} {k : Int} {satellites : List (List Member)} {rows : List Obs}
    (h : collectMultiObservations sort k satellites = .ok rows) (o : Obs) :
    o ∈ rows ↔ ∃ c ∈ satellites, ∃ m ∈ c, ∃ r ∈ m.instruments,
      o ∈ collectObservations k m.name r.spec r.valid r.periods := by
  unfold collectMultiObservations at h
  simp only at h
  split at h
  · cases h
  · simp only [Except.ok.injEq] at h
    rw [← h, (sort.perm _).mem_iff]
    simp only [List.mem_flatten, List.mem_flatMap, List.mem_map]
    constructor
    · rintro ⟨_, ⟨c, hc, m, hm, r, hr, rfl⟩, ho⟩
      exact ⟨c, hc, m, hm, r, hr, ho⟩
    · rintro ⟨c, hc, m, hm, r, hr, ho⟩
      exact ⟨_, ⟨c, hc, m, hm, r, hr, rfl⟩, ho⟩

theorem pairIntervals_window (start end_ : Int) (l : List Int) (hs : l.Pairwise (· < ·))
    (hin : ∀ c ∈ l, start < c ∧ c < end_) :
    ∀ I ∈ pairIntervals end_ l, start ≤ I.left ∧ I.left ≤ I.right ∧ I.right ≤ end_ := by
  induction l using pairIntervals.induct with
  | case1 => intro I hI; simp [pairIntervals] at hI
  | case2 r =>
    intro I hI
    simp only [pairIntervals, List.mem_singleton] at hI
    subst hI
    have := hin r (by simp)
    simp only
    omega
  | case3 a b l ih =>
    intro I hI
    rw [pairIntervals] at hI
    have h1 := List.pairwise_cons.mp hs
    have h2 := List.pairwise_cons.mp h1.2
    rcases List.mem_cons.mp hI with rfl | hI
    · have ha := hin a (by simp)
      have hb := hin b (by simp)
      have := h1.1 b (by simp)
      simp only
      omega
    · exact ih h2.2 (fun x hx => hin x (by simp [hx])) I hI

/-- The intervals of a signal are inside the window. -/
theorem visibleIntervals_window {start end_ M : Int} {b : Bool} {cs : List Int} {events : List (Int × EventKind)}
    (h : SignalEvents start end_ M b cs events) (hse : start ≤ end_) :
    ∀ I ∈ visibleIntervals start end_ M events, start ≤ I.left ∧ I.left ≤ I.right ∧ I.right ≤ end_ := by
  rw [visibleIntervals_alternating start end_ M b cs events h.events_eq h.increasing h.inside h.culminates h.short]
  cases b with
  | false => exact pairIntervals_window start end_ cs h.increasing h.inside
  | true =>
    cases cs with
    | nil =>
      intro I hI
      simp only [List.mem_singleton] at hI
      subst hI
      simp only
      omega
    | cons s u =>
      intro I hI
      have hpw := List.pairwise_cons.mp h.increasing
      rcases List.mem_cons.mp hI with rfl | hI
      · have := h.inside s (by simp)
        simp only
        omega
      · exact pairIntervals_window start end_ u hpw.2 (fun c hc => h.inside c (List.mem_cons_of_mem _ hc)) I hI

/-- A tick is inside one of the periods exactly when the satellite is in view in its middle. -/
theorem tick_in_period {start end_ : Int} {signal : Bool × List Int} {r : InstrumentRun}
    (hse : start ≤ end_) (h : SeenAs start end_ signal r) (t : Int) :
    (∃ p ∈ r.periods, p.left ≤ t ∧ t + 1 ≤ p.right) ↔
      start ≤ t ∧ t + 1 ≤ end_ ∧ visibleAt signal.1 signal.2 ((t : ℚ) + 1 / 2) = true := by
  obtain ⟨M, events, hs, hp⟩ := h.periods
  rw [hp]
  have hmid : ∀ a b : Int, (a ≤ t ∧ t + 1 ≤ b) ↔ ((a : ℚ) < (t : ℚ) + 1 / 2 ∧ (t : ℚ) + 1 / 2 < (b : ℚ)) := by
    intro a b
    constructor
    · rintro ⟨h1, h2⟩
      have h1 : (a : ℚ) ≤ t := by exact_mod_cast h1
      have h2 : (t : ℚ) + 1 ≤ b := by exact_mod_cast h2
      constructor <;> linarith
    · rintro ⟨h1, h2⟩
      have h1 : (a : ℚ) < ((t + 1 : ℤ) : ℚ) := by push_cast; linarith
      have h2 : (t : ℚ) < b := by linarith
      have h1 : a < t + 1 := by exact_mod_cast h1
      have h2 : t < b := by exact_mod_cast h2
      omega
  have hnc : ∀ c ∈ signal.2, (t : ℚ) + 1 / 2 ≠ (c : ℚ) := by
    intro c _ he
    have : (2 * t + 1 : ℤ) = 2 * c := by
      have : ((2 * t + 1 : ℤ) : ℚ) = ((2 * c : ℤ) : ℚ) := by push_cast; linarith
      exact_mod_cast this
    omega
  by_cases hw : start ≤ t ∧ t + 1 ≤ end_
  · obtain ⟨w1, w2⟩ := (hmid start end_).mp hw
    have := C08_visible_exact_partial start end_ M signal.1 signal.2 events hs ((t : ℚ) + 1 / 2) w1 w2 hnc
    rw [← and_assoc, and_iff_right hw, ← this]
    refine exists_congr fun I => and_congr_right fun _ => hmid _ _
  · have hwin := visibleIntervals_window hs hse
    constructor
    · rintro ⟨p, hp, h1, h2⟩
      have := hwin p hp
      exact absurd (by omega) hw
    · rintro ⟨h1, h2, -⟩
      exact absurd ⟨h1, h2⟩ hw

/-- What is collected with access times that are not fixed: one row for each of some of the periods. -/
theorem collect_notFixed {k : Int} {name : String} {r : InstrumentRun} (hf : r.spec.fixed = false) {o : Obs}
    (ho : o ∈ collectObservations k name r.spec r.valid r.periods) :
    o.pointId = k ∧ ∃ p ∈ r.periods, o.start = p.left ∧ o.end_ = p.right := by
  unfold collectObservations at ho
  obtain ⟨p, hp, rfl⟩ := List.mem_map.mp ho
  exact ⟨rfl, p, (List.mem_filter.mp hp).1, by simp [observationRecord, hf], by simp [observationRecord, hf]⟩

theorem rows_wf {sort : SortValues Obs.start} {k start end_ : Int} (hse : start ≤ end_)
    {signal : InstrumentRun → Bool × List Int} {satellites : List (List Member)} {rows : List Obs}
    (h : collectMultiObservations sort k satellites = .ok rows)
    (hseen : ∀ c ∈ satellites, ∀ m ∈ c, ∀ r ∈ m.instruments, SeenAs start end_ (signal r) r ∧ r.spec.fixed = false) :
    ∀ o ∈ rows, o.start ≤ o.end_ := by
  intro o ho
  obtain ⟨c, hc, m, hm, r, hr, ho⟩ := (mem_collectMulti h o).mp ho
  obtain ⟨hs, hf⟩ := hseen c hc m hm r hr
  obtain ⟨-, p, hp, h1, h2⟩ := collect_notFixed hf ho
  obtain ⟨M, events, he, hpe⟩ := hs.periods
  have := visibleIntervals_window he hse p (hpe ▸ hp)
  omega

/-- Observed ticks are ticks in view. -/
theorem observedTicks_subset {sort : SortValues Obs.start} {k start end_ : Int} (hse : start ≤ end_)
    {signal : InstrumentRun → Bool × List Int} {satellites : List (List Member)} {rows : List Obs}
    (h : collectMultiObservations sort k satellites = .ok rows)
    (hseen : ∀ c ∈ satellites, ∀ m ∈ c, ∀ r ∈ m.instruments, SeenAs start end_ (signal r) r ∧ r.spec.fixed = false) :
    observedTicks rows k ⊆ inViewTicks start end_ signal satellites := by
  rintro t ⟨o, ho, -, h1, h2⟩
  obtain ⟨c, hc, m, hm, r, hr, ho⟩ := (mem_collectMulti h o).mp ho
  obtain ⟨hs, hf⟩ := hseen c hc m hm r hr
  obtain ⟨-, p, hp, h3, h4⟩ := collect_notFixed hf ho
  obtain ⟨w1, w2, hv⟩ := (tick_in_period hse hs t).mp ⟨p, hp, by omega, by omega⟩
  exact ⟨w1, w2, c, hc, m, hm, r, hr, hv⟩

theorem inViewTicks_finite (start end_ : Int) (signal : InstrumentRun → Bool × List Int)
    (satellites : List (List Member)) : (inViewTicks start end_ signal satellites).Finite := by
  refine Set.Finite.subset (Finset.finite_toSet (Finset.Ico start end_)) ?_
  rintro t ⟨h1, h2, -⟩
  simp only [Finset.mem_coe, Finset.mem_Ico]
  omega

/-- With settings with which every period counts, the observed ticks are the ticks in view. -/
theorem observedTicks_eq {sort : SortValues Obs.start} {k start end_ : Int} (hse : start ≤ end_)
    {signal : InstrumentRun → Bool × List Int} {satellites : List (List Member)} {rows : List Obs}
    (h : collectMultiObservations sort k satellites = .ok rows)
    (hseen : ∀ c ∈ satellites, ∀ m ∈ c, ∀ r ∈ m.instruments, SeenAs start end_ (signal r) r ∧ CountsAll r) :
    observedTicks rows k = inViewTicks start end_ signal satellites := by
  apply Set.Subset.antisymm
  · exact observedTicks_subset hse h fun c hc m hm r hr => ⟨(hseen c hc m hm r hr).1, (hseen c hc m hm r hr).2.notFixed⟩
  · rintro t ⟨w1, w2, c, hc, m, hm, r, hr, hv⟩
    obtain ⟨hs, ha⟩ := hseen c hc m hm r hr
    obtain ⟨p, hp, h1, h2⟩ := (tick_in_period hse hs t).mpr ⟨w1, w2, hv⟩
    refine ⟨observationRecord k m.name r.spec p, (mem_collectMulti h _).mpr ⟨c, hc, m, hm, r, hr, ?_⟩, rfl, ?_, ?_⟩
    · refine List.mem_map_of_mem (List.mem_filter.mpr ⟨hp, ?_⟩)
      simp only [ha.minimum, ha.valid, Bool.and_true, decide_eq_true_eq]
      omega
    · simpa [observationRecord, ha.notFixed] using h1
    · simpa [observationRecord, ha.notFixed] using h2

/-- **C102.** For satellites whose instruments have no minimum access time, no fixed access time and no failing
test, the access times of the aggregated frame add up to the time during which at least one satellite is in view. -/
theorem C102_total_in_view (sort sort' : SortValues Obs.start) (k start end_ : Int) (hse : start ≤ end_)
    (signal : InstrumentRun → Bool × List Int) (satellites : List (List Member)) (rows : List Obs)
    (h : collectMultiObservations sort k satellites = .ok rows)
    (hseen : ∀ c ∈ satellites, ∀ m ∈ c, ∀ r ∈ m.instruments, SeenAs start end_ (signal r) r ∧ CountsAll r) :
    totalAccess (aggregateObservations sort' rows) k = (inViewTicks start end_ signal satellites).ncard := by
  rw [C96_total_access sort' rows (rows_wf hse h fun c hc m hm r hr =>
    ⟨(hseen c hc m hm r hr).1, (hseen c hc m hm r hr).2.notFixed⟩), observedTicks_eq hse h hseen]

/-- **C102, bound.** With any minimum access times and any tests, the access times add up to no more than that. -/
theorem C102_at_most_in_view (sort sort' : SortValues Obs.start) (k start end_ : Int) (hse : start ≤ end_)
    (signal : InstrumentRun → Bool × List Int) (satellites : List (List Member)) (rows : List Obs)
    (h : collectMultiObservations sort k satellites = .ok rows)
    (hseen : ∀ c ∈ satellites, ∀ m ∈ c, ∀ r ∈ m.instruments,
      SeenAs start end_ (signal r) r ∧ r.spec.fixed = false) :
    totalAccess (aggregateObservations sort' rows) k ≤ (inViewTicks start end_ signal satellites).ncard := by
  rw [C96_total_access sort' rows (rows_wf hse h hseen)]
  exact_mod_cast Set.ncard_le_ncard (observedTicks_subset hse h hseen) (inViewTicks_finite _ _ _ _)

/-- **C102, revisit.** Within a row of the aggregated frame a satellite is in view all the time, and between
consecutive rows none is at any time. -/
theorem C102_rows_in_view (sort sort' : SortValues Obs.start) (k start end_ : Int) (hse : start ≤ end_)
    (signal : InstrumentRun → Bool × List Int) (satellites : List (List Member)) (rows : List Obs)
    (h : collectMultiObservations sort k satellites = .ok rows)
    (hseen : ∀ c ∈ satellites, ∀ m ∈ c, ∀ r ∈ m.instruments, SeenAs start end_ (signal r) r ∧ CountsAll r) :
    (∀ a ∈ aggregateObservations sort' rows, ∀ t, a.start ≤ t → t + 1 ≤ a.end_ →
      t ∈ inViewTicks start end_ signal satellites) ∧
    (∀ (pre : List AggRow) (a b : AggRow) (post : List AggRow),
      aggregateObservations sort' rows = pre ++ a :: b :: post →
      b.revisit = some (b.start - a.end_) ∧
      ∀ t, a.end_ ≤ t → t + 1 ≤ b.start → t ∉ inViewTicks start end_ signal satellites) := by
  have hwf := rows_wf hse h fun c hc m hm r hr => ⟨(hseen c hc m hm r hr).1, (hseen c hc m hm r hr).2.notFixed⟩
  have hc := C01_components sort' rows hwf
  have heq := observedTicks_eq hse h hseen
  have hid : ∀ o ∈ rows, o.pointId = k := by
    intro o ho
    obtain ⟨c, hc, m, hm, r, hr, ho⟩ := (mem_collectMulti h o).mp ho
    exact (collect_notFixed (hseen c hc m hm r hr).2.notFixed ho).1
  have hidA : ∀ a ∈ aggregateObservations sort' rows, a.pointId = k := by
    intro a ha
    have hne := hc.nonempty _ (List.mem_map_of_mem (f := fun r : AggRow =>
        (⟨r.pointId, r.start, r.end_⟩ : PInterval)) ha)
    obtain ⟨_, ho0, hp, -, -⟩ := hc.covered _ (List.mem_map_of_mem (f := fun r : AggRow =>
        (⟨r.pointId, r.start, r.end_⟩ : PInterval)) ha) a.start ⟨le_rfl, by exact_mod_cast hne⟩
    obtain ⟨o, ho, rfl⟩ := List.mem_map.mp ho0
    simp only at hp
    rw [← hp, hid o ho]
  rw [← heq]
  refine ⟨?_, ?_⟩
  · intro a ha t h1 h2
    obtain ⟨_, ho0, hp, h3, h4⟩ := hc.covered _ (List.mem_map_of_mem (f := fun r : AggRow =>
        (⟨r.pointId, r.start, r.end_⟩ : PInterval)) ha) (t + 1 / 2) (by
          constructor
          · have : (a.start : ℚ) ≤ t := by exact_mod_cast h1
            simp only
            linarith
          · have : (t : ℚ) + 1 ≤ a.end_ := by exact_mod_cast h2
            simp only
            linarith)
    obtain ⟨o, ho, rfl⟩ := List.mem_map.mp ho0
    simp only at h3 h4
    refine ⟨o, ho, hid o ho, ?_, ?_⟩
    · have : (o.start : ℚ) < (t + 1 : ℤ) := by push_cast; linarith
      have : o.start < t + 1 := by exact_mod_cast this
      omega
    · have : (t : ℚ) < (o.end_ : ℤ) := by linarith
      have : t < o.end_ := by exact_mod_cast this
      omega
  · intro pre a b post hsplit
    have ha : a ∈ aggregateObservations sort' rows := by rw [hsplit]; simp
    have hb : b ∈ aggregateObservations sort' rows := by rw [hsplit]; simp
    refine ⟨?_, ?_⟩
    · obtain ⟨v, hv, hv', -⟩ := ((C03_access_revisit sort' rows hwf).2.2.1 pre a b post hsplit).2
        (by rw [hidA a ha, hidA b hb])
      rw [hv, hv']
    · rintro t h1 h2 ⟨o, ho, -, h3, h4⟩
      obtain ⟨_, hr0, hp, hs, he⟩ := hc.covers _ (List.mem_map_of_mem (f := fun o : Obs =>
        (⟨o.pointId, o.start, o.end_⟩ : PInterval)) ho)
      obtain ⟨x, hx, rfl⟩ := List.mem_map.mp hr0
      simp only at hp hs he
      have hsep := hc.separated
      rw [List.pairwise_map, hsplit] at hsep
      rw [hsplit] at hx
      have hxk : x.pointId = k := hidA x (by rw [hsplit]; exact hx)
      have hak := hidA a ha
      have hbk := hidA b hb
      rw [List.pairwise_append] at hsep
      obtain ⟨-, h5, h6⟩ := hsep
      have h7 := List.pairwise_cons.mp h5
      have h8 := List.pairwise_cons.mp h7.2
      rcases List.mem_append.mp hx with hx | hx
      · have := h6 x hx a (by simp)
        simp only at this
        have hn := hc.nonempty _ (List.mem_map_of_mem (f := fun r : AggRow =>
          (⟨r.pointId, r.start, r.end_⟩ : PInterval)) ha)
        simp only at hn
        omega
      · rcases List.mem_cons.mp hx with rfl | hx
        · omega
        · rcases List.mem_cons.mp hx with rfl | hx
          · omega
          · have := h8.1 x hx
            simp only at this
            have hn := hc.nonempty _ (List.mem_map_of_mem (f := fun r : AggRow =>
              (⟨r.pointId, r.start, r.end_⟩ : PInterval)) hb)
            simp only at hn
            omega

/-- Two satellites over a window of 1000: one in view from 300 to 400, the other from the start to 40 and from 350
to 420. -/
def twoInView : List (List Member) :=
  [[⟨"a", [⟨⟨"x", 0, false⟩, fun _ => true, visibleIntervals 0 1000 60 [(300, .rise), (400, .set)]⟩]⟩],
   [⟨"b", [⟨⟨"y", 0, false⟩, fun _ => true,
      visibleIntervals 0 1000 60 [(40, .set), (350, .rise), (360, .culminate), (420, .set)]⟩]⟩]]

/-- The signals of the two satellites. -/
def twoSignals (r : InstrumentRun) : Bool × List Int :=
  if r.spec.name = "x" then (false, [300, 400]) else (true, [40, 350, 420])

/-- The hypotheses of C102 hold of the two satellites. -/
theorem twoInView_seen : ∀ c ∈ twoInView, ∀ m ∈ c, ∀ r ∈ m.instruments,
    SeenAs 0 1000 (twoSignals r) r ∧ CountsAll r := by
  intro c hc m hm r hr
  simp only [twoInView, List.mem_cons, List.not_mem_nil, or_false] at hc
  rcases hc with rfl | rfl
  · simp only [List.mem_singleton] at hm
    subst hm
    simp only [List.mem_singleton] at hr
    subst hr
    exact ⟨⟨60, [(300, .rise), (400, .set)], ⟨by decide, by decide, by decide, by decide, ⟨by decide, trivial⟩⟩, rfl⟩,
      ⟨rfl, rfl, fun _ => rfl⟩⟩
  · simp only [List.mem_singleton] at hm
    subst hm
    simp only [List.mem_singleton] at hr
    subst hr
    exact ⟨⟨60, [(40, .set), (350, .rise), (360, .culminate), (420, .set)],
      ⟨by decide, by decide, by decide, by decide, ⟨by decide, trivial⟩⟩, rfl⟩, ⟨rfl, rfl, fun _ => rfl⟩⟩

/-- Their total access is 160: the first 40 and from 300 to 420. -/
example : ∃ rows, collectMultiObservations (SortValues.insertion _) 1 twoInView = .ok rows ∧
    totalAccess (aggregateObservations (SortValues.insertion _) rows) 1 = 160 ∧
    (aggregateObservations (SortValues.insertion _) rows).map (·.revisit) = [none, some 260] :=
  ⟨_, rfl, by decide +kernel, by decide +kernel⟩

example := fun rows h => C102_total_in_view (SortValues.insertion _) (SortValues.insertion _) 1 0 1000 (by decide)
  twoSignals twoInView rows h twoInView_seen

/-- **C102 is false of fixed access times**: two passes of 10 µs, observed for 4 µs each, give 8 µs. -/
theorem C102_fixed_false : ∃ (signal : InstrumentRun → Bool × List Int) (satellites : List (List Member))
    (rows : List Obs), collectMultiObservations (SortValues.insertion _) 1 satellites = .ok rows ∧
    (∀ c ∈ satellites, ∀ m ∈ c, ∀ r ∈ m.instruments, SeenAs 0 100000 (signal r) r) ∧
    totalAccess (aggregateObservations (SortValues.insertion _) rows) 1 = 8000 ∧
    ∀ t, 10000 ≤ t → t + 1 ≤ 20000 → t ∈ inViewTicks 0 100000 signal satellites := by
  have hs : SignalEvents 0 100000 6000 false [10000, 20000, 50000, 60000]
      [(10000, .rise), (20000, .set), (50000, .rise), (60000, .set)] :=
    ⟨by decide, by decide, by decide, by decide, ⟨by decide, by decide, trivial⟩⟩
  refine ⟨fun _ => (false, [10000, 20000, 50000, 60000]),
    [[⟨"a", [⟨⟨"x", 4, true⟩, fun _ => true, visibleIntervals 0 100000 6000
      [(10000, .rise), (20000, .set), (50000, .rise), (60000, .set)]⟩]⟩]], _, rfl, ?_, by decide +kernel, ?_⟩
  · intro c hc m hm r hr
    simp only [List.mem_singleton] at hc
    subst hc
    simp only [List.mem_singleton] at hm
    subst hm
    simp only [List.mem_singleton] at hr
    subst hr
    exact ⟨6000, _, hs, rfl⟩
  · intro t h1 h2
    refine ⟨by omega, by omega, _, List.mem_singleton_self _, _, List.mem_singleton_self _, _,
      List.mem_singleton_self _, ?_⟩
    have hr : SeenAs 0 100000 (false, [10000, 20000, 50000, 60000]) ⟨⟨"x", 4, true⟩, fun _ => true,
      visibleIntervals 0 100000 6000 [(10000, .rise), (20000, .set), (50000, .rise), (60000, .set)]⟩ := ⟨6000, _, hs, rfl⟩
    refine ((tick_in_period (by decide) hr t).mp ⟨⟨10000, 20000⟩, ?_, h1, h2⟩).2.2
    decide

end Tatc.Props
