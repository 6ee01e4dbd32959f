import Verif.Props.EndToEnd

/-!
# C118: consecutive periods
-/

namespace Tatc.Props
open Tatc.Pandas Tatc.Spec Tatc.Coverage

/-- A run of `collect_multi_observations` over the period from `start` to `end_`, for the satellites in view as in
`view`: the rows it gives, the settings with which every pass counts, and the agreement with `view`. -/
structure RunOver (k start end_ : Int) (view : ℚ → Prop) (rows : List Obs) : Prop where
  ordered : start ≤ end_
  run : ∃ (sort : SortValues Obs.start) (signal : InstrumentRun → Bool × List Int) (satellites : List (List Member)),
    collectMultiObservations sort k satellites = .ok rows ∧
    (∀ c ∈ satellites, ∀ m ∈ c, ∀ r ∈ m.instruments, SeenAs start end_ (signal r) r ∧ CountsAll r) ∧
    ∀ t : Int, start ≤ t → t + 1 ≤ end_ →
      ((∃ c ∈ satellites, ∃ m ∈ c, ∃ r ∈ m.instruments,
        visibleAt (signal r).1 (signal r).2 ((t : ℚ) + 1 / 2) = true) ↔ view ((t : ℚ) + 1 / 2))

theorem RunOver.ticks {k start end_ : Int} {view : ℚ → Prop} {rows : List Obs} (h : RunOver k start end_ view rows) :
    observedTicks rows k = {t | start ≤ t ∧ t + 1 ≤ end_ ∧ view ((t : ℚ) + 1 / 2)} := by
  obtain ⟨sort, signal, satellites, hrun, hseen, hview⟩ := h.run
  rw [observedTicks_eq h.ordered hrun hseen]
  ext t
  constructor
  · rintro ⟨h1, h2, h3⟩; exact ⟨h1, h2, (hview t h1 h2).mp h3⟩
  · rintro ⟨h1, h2, h3⟩; exact ⟨h1, h2, (hview t h1 h2).mpr h3⟩

theorem RunOver.wf {k start end_ : Int} {view : ℚ → Prop} {rows : List Obs} (h : RunOver k start end_ view rows) :
    ∀ o ∈ rows, o.start ≤ o.end_ := by
  obtain ⟨sort, signal, satellites, hrun, hseen, hview⟩ := h.run
  exact rows_wf h.ordered hrun fun c hc m hm r hr => ⟨(hseen c hc m hm r hr).1, (hseen c hc m hm r hr).2.notFixed⟩

/-- **C118.** Collecting observations over a period and over the one that follows it gives the total access of
collecting them over both at once, added up or aggregated together. -/
theorem C118_consecutive (sort : SortValues Obs.start) {k a b c : Int} {view : ℚ → Prop} {first second whole : List Obs}
    (h1 : RunOver k a b view first) (h2 : RunOver k b c view second) (h : RunOver k a c view whole) :
    totalAccess (aggregateObservations sort first) k + totalAccess (aggregateObservations sort second) k =
      totalAccess (aggregateObservations sort whole) k ∧
    totalAccess (aggregateObservations sort (first ++ second)) k = totalAccess (aggregateObservations sort whole) k := by
  have hab := h1.ordered
  have hbc := h2.ordered
  have hunion : observedTicks first k ∪ observedTicks second k = observedTicks whole k := by
    rw [h1.ticks, h2.ticks, h.ticks]
    ext t
    simp only [Set.mem_union, Set.mem_ofPred_eq]
    constructor
    · rintro (⟨x, y, z⟩ | ⟨x, y, z⟩)
      · exact ⟨x, by omega, z⟩
      · exact ⟨by omega, y, z⟩
    · rintro ⟨x, y, z⟩
      rcases lt_or_ge t b with hb | hb
      · exact .inl ⟨x, by omega, z⟩
      · exact .inr ⟨hb, y, z⟩
  have hdisj : Disjoint (observedTicks first k) (observedTicks second k) := by
    rw [h1.ticks, h2.ticks, Set.disjoint_left]
    rintro t ⟨_, x, _⟩ ⟨y, _, _⟩
    omega
  have happ : observedTicks (first ++ second) k = observedTicks first k ∪ observedTicks second k := by
    ext t
    simp only [observedTicks, Set.mem_ofPred_eq, Set.mem_union, List.mem_append]
    constructor
    · rintro ⟨o, ho | ho, r⟩
      · exact .inl ⟨o, ho, r⟩
      · exact .inr ⟨o, ho, r⟩
    · rintro (⟨o, ho, r⟩ | ⟨o, ho, r⟩)
      · exact ⟨o, .inl ho, r⟩
      · exact ⟨o, .inr ho, r⟩
  constructor
  · rw [C96_total_access sort first h1.wf, C96_total_access sort second h2.wf, C96_total_access sort whole h.wf, ← hunion,
      Set.ncard_union_eq hdisj (observedTicks_finite _ _) (observedTicks_finite _ _)]
    push_cast
    rfl
  · rw [C96_total_access sort (first ++ second) (fun o ho => (List.mem_append.mp ho).elim (h1.wf o) (h2.wf o)),
      C96_total_access sort whole h.wf, happ, hunion]

/-- One satellite with an instrument of the minimum access time given, over a period, with the events given. -/
def oneRun (minimum start end_ : Int) (events : List (Int × EventKind)) : List (List Member) :=
  [[⟨"a", [⟨⟨"x", minimum, false⟩, fun _ => true, visibleIntervals start end_ 6000 events⟩]⟩]]

/-- The total access of a point in what is collected of such a satellite. -/
def totalOver (minimum start end_ : Int) (events : List (Int × EventKind)) : Option Int :=
  match collectMultiObservations (SortValues.insertion _) 1 (oneRun minimum start end_ events) with
  | .ok rows => some (totalAccess (aggregateObservations (SortValues.insertion _) rows) 1)
  | .error _ => none

/-- In view from 3000 to 10000. -/
def passAt (t : ℚ) : Prop := 3000 < t ∧ t < 10000

theorem runOver_of {start end_ M : Int} {initial : Bool} {crossings : List Int} {events : List (Int × EventKind)}
    {rows : List Obs} (hse : start ≤ end_) (hM : M = 6000)
    (he : SignalEvents start end_ M initial crossings events)
    (hrun : collectMultiObservations (SortValues.insertion _) 1 (oneRun 0 start end_ events) = .ok rows)
    (hview : ∀ t : Int, start ≤ t → t + 1 ≤ end_ → (visibleAt initial crossings ((t : ℚ) + 1 / 2) = true ↔
      passAt ((t : ℚ) + 1 / 2))) :
    RunOver 1 start end_ passAt rows := by
  subst hM
  refine ⟨hse, SortValues.insertion _, fun _ => (initial, crossings), _, hrun, ?_, ?_⟩
  · intro c hc m hm r hr
    simp only [oneRun, List.mem_singleton] at hc
    subst hc
    simp only [List.mem_singleton] at hm
    subst hm
    simp only [List.mem_singleton] at hr
    subst hr
    exact ⟨⟨6000, events, he, rfl⟩, ⟨rfl, rfl, fun _ => rfl⟩⟩
  · intro t h1 h2
    rw [← hview t h1 h2]
    simp [oneRun]

/-- The hypotheses of C118 hold of a pass that is cut in two. -/
example : ∃ first second whole, RunOver 1 0 6000 passAt first ∧ RunOver 1 6000 20000 passAt second ∧
    RunOver 1 0 20000 passAt whole ∧
    totalAccess (aggregateObservations (SortValues.insertion _) first) 1 = 3000 ∧
    totalAccess (aggregateObservations (SortValues.insertion _) second) 1 = 4000 ∧
    totalAccess (aggregateObservations (SortValues.insertion _) whole) 1 = 7000 := by
  refine ⟨_, _, _, runOver_of (events := [(3000, .rise)]) (crossings := [3000]) (initial := false) (by decide) rfl
      ⟨by decide, by decide, by decide, by decide, trivial⟩ rfl ?_,
    runOver_of (events := [(6500, .culminate), (10000, .set)]) (crossings := [10000]) (initial := true) (by decide) rfl
      ⟨by decide, by decide, by decide, by decide, trivial⟩ rfl ?_,
    runOver_of (events := [(3000, .rise), (6500, .culminate), (10000, .set)]) (crossings := [3000, 10000])
      (initial := false) (by decide) rfl ⟨by decide, by decide, by decide, by decide, ⟨by decide, trivial⟩⟩ rfl ?_,
    by decide +kernel, by decide +kernel, by decide +kernel⟩
  all_goals
    intro t h1 h2
    have q1 : ((t : ℚ) + 1 / 2 < 3000) ↔ t < 3000 := by
      constructor
      · intro h; have : (t : ℚ) < 3000 := by linarith
        exact_mod_cast this
      · intro h; have : (t : ℚ) + 1 ≤ 3000 := by exact_mod_cast h
        linarith
    have q2 : ((t : ℚ) + 1 / 2 < 10000) ↔ t < 10000 := by
      constructor
      · intro h; have : (t : ℚ) < 10000 := by linarith
        exact_mod_cast this
      · intro h; have : (t : ℚ) + 1 ≤ 10000 := by exact_mod_cast h
        linarith
    have q3 : (3000 < (t : ℚ) + 1 / 2) ↔ 3000 ≤ t := by
      constructor
      · intro h
        by_contra hn
        have := q1.mpr (by omega)
        linarith
      · intro h; have : (3000 : ℚ) ≤ t := by exact_mod_cast h
        linarith
    have r1 : ((3000 : ℚ) ≤ (t : ℚ) + 1 / 2) ↔ 3000 ≤ t := by rw [← not_lt, q1, not_lt]
    have r2 : ((10000 : ℚ) ≤ (t : ℚ) + 1 / 2) ↔ 10000 ≤ t := by rw [← not_lt, q2, not_lt]
    unfold passAt
    rw [q2, q3]
    simp only [visibleAt, List.filter_cons, List.filter_nil, Int.cast_ofNat, decide_eq_true_eq, r1, r2]
    split_ifs <;> simp <;> omega

/-- **C118 is false with a minimum access time**: a pass of 7 µs, and a minimum of 5 µs, cut in two. -/
theorem C118_minimum_false :
    totalOver 5 0 6000 [(3000, .rise)] = some 0 ∧
    totalOver 5 6000 20000 [(6500, .culminate), (10000, .set)] = some 0 ∧
    totalOver 5 0 20000 [(3000, .rise), (6500, .culminate), (10000, .set)] = some 7000 :=
  ⟨by decide +kernel, by decide +kernel, by decide +kernel⟩

/-- **C118 is false of a period within a pass**, if the satellite does not culminate during it: the events of the pass
that fall into the second period, from 7000 to 9000, are none. -/
theorem C118_within_false :
    totalOver 0 0 7000 [(3000, .rise), (6500, .culminate)] = some 4000 ∧
    totalOver 0 7000 9000 [] = some 0 ∧
    totalOver 0 0 9000 [(3000, .rise), (6500, .culminate)] = some 6000 :=
  ⟨by decide +kernel, by decide +kernel, by decide +kernel⟩

end Tatc.Props
