import Verif.Props.Chunks

/-!
# What aggregation depends on: when each point is observed, and nothing else

Intervals, access times and revisits of `aggregate_observations`, and everything of `reduce_observations`, are a function
of the set of instants at which each point is observed: not of who observes, of the order of the rows, of how the
instants are cut into observations, or of how often they are reported.
-/

namespace Tatc.Props

open Tatc.Pandas Tatc.Spec Tatc.Coverage Tatc.Latency

/-- Point `k` is observed at the instant `t` (not necessarily a tick) by an observation of the frame. -/
def ObservedAt (obs : List Obs) (k : Int) (t : ℚ) : Prop :=
  ∃ o ∈ obs, o.pointId = k ∧ (o.start : ℚ) ≤ t ∧ t ≤ (o.end_ : ℚ)

/-- Intervals that cover the same instants have the same components. -/
theorem isComponents_of_same {obs obs' rows : List PInterval} (hwf : ∀ o ∈ obs', o.start ≤ o.stop)
    (h : ∀ k t, (∃ o ∈ obs, o.point = k ∧ o.Contains t) ↔ ∃ o ∈ obs', o.point = k ∧ o.Contains t)
    (hc : IsComponents obs rows) : IsComponents obs' rows where
  nonempty := hc.nonempty
  separated := hc.separated
  covered := fun r hr t ht => (h _ _).mp (hc.covered r hr t ht)
  covers := by
    intro o ho
    have key : ∀ t : ℚ, o.Contains t → ∃ r ∈ rows, r.point = o.point ∧ r.Contains t := by
      intro t ht
      obtain ⟨o', ho', hp', h1, h2⟩ := (h o.point t).mpr ⟨o, ho, rfl, ht⟩
      obtain ⟨r, hr, hp, h3, h4⟩ := hc.covers o' ho'
      refine ⟨r, hr, hp.trans hp', ?_, ?_⟩
      · have : (r.start : ℚ) ≤ o'.start := by exact_mod_cast h3
        linarith
      · have : (o'.stop : ℚ) ≤ r.stop := by exact_mod_cast h4
        linarith
    have hw : (o.start : ℚ) ≤ o.stop := by exact_mod_cast hwf o ho
    obtain ⟨r, hr, hp, hs, he⟩ := key o.start ⟨le_refl _, hw⟩
    refine ⟨r, hr, hp, by exact_mod_cast hs, ?_⟩
    by_contra hlt
    push Not at hlt
    have hlt' : (r.stop : ℚ) + 1 ≤ o.stop := by exact_mod_cast hlt
    obtain ⟨r', hr', hp', hs', he'⟩ := key ((r.stop : ℚ) + 1 / 2) ⟨by linarith, by linarith⟩
    have hne : r ≠ r' := by
      rintro rfl
      linarith
    have hrr : (r.stop < r'.start) ∨ (r'.stop < r.start) := by
      rcases List.pairwise_iff_getElem.mp hc.separated with hsep
      obtain ⟨i, hi, rfl⟩ := List.mem_iff_getElem.mp hr
      obtain ⟨j, hj, rfl⟩ := List.mem_iff_getElem.mp hr'
      rcases lt_trichotomy i j with hij | hij | hij
      · have := hsep i j hi hj hij
        left
        omega
      · subst hij
        exact absurd rfl hne
      · have := hsep j i hj hi hij
        right
        omega
    rcases hrr with hh | hh
    · have : (r.stop : ℚ) + 1 ≤ r'.start := by exact_mod_cast hh
      linarith
    · have : (r'.stop : ℚ) + 1 ≤ r.start := by exact_mod_cast hh
      linarith

/-- **C154.** Two frames aggregate to the same rows (points, starts, ends, access times and revisits) exactly if they
observe the same points at the same instants. -/
theorem C154_iff (sort sort' : SortValues Obs.start) (obs obs' : List Obs)
    (hwf : ∀ o ∈ obs, o.start ≤ o.end_) (hwf' : ∀ o ∈ obs', o.start ≤ o.end_) :
    (aggregateObservations sort obs).map (fun r => (r.pointId, r.start, r.end_, r.access, r.revisit)) =
      (aggregateObservations sort' obs').map (fun r => (r.pointId, r.start, r.end_, r.access, r.revisit)) ↔
    ∀ k t, ObservedAt obs k t ↔ ObservedAt obs' k t := by
  constructor
  · intro h
    have key : ∀ (s : SortValues Obs.start) (l : List Obs), (∀ o ∈ l, o.start ≤ o.end_) → ∀ k t, ObservedAt l k t ↔
        ∃ x : Int × Int × Int × Int × Option Int,
          x ∈ (aggregateObservations s l).map (fun r => (r.pointId, r.start, r.end_, r.access, r.revisit)) ∧
          x.1 = k ∧ (x.2.1 : ℚ) ≤ t ∧ t ≤ (x.2.2.1 : ℚ) := by
      intro s l hl k t
      have hc := C01_components s l hl
      constructor
      · rintro ⟨o, ho, hk, h1, h2⟩
        obtain ⟨_, hr0, hp, h3, h4⟩ := hc.covers _ (List.mem_map_of_mem (f := fun o : Obs =>
          (⟨o.pointId, o.start, o.end_⟩ : PInterval)) ho)
        obtain ⟨r, hr, rfl⟩ := List.mem_map.mp hr0
        refine ⟨_, List.mem_map_of_mem hr, hp.trans hk, ?_, ?_⟩
        · have : (r.start : ℚ) ≤ o.start := by exact_mod_cast h3
          exact this.trans h1
        · have : (o.end_ : ℚ) ≤ r.end_ := by exact_mod_cast h4
          exact h2.trans this
      · rintro ⟨x, hx, hk, h1, h2⟩
        obtain ⟨r, hr, rfl⟩ := List.mem_map.mp hx
        obtain ⟨_, ho0, hp, h3, h4⟩ := hc.covered _ (List.mem_map_of_mem (f := fun r : AggRow =>
          (⟨r.pointId, r.start, r.end_⟩ : PInterval)) hr) t ⟨h1, h2⟩
        obtain ⟨o, ho, rfl⟩ := List.mem_map.mp ho0
        exact ⟨o, ho, hp.trans hk, h3, h4⟩
    intro k t
    rw [key sort obs hwf, key sort' obs' hwf', h]
  · intro h
    have h1 := rows_isComponents sort obs hwf
    have h2 := rows_isComponents sort' obs' hwf'
    have h1' := isComponents_of_same (obs' := obs'.map Obs.interval)
      (by
        intro o ho
        obtain ⟨o'', ho'', rfl⟩ := List.mem_map.mp ho
        exact hwf' o'' ho'')
      (by
        intro k t
        have := h k t
        constructor
        · rintro ⟨o, ho, hp, hc⟩
          obtain ⟨o'', ho'', rfl⟩ := List.mem_map.mp ho
          obtain ⟨o', ho', hp', hc'⟩ := this.mp ⟨o'', ho'', hp, hc⟩
          exact ⟨_, List.mem_map_of_mem ho', hp', hc'⟩
        · rintro ⟨o, ho, hp, hc⟩
          obtain ⟨o'', ho'', rfl⟩ := List.mem_map.mp ho
          obtain ⟨o', ho', hp', hc'⟩ := this.mpr ⟨o'', ho'', hp, hc⟩
          exact ⟨_, List.mem_map_of_mem ho', hp', hc'⟩) h1
    have hint := isComponents_unique (fun _ => Iff.rfl) h1' h2
    have hfull : ((allGroups sort obs).map dissolveRow).map (fun r => (r.interval, ())) =
        ((allGroups sort' obs').map dissolveRow).map (fun r => (r.interval, ())) := by
      have := congrArg (List.map fun i => (i, ())) hint
      simpa only [List.map_map, Function.comp_def] using this
    have := metricsSeq_congr (fun _ => ()) _ _ none none hfull rfl
    rw [← aggregate_eq_metricsSeq, ← aggregate_eq_metricsSeq] at this
    have h3 := congrArg (List.map (fun x : PInterval × Unit × Int × Option Int =>
      (x.1.point, x.1.start, x.1.stop, x.2.2.1, x.2.2.2))) this
    rw [List.map_map, List.map_map] at h3
    exact h3

/-- **C154, reduced.** So the mean access, the mean revisit and the number of samples of each point are the same. -/
theorem C154_reduced (sort sort' : SortValues Obs.start) (obs obs' : List Obs)
    (hwf : ∀ o ∈ obs, o.start ≤ o.end_) (hwf' : ∀ o ∈ obs', o.start ≤ o.end_)
    (h : ∀ k t, ObservedAt obs k t ↔ ObservedAt obs' k t) :
    reduceObservations (aggregateObservations sort obs) = reduceObservations (aggregateObservations sort' obs') := by
  apply reduce_congr
  have := congrArg (List.map fun x : Int × Int × Int × Int × Option Int => (x.1, x.2.2.2.1, x.2.2.2.2))
    ((C154_iff sort sort' obs obs' hwf hwf').mpr h)
  rw [List.map_map, List.map_map] at this
  exact this

/-- **C154, redundant observations.** A satellite or an instrument all of whose observations lie within observations that
others make of the same points changes neither the rows nor the reduced frame. -/
theorem C154_redundant (sort sort' : SortValues Obs.start) (obs more : List Obs)
    (hwf : ∀ o ∈ obs, o.start ≤ o.end_) (hwf' : ∀ o ∈ more, o.start ≤ o.end_)
    (h : ∀ o ∈ more, ∃ o' ∈ obs, o'.pointId = o.pointId ∧ o'.start ≤ o.start ∧ o.end_ ≤ o'.end_) :
    (aggregateObservations sort' (obs ++ more)).map (fun r => (r.pointId, r.start, r.end_, r.access, r.revisit)) =
      (aggregateObservations sort obs).map (fun r => (r.pointId, r.start, r.end_, r.access, r.revisit)) ∧
    reduceObservations (aggregateObservations sort' (obs ++ more)) =
      reduceObservations (aggregateObservations sort obs) := by
  have hall : ∀ o ∈ obs ++ more, o.start ≤ o.end_ := fun o ho => (List.mem_append.mp ho).elim (hwf o) (hwf' o)
  have hsame : ∀ k t, ObservedAt (obs ++ more) k t ↔ ObservedAt obs k t := by
    intro k t
    constructor
    · rintro ⟨o, ho, hk, h1, h2⟩
      rcases List.mem_append.mp ho with ho | ho
      · exact ⟨o, ho, hk, h1, h2⟩
      · obtain ⟨o', ho', hp, h3, h4⟩ := h o ho
        refine ⟨o', ho', hp.trans hk, ?_, ?_⟩
        · have : (o'.start : ℚ) ≤ o.start := by exact_mod_cast h3
          exact this.trans h1
        · have : (o.end_ : ℚ) ≤ o'.end_ := by exact_mod_cast h4
          exact h2.trans this
    · rintro ⟨o, ho, rest⟩
      exact ⟨o, List.mem_append_left _ ho, rest⟩
  exact ⟨(C154_iff sort' sort _ _ hall hwf).mpr hsame, C154_reduced sort' sort _ _ hall hwf hsame⟩

/-- The epoch does depend on more: it is a mean over observations, so reporting one of two observations twice moves it. -/
theorem C154_epoch_false : ∃ obs obs' : List Obs, (∀ o ∈ obs, o.start ≤ o.end_) ∧ (∀ o ∈ obs', o.start ≤ o.end_) ∧
    (∀ k t, ObservedAt obs k t ↔ ObservedAt obs' k t) ∧
    (aggregateObservations (SortValues.insertion _) obs).map (·.epoch) ≠
      (aggregateObservations (SortValues.insertion _) obs').map (·.epoch) := by
  refine ⟨[⟨1, "A", "i", 0, 3, 6⟩, ⟨1, "B", "i", 4, 7, 10⟩], [⟨1, "A", "i", 0, 3, 6⟩, ⟨1, "B", "i", 4, 7, 10⟩,
    ⟨1, "C", "i", 4, 7, 10⟩], by decide, by decide, ?_, by decide +kernel⟩
  intro k t
  simp only [ObservedAt, List.mem_cons, List.not_mem_nil, or_false, exists_eq_or_imp, exists_eq_left]
  tauto

/-- Two satellites that take turns see what one satellite sees on its own: one row of 10 ticks. -/
example : (aggregateObservations (SortValues.insertion _) [⟨1, "A", "i", 0, 3, 6⟩, ⟨1, "B", "i", 6, 8, 10⟩]).map
      (fun r : AggRow => (r.start, r.end_, r.access)) = [(0, 10, 10)] ∧
    (aggregateObservations (SortValues.insertion _) [⟨1, "C", "j", 0, 5, 10⟩]).map
      (fun r : AggRow => (r.start, r.end_, r.access)) = [(0, 10, 10)] := by decide +kernel

example := C154_redundant (SortValues.insertion _) (SortValues.insertion _) sampleObs (sampleObs.take 1) sampleObs_wf
  (fun o ho => sampleObs_wf o (List.mem_of_mem_take ho))
  (fun o ho => ⟨o, List.mem_of_mem_take ho, rfl, le_refl _, le_refl _⟩)

end Tatc.Props
