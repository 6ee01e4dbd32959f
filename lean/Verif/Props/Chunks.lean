import Verif.Props.Aggregate
import Verif.Props.Reduce
import Verif.Props.Latency

/-!
# C116, C117: work in parts
-/

namespace Tatc.Props
open Tatc.Pandas Tatc.Spec Tatc.Coverage Tatc.Latency

/-! ## Grouping -/

theorem groupKeys_filter {α κ : Type} [LinearOrder κ] (key : α → κ) (keep : κ → Bool) (l : List α) :
    groupKeys key (l.filter fun a => keep (key a)) = (groupKeys key l).filter keep := by
  apply eq_of_sorted_of_mem_iff (groupKeys_sorted _ _) ((groupKeys_sorted _ _).filter _)
  intro k
  rw [List.mem_filter, mem_groupKeys, mem_groupKeys]
  constructor
  · rintro ⟨a, ha, rfl⟩
    rw [List.mem_filter] at ha
    exact ⟨⟨a, ha.1, rfl⟩, ha.2⟩
  · rintro ⟨⟨a, ha, rfl⟩, hk⟩
    exact ⟨a, List.mem_filter.mpr ⟨ha, hk⟩, rfl⟩

theorem groupBy_filter {α κ : Type} [LinearOrder κ] (key : α → κ) (keep : κ → Bool) (l : List α) :
    groupBy key (l.filter fun a => keep (key a)) = (groupBy key l).filter fun kg => keep kg.1 := by
  unfold groupBy
  rw [groupKeys_filter, List.filter_map]
  have : (fun kg : κ × List α => keep kg.1) ∘ (fun k => (k, l.filter fun a => decide (key a = k))) = keep := rfl
  rw [this]
  apply List.map_congr_left
  intro k hk
  have hk' := (List.mem_filter.mp hk).2
  rw [List.filter_filter]
  congr 1
  apply List.filter_congr
  intro a _
  by_cases h : key a = k
  · simp [h, hk']
  · simp [h]

theorem groupBy_map {α β κ : Type} [LinearOrder κ] (key : β → κ) (f : α → β) (l : List α) :
    groupBy key (l.map f) = (groupBy (fun a => key (f a)) l).map fun kg => (kg.1, kg.2.map f) := by
  unfold groupBy
  have hk : groupKeys key (l.map f) = groupKeys (fun a => key (f a)) l := by
    unfold groupKeys; rw [List.map_map]; rfl
  rw [hk, List.map_map]
  apply List.map_congr_left
  intro k _
  simp only [Function.comp_def, List.filter_map]

/-! ## C116: each point by itself -/

/-- **C116.** Whatever points are kept, aggregating only their observations gives, in every column, exactly their rows of
the aggregated frame. -/
theorem C116_aggregate (sort : SortValues Obs.start) (obs : List Obs) (keep : Int → Bool) :
    aggregateObservations sort (obs.filter fun o => keep o.pointId) =
      (aggregateObservations sort obs).filter fun r => keep r.pointId := by
  rw [aggregate_eq_flatMap, aggregate_eq_flatMap, groupBy_filter]
  have hmem : ∀ kg ∈ groupBy Obs.pointId obs, ∀ r ∈ aggregatePoint sort kg.2, r.pointId = kg.1 := by
    rintro ⟨k, l⟩ hkl r hr
    obtain ⟨_, rfl⟩ := mem_groupBy.mp hkl
    have hr' : r.toObs ∈ (overlapGroups (sort.run (obs.filter fun a => a.pointId = k))).map dissolveRow := by
      rw [← withMetrics_toObs ((overlapGroups (sort.run (obs.filter fun a => a.pointId = k))).map dissolveRow)]
      exact List.mem_map_of_mem hr
    obtain ⟨g, hg, he⟩ := List.mem_map.mp hr'
    have hm := mem_group_of_point hg
    obtain ⟨o, ho⟩ := List.exists_mem_of_ne_nil _ (overlapGroups_ne_nil _ g hg)
    have := dissolveRow_pointId (fun a ha b hb => by rw [(hm a ha).2, (hm b hb).2]) ho
    rw [he, (hm o ho).2] at this
    exact this
  generalize groupBy Obs.pointId obs = l at hmem
  induction l with
  | nil => simp
  | cons kg t ih =>
    have iht := ih fun kg' h => hmem kg' (List.mem_cons_of_mem _ h)
    have hk := hmem kg List.mem_cons_self
    rw [List.flatMap_cons, List.filter_append, ← iht]
    by_cases hkeep : keep kg.1 = true
    · rw [List.filter_cons_of_pos (p := fun kg : Int × List Obs => keep kg.1) hkeep, List.flatMap_cons]
      congr 1
      symm
      rw [List.filter_eq_self]
      intro r hr
      rw [hk r hr]; exact hkeep
    · rw [List.filter_cons_of_neg (p := fun kg : Int × List Obs => keep kg.1) hkeep]
      have : (aggregatePoint sort kg.2).filter (fun r => keep r.pointId) = [] := by
        rw [List.filter_eq_nil_iff]
        intro r hr
        rw [hk r hr]; exact hkeep
      rw [this, List.nil_append]

/-- The reduced rows of the points kept. -/
theorem C116_reduce (rows : List AggRow) (keep : Int → Bool) :
    reduceObservations (rows.filter fun r => keep r.pointId) =
      (reduceObservations rows).filter fun s => keep s.pointId := by
  have h : ∀ l : List AggRow, reduceObservations l = (groupBy (fun r : AggRow => r.pointId) l).map fun kg =>
      { pointId := kg.1
        access := timedeltaSeconds (mean (kg.2.map fun r => nsToSeconds r.access))
        revisit := (nanmean (kg.2.map fun r => r.revisit.map nsToSeconds)).map timedeltaSeconds
        samples := (kg.2.map fun _ => 1).sum } := by
    intro l
    unfold reduceObservations
    split_ifs with he
    · rw [List.isEmpty_iff] at he; subst he; simp [groupBy_nil]
    · rfl
  rw [h, h, groupBy_filter, List.filter_map]
  rfl

/-- The reduced latencies of the points kept. -/
theorem C116_reduce_latencies (rows : List LatRow) (keep : Int → Bool) :
    reduceLatencies (rows.filter fun r => keep r.obs.pointId) =
      (reduceLatencies rows).filter fun s => keep s.pointId := by
  have h : ∀ l : List LatRow, reduceLatencies l = (groupBy (fun r : LatRow => r.obs.pointId) l).map fun kg =>
      { pointId := kg.1
        latency := (nanmean (kg.2.map fun r => r.latency.map (· / 1000000000))).map timedeltaSeconds
        samples := (kg.2.map fun _ => 1).sum } := by
    intro l
    unfold reduceLatencies
    split_ifs with he
    · rw [List.isEmpty_iff] at he; subst he; simp [groupBy_nil]
    · rfl
  rw [h, h, groupBy_filter, List.filter_map]
  rfl

/-- The latencies of the observations kept (of a set of points, of satellites or any other) are their rows of all
latencies, up to the order of rows with the same time. -/
theorem C116_latencies (sortEnd sortEnd' : SortValues Obs.end_) (sortStart : SortValues Downlink.start)
    (sortObserved sortObserved' : SortValues LatRow.observed) (obs : List Obs) (downlinks : List Downlink)
    (keep : Obs → Bool) :
    (computeLatencies sortEnd' sortStart sortObserved' (obs.filter keep) downlinks).Perm
      ((computeLatencies sortEnd sortStart sortObserved obs downlinks).filter fun r => keep r.obs) := by
  unfold computeLatencies
  by_cases hd : downlinks.isEmpty = true
  · simp [hd]
  · by_cases ho : obs.isEmpty = true
    · rw [List.isEmpty_iff] at ho; subst ho; simp
    · rw [if_neg (show ¬ (obs.isEmpty || downlinks.isEmpty) = true by simp_all)]
      have hb : ((sortObserved.run ((sortEnd.run obs).map (latencyRow (sortStart.run downlinks)))).filter
          fun r => keep r.obs).Perm ((obs.filter keep).map (latencyRow (sortStart.run downlinks))) := by
        refine ((sortObserved.perm _).filter _).trans ?_
        rw [List.filter_map]
        exact ((sortEnd.perm obs).filter _).map _
      refine List.Perm.trans ?_ hb.symm
      split_ifs with hf
      · have : obs.filter keep = [] := by
          rw [← List.isEmpty_iff]
          simpa [hd] using hf
        rw [this]; exact List.Perm.refl _
      · exact (sortObserved'.perm _).trans ((sortEnd'.perm _).map _)

/-- **C116**, concatenation: two frames of which the points of the first come before those of the second. -/
theorem C116_concat (sort : SortValues Obs.start) (a b : List Obs) (h : ∀ o ∈ a, ∀ o' ∈ b, o.pointId < o'.pointId) :
    aggregateObservations sort (a ++ b) = aggregateObservations sort a ++ aggregateObservations sort b ∧
    reduceObservations (aggregateObservations sort (a ++ b)) =
      reduceObservations (aggregateObservations sort a) ++ reduceObservations (aggregateObservations sort b) := by
  classical
  let keep : Int → Bool := fun k => decide (∃ o ∈ a, o.pointId = k)
  have hka : ∀ o ∈ a, keep o.pointId = true := fun o ho => decide_eq_true ⟨o, ho, rfl⟩
  have hkb : ∀ o ∈ b, keep o.pointId = false := fun o ho => by
    rw [decide_eq_false_iff_not]
    rintro ⟨o', ho', e⟩
    have := h o' ho' o ho
    omega
  have e1 : (a ++ b).filter (fun o => keep o.pointId) = a := by
    rw [List.filter_append, List.filter_eq_self.mpr hka, List.filter_eq_nil_iff.mpr fun o ho => by simp [hkb o ho],
      List.append_nil]
  have e2 : (a ++ b).filter (fun o => !keep o.pointId) = b := by
    rw [List.filter_append, List.filter_eq_nil_iff.mpr fun o ho => by simp [hka o ho],
      List.filter_eq_self.mpr fun o ho => by simp [hkb o ho], List.nil_append]
  have f1 := C116_aggregate sort (a ++ b) keep
  have f2 := C116_aggregate sort (a ++ b) (fun k => !keep k)
  rw [e1] at f1
  rw [e2] at f2
  -- a list that is sorted into those kept and the others is the first followed by the second
  have split : ∀ {β : Type} (l : List β) (id : β → Int), l.Pairwise (fun x y => id x ≤ id y) →
      (∀ x ∈ l, ∃ o ∈ a ++ b, o.pointId = id x) →
      l = l.filter (fun x => keep (id x)) ++ l.filter (fun x => !keep (id x)) := by
    intro β l id hl hmem
    induction l with
    | nil => simp
    | cons x t ih =>
      rw [List.pairwise_cons] at hl
      have iht := ih hl.2 fun y hy => hmem y (List.mem_cons_of_mem _ hy)
      by_cases hx : keep (id x) = true
      · rw [List.filter_cons_of_pos (p := fun x => keep (id x)) hx,
          List.filter_cons_of_neg (p := fun x => !keep (id x)) (by simp [hx]), List.cons_append, ← iht]
      · rw [List.filter_cons_of_neg (p := fun x => keep (id x)) hx,
          List.filter_cons_of_pos (p := fun x => !keep (id x)) (by simpa using hx)]
        have hxb : ∃ o ∈ b, o.pointId = id x := by
          obtain ⟨o, ho, e⟩ := hmem x List.mem_cons_self
          rcases List.mem_append.mp ho with ho | ho
          · rw [← e, hka o ho] at hx; exact absurd rfl hx
          · exact ⟨o, ho, e⟩
        obtain ⟨o, ho, e⟩ := hxb
        have : t.filter (fun x => keep (id x)) = [] := by
          rw [List.filter_eq_nil_iff]
          intro y hy hk
          obtain ⟨o', ho', e'⟩ := of_decide_eq_true hk
          have := h o' ho' o ho
          have := hl.1 y hy
          omega
        rw [this, List.nil_append]
        rw [this, List.nil_append] at iht
        rw [← iht]
  have point : ∀ r ∈ aggregateObservations sort (a ++ b), ∃ o ∈ a ++ b, o.pointId = r.pointId := by
    intro r hr
    have hr' : r.toObs ∈ (allGroups sort (a ++ b)).map dissolveRow := by
      rw [← aggregate_toObs]; exact List.mem_map_of_mem hr
    obtain ⟨g, hg, he⟩ := List.mem_map.mp hr'
    have ok := allGroups_ok sort (a ++ b) g hg
    obtain ⟨o, ho⟩ := List.exists_mem_of_ne_nil _ ok.ne
    refine ⟨o, ok.sub o ho, ?_⟩
    rw [← dissolveRow_pointId ok.same ho, he]
  have hsorted : (aggregateObservations sort (a ++ b)).Pairwise (fun x y => x.pointId ≤ y.pointId) := by
    have hsep := allGroups_separated sort (a ++ b)
    have hs : ((aggregateObservations sort (a ++ b)).map (·.toObs)).Pairwise (fun x y => x.pointId ≤ y.pointId) := by
      rw [aggregate_toObs, List.pairwise_map]
      refine (List.Pairwise.and_mem.mp hsep).imp ?_
      rintro g g' ⟨hg, hg', hlt⟩
      have ok := allGroups_ok sort (a ++ b) g hg
      have ok' := allGroups_ok sort (a ++ b) g' hg'
      obtain ⟨o, ho⟩ := List.exists_mem_of_ne_nil _ ok.ne
      obtain ⟨o', ho'⟩ := List.exists_mem_of_ne_nil _ ok'.ne
      rw [dissolveRow_pointId ok.same ho, dissolveRow_pointId ok'.same ho']
      have := hlt o ho o' ho'
      omega
    rw [List.pairwise_map] at hs
    exact hs
  have main : aggregateObservations sort (a ++ b) = aggregateObservations sort a ++ aggregateObservations sort b := by
    rw [f1, f2]
    exact split _ (fun r : AggRow => r.pointId) hsorted point
  refine ⟨main, ?_⟩
  rw [f1, f2, C116_reduce, C116_reduce _ fun k => !keep k]
  refine split _ (fun s : RedRow => s.pointId) ?_ ?_
  · exact (List.pairwise_map.mp (C06_reduce _).1).imp fun h => le_of_lt h
  · intro s hs
    obtain ⟨r, hr, e⟩ := ((C06_reduce (aggregateObservations sort (a ++ b))).2.1 s.pointId).mp (List.mem_map_of_mem hs)
    obtain ⟨o, ho, e'⟩ := point r hr
    exact ⟨o, ho, by rw [e', e]⟩

/-- The sample frame, whose point 1 comes before its point 2. -/
example : aggregateObservations (SortValues.insertion _) (sampleObs.filter fun o => o.pointId = 1) =
    (aggregateObservations (SortValues.insertion _) sampleObs).filter (fun r => r.pointId = 1) ∧
    ((aggregateObservations (SortValues.insertion _) sampleObs).filter (fun r => r.pointId = 1)).length = 2 :=
  ⟨C116_aggregate _ _ fun k => decide (k = 1), by decide +kernel⟩

example := C116_concat (SortValues.insertion _) (sampleObs.filter fun o => o.pointId = 1)
  (sampleObs.filter fun o => o.pointId = 2) (by decide)

/-! ## C117: aggregating in stages -/

/-- The components of components are the components of everything. -/
theorem components_of_components {frames : List (List PInterval × List PInterval)} {rows : List PInterval}
    (h : ∀ f ∈ frames, IsComponents f.1 f.2) (hr : IsComponents (frames.flatMap (·.2)) rows) :
    IsComponents (frames.flatMap (·.1)) rows where
  nonempty := hr.nonempty
  separated := hr.separated
  covered := by
    intro r hrm t ht
    obtain ⟨o, ho, hp, hc⟩ := hr.covered r hrm t ht
    obtain ⟨f, hf, ho⟩ := List.mem_flatMap.mp ho
    obtain ⟨o', ho', hp', hc'⟩ := (h f hf).covered o ho t hc
    exact ⟨o', List.mem_flatMap.mpr ⟨f, hf, ho'⟩, hp'.trans hp, hc'⟩
  covers := by
    intro o ho
    obtain ⟨f, hf, ho⟩ := List.mem_flatMap.mp ho
    obtain ⟨x, hx, hp, hs, he⟩ := (h f hf).covers o ho
    obtain ⟨r, hrm, hp', hs', he'⟩ := hr.covers x (List.mem_flatMap.mpr ⟨f, hf, hx⟩)
    exact ⟨r, hrm, hp'.trans hp, hs'.trans hs, he.trans he'⟩

/-- The frame one gets by aggregating each of the frames and putting the results together. -/
def staged (sort : SortValues Obs.start) (frames : List (List Obs)) : List Obs :=
  frames.flatMap fun f => (aggregateObservations sort f).map (·.toObs)

theorem staged_wf (sort : SortValues Obs.start) {frames : List (List Obs)}
    (hwf : ∀ f ∈ frames, ∀ o ∈ f, o.start ≤ o.end_) : ∀ o ∈ staged sort frames, o.start ≤ o.end_ := by
  intro o ho
  obtain ⟨f, hf, ho⟩ := List.mem_flatMap.mp ho
  obtain ⟨r, hr, rfl⟩ := List.mem_map.mp ho
  exact (C01_components sort f (hwf f hf)).nonempty _
    (List.mem_map_of_mem (f := fun r : AggRow => (⟨r.pointId, r.start, r.end_⟩ : PInterval)) hr)

/-- **C117.** Aggregating parts (of satellites, of periods, of anything), putting the results together and aggregating
again gives the rows of aggregating everything at once: the same points, starts, ends, access times and revisits. -/
theorem C117_stages_partial (sort sort' sort'' : SortValues Obs.start) (frames : List (List Obs))
    (hwf : ∀ f ∈ frames, ∀ o ∈ f, o.start ≤ o.end_) :
    (aggregateObservations sort' (staged sort frames)).map
      (fun r => (r.pointId, r.start, r.end_, r.access, r.revisit)) =
    (aggregateObservations sort'' frames.flatten).map
      (fun r => (r.pointId, r.start, r.end_, r.access, r.revisit)) := by
  have hwfAll : ∀ o ∈ frames.flatten, o.start ≤ o.end_ := fun o ho => by
    obtain ⟨f, hf, ho⟩ := List.mem_flatten.mp ho
    exact hwf f hf o ho
  have h1 := rows_isComponents sort' (staged sort frames) (staged_wf sort hwf)
  have h2 := rows_isComponents sort'' frames.flatten hwfAll
  have h1' : IsComponents (frames.flatten.map Obs.interval)
      (((allGroups sort' (staged sort frames)).map dissolveRow).map Obs.interval) := by
    have := components_of_components
      (frames := frames.map fun f => (f.map Obs.interval, ((allGroups sort f).map dissolveRow).map Obs.interval))
      (rows := ((allGroups sort' (staged sort frames)).map dissolveRow).map Obs.interval)
      (by
        intro x hx
        obtain ⟨f, hf, rfl⟩ := List.mem_map.mp hx
        exact rows_isComponents sort f (hwf f hf))
      (by
        rw [List.flatMap_map]
        convert h1 using 1
        unfold staged
        rw [List.map_flatMap]
        congr 1
        funext f
        rw [aggregate_toObs])
    rw [List.flatMap_map] at this
    rwa [List.map_flatten, ← List.flatMap_def]
  have hint := isComponents_unique (fun _ => Iff.rfl) h1' h2
  have hfull : ((allGroups sort' (staged sort frames)).map dissolveRow).map (fun r => (r.interval, ())) =
      ((allGroups sort'' frames.flatten).map dissolveRow).map (fun r => (r.interval, ())) := by
    have := congrArg (List.map fun i => (i, ())) hint
    simpa only [List.map_map, Function.comp_def] using this
  have := metricsSeq_congr (fun _ => ()) _ _ none none hfull rfl
  rw [← aggregate_eq_metricsSeq, ← aggregate_eq_metricsSeq] at this
  have h3 := congrArg (List.map (fun x : PInterval × Unit × Int × Option Int =>
    (x.1.point, x.1.start, x.1.stop, x.2.2.1, x.2.2.2))) this
  rw [List.map_map, List.map_map] at h3
  exact h3

/-- The reduced frame depends on the point, access and revisit columns only. -/
theorem reduce_congr {rows rows' : List AggRow}
    (h : rows.map (fun r => (r.pointId, r.access, r.revisit)) = rows'.map (fun r => (r.pointId, r.access, r.revisit))) :
    reduceObservations rows = reduceObservations rows' := by
  have key : ∀ l : List AggRow, reduceObservations l =
      (groupBy (fun x : Int × Int × Option Int => x.1) (l.map fun r => (r.pointId, r.access, r.revisit))).map fun kg =>
      { pointId := kg.1
        access := timedeltaSeconds (mean (kg.2.map fun x => nsToSeconds x.2.1))
        revisit := (nanmean (kg.2.map fun x => x.2.2.map nsToSeconds)).map timedeltaSeconds
        samples := (kg.2.map fun _ => 1).sum } := by
    intro l
    rw [groupBy_map, List.map_map]
    unfold reduceObservations
    split_ifs with he
    · rw [List.isEmpty_iff] at he; subst he; simp [groupBy_nil]
    · apply List.map_congr_left
      intro kg _
      simp only [Function.comp_apply, List.map_map]
      rfl
  rw [key, key, h]

/-- **C117, reduced.** So the mean access, the mean revisit and the number of samples of each point are those of
aggregating everything at once. -/
theorem C117_reduced (sort sort' sort'' : SortValues Obs.start) (frames : List (List Obs))
    (hwf : ∀ f ∈ frames, ∀ o ∈ f, o.start ≤ o.end_) :
    reduceObservations (aggregateObservations sort' (staged sort frames)) =
      reduceObservations (aggregateObservations sort'' frames.flatten) := by
  apply reduce_congr
  have := congrArg (List.map fun x : Int × Int × Int × Int × Option Int => (x.1, x.2.2.2.1, x.2.2.2.2))
    (C117_stages_partial sort sort' sort'' frames hwf)
  rw [List.map_map, List.map_map] at this
  exact this

/-- Three frames of one point and another: two satellites with overlapping passes and a third. -/
def parts : List (List Obs) :=
  [[⟨1, "A", "i", 0, 3, 6⟩, ⟨1, "A", "i", 4, 6, 8⟩], [⟨1, "B", "i", 5, 7, 9⟩, ⟨2, "B", "i", 1, 2, 3⟩], [⟨1, "C", "j", 20, 20, 20⟩]]

example := C117_stages_partial (SortValues.insertion _) (SortValues.insertion _) (SortValues.insertion _) parts (by decide)
example : (aggregateObservations (SortValues.insertion _) parts.flatten).map
    (fun r => (r.pointId, r.start, r.end_, r.access, r.revisit)) =
    [(1, 0, 9, 9, none), (1, 20, 20, 0, some 11), (2, 1, 3, 2, none)] := by decide +kernel

/-- **C117 is false of the epoch column**: the mean of means is not the mean. -/
theorem C117_epoch_false : ∃ (frames : List (List Obs)), (∀ f ∈ frames, ∀ o ∈ f, o.start ≤ o.end_) ∧
    (aggregateObservations (SortValues.insertion _) (staged (SortValues.insertion _) frames)).map (·.epoch) ≠
      (aggregateObservations (SortValues.insertion _) frames.flatten).map (·.epoch) :=
  ⟨parts, by decide, by decide +kernel⟩

end Tatc.Props
