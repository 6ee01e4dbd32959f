import Verif.Lemmas.Aggregate

/-!
# C01-C05: `aggregate_observations`
-/

namespace Tatc.Props
open Tatc.Pandas Tatc.Spec Tatc.Coverage

/-- A sample frame used in the examples: two points; point 1 has two overlapping
observations, one that touches them and a separate later one. -/
def sampleObs : List Obs :=
  [⟨1, "B", "i", 5, 7, 9⟩, ⟨2, "A", "i", 0, 1, 2⟩, ⟨1, "A", "i", 0, 3, 6⟩,
   ⟨1, "A", "i", 9, 10, 11⟩, ⟨1, "C", "j", 20, 20, 20⟩]

theorem sampleObs_wf : ∀ o ∈ sampleObs, o.start ≤ o.end_ := by decide

/-- **C01.** The rows of `aggregate_observations` are the connected components of the
observation intervals of each point, in order, for every frame and every sort. -/
theorem C01_components (sort : SortValues Obs.start) (obs : List Obs)
    (hwf : ∀ o ∈ obs, o.start ≤ o.end_) :
    IsComponents (obs.map fun o => ⟨o.pointId, o.start, o.end_⟩)
      ((aggregateObservations sort obs).map fun r => ⟨r.pointId, r.start, r.end_⟩) := by
  have h := rows_isComponents sort obs hwf
  rw [← aggregate_toObs, List.map_map] at h
  exact h

/-- The hypothesis is met by a frame with overlapping, touching and separate rows, and the
result there is what one expects. -/
example : (aggregateObservations (SortValues.insertion _) sampleObs).map
      (fun r => (r.pointId, r.start, r.end_)) = [(1, 0, 11), (1, 20, 20), (2, 0, 2)] := by
  decide +kernel

example := C01_components (SortValues.insertion _) sampleObs sampleObs_wf

/-- The specification pins the answer down: any other list of components is equal. -/
theorem C01_components_unique (sort : SortValues Obs.start) (obs : List Obs)
    (hwf : ∀ o ∈ obs, o.start ≤ o.end_) (rows : List PInterval)
    (h : IsComponents (obs.map fun o => ⟨o.pointId, o.start, o.end_⟩) rows) :
    rows = (aggregateObservations sort obs).map fun r => ⟨r.pointId, r.start, r.end_⟩ :=
  isComponents_unique (fun _ => Iff.rfl) h (C01_components sort obs hwf)

example := C01_components_unique (SortValues.insertion _) sampleObs sampleObs_wf _
  (C01_components (SortValues.insertion _) sampleObs sampleObs_wf)

/-- **C02.** Every observation belongs to exactly one row, and each row summarises exactly
the observations of its point inside its interval: smallest start, largest end, mean epoch,
names joined in order of start; the mean epoch lies within the row. -/
theorem C02_partition (sort : SortValues Obs.start) (obs : List Obs)
    (hwf : ∀ o ∈ obs, o.start ≤ o.end_) :
    (∀ o ∈ obs, ∃! i : Fin (aggregateObservations sort obs).length,
      let r := (aggregateObservations sort obs)[i]
      r.pointId = o.pointId ∧ r.start ≤ o.start ∧ o.end_ ≤ r.end_) ∧
    (∀ r ∈ aggregateObservations sort obs, ∃ g : List Obs,
      g ≠ [] ∧
      g.Perm (obs.filter fun o => o.pointId = r.pointId ∧ r.start ≤ o.start ∧ o.end_ ≤ r.end_) ∧
      g.Pairwise (fun a b => a.start ≤ b.start) ∧
      r.satellite = ", ".intercalate (g.map (·.satellite)) ∧
      r.instrument = ", ".intercalate (g.map (·.instrument)) ∧
      (∃ o ∈ g, r.start = o.start) ∧ (∀ o ∈ g, r.start ≤ o.start) ∧
      (∃ o ∈ g, r.end_ = o.end_) ∧ (∀ o ∈ g, o.end_ ≤ r.end_) ∧
      r.epoch = (g.map (·.epoch)).sum / g.length ∧
      ((∀ o ∈ obs, (o.start : ℚ) ≤ o.epoch ∧ o.epoch ≤ o.end_) →
        (r.start : ℚ) ≤ r.epoch ∧ r.epoch ≤ r.end_)) := by
  constructor
  · intro o ho
    have hc := C01_components sort obs hwf
    obtain ⟨i, hi, h1, h2, h3⟩ := hc.covers _ (List.mem_map_of_mem (f := fun o : Obs =>
      (⟨o.pointId, o.start, o.end_⟩ : PInterval)) ho)
    obtain ⟨r, hr, rfl⟩ := List.mem_map.mp hi
    obtain ⟨n, hn, rfl⟩ := List.mem_iff_getElem.mp hr
    refine ⟨⟨n, hn⟩, ⟨h1, h2, h3⟩, ?_⟩
    rintro ⟨m, hm⟩ ⟨g1, g2, g3⟩
    have hsep := hc.separated
    rw [List.pairwise_map] at hsep
    have hall := List.pairwise_iff_getElem.mp hsep
    have hw := hwf o ho
    simp only [Fin.getElem_fin] at g1 g2 g3
    simp only at h1 h2 h3
    apply Fin.ext
    simp only
    rcases lt_trichotomy m n with h | h | h
    · rcases hall m n hm hn h with h' | ⟨_, h'⟩ <;> simp only at h' <;> omega
    · exact h
    · rcases hall n m hn hm h with h' | ⟨_, h'⟩ <;> simp only at h' <;> omega
  · intro r hr
    have hr' : r.toObs ∈ (allGroups sort obs).map dissolveRow := by
      rw [← aggregate_toObs]; exact List.mem_map_of_mem hr
    obtain ⟨g, hg, he⟩ := List.mem_map.mp hr'
    have ok := allGroups_ok sort obs g hg
    have hperm := group_perm_filter sort obs hwf g hg
    rw [he] at hperm
    refine ⟨g, ok.ne, hperm, ok.sorted, ?_, ?_, ?_, ?_, ?_, ?_, ?_, ?_⟩
    · rw [← he]; rfl
    · rw [← he]; rfl
    · rw [← he]; exact dissolveRow_start_mem ok.ne
    · rw [← he]; exact fun o ho => dissolveRow_start_le ho
    · rw [← he]; exact dissolveRow_end_mem ok.ne
    · rw [← he]; exact fun o ho => le_dissolveRow_end ho
    · rw [← he]; simp [dissolveRow, mean]
    · intro hep
      rw [← he]
      have hne : g.map (·.epoch) ≠ [] := by simpa using ok.ne
      apply mean_bounds hne
      · intro x hx
        obtain ⟨o, ho, rfl⟩ := List.mem_map.mp hx
        exact le_trans (by exact_mod_cast dissolveRow_start_le ho) (hep o (ok.sub o ho)).1
      · intro x hx
        obtain ⟨o, ho, rfl⟩ := List.mem_map.mp hx
        exact le_trans (hep o (ok.sub o ho)).2 (by exact_mod_cast le_dissolveRow_end ho)

example := C02_partition (SortValues.insertion _) sampleObs sampleObs_wf

example : (∀ o ∈ sampleObs, (o.start : ℚ) ≤ o.epoch ∧ o.epoch ≤ o.end_) := by
  intro o ho; simp only [sampleObs, List.mem_cons, List.not_mem_nil, or_false] at ho
  rcases ho with rfl | rfl | rfl | rfl | rfl <;> norm_num

/-- **C03.** Access is the row's length; revisit is missing exactly for the first row of a
point and otherwise is the positive gap to the previous row; for each point access and
revisit times add up to last end minus first start. -/
theorem C03_access_revisit (sort : SortValues Obs.start) (obs : List Obs)
    (hwf : ∀ o ∈ obs, o.start ≤ o.end_) :
    (∀ r ∈ aggregateObservations sort obs, r.access = r.end_ - r.start ∧ 0 ≤ r.access) ∧
    (∀ (r : AggRow) (rest : List AggRow), aggregateObservations sort obs = r :: rest →
      r.revisit = none) ∧
    (∀ (pre : List AggRow) (p r : AggRow) (post : List AggRow),
      aggregateObservations sort obs = pre ++ p :: r :: post →
      (p.pointId ≠ r.pointId → r.revisit = none) ∧
      (p.pointId = r.pointId → ∃ v, r.revisit = some v ∧ v = r.start - p.end_ ∧ 0 < v)) ∧
    (∀ (k : Int) (first last : AggRow),
      ((aggregateObservations sort obs).filter fun r => r.pointId = k).head? = some first →
      ((aggregateObservations sort obs).filter fun r => r.pointId = k).getLast? = some last →
      (((aggregateObservations sort obs).filter fun r => r.pointId = k).map (·.access)).sum +
      (((aggregateObservations sort obs).filter fun r => r.pointId = k).filterMap (·.revisit)).sum
        = last.end_ - first.start) := by
  have hc := C01_components sort obs hwf
  have hseq := aggregate_eq_metricsSeq sort obs
  refine ⟨?_, ?_, ?_, ?_⟩
  · intro r hr
    obtain ⟨pre, post, h⟩ := List.append_of_mem hr
    have h1 := metricsSeq_split _ _ pre r post (hseq ▸ h)
    have h2 := hc.nonempty _ (List.mem_map_of_mem (f := fun r : AggRow =>
      (⟨r.pointId, r.start, r.end_⟩ : PInterval)) hr)
    simp only at h2
    exact ⟨h1.1, by rw [h1.1]; omega⟩
  · intro r rest h
    have h1 := metricsSeq_split _ _ [] r rest (hseq ▸ h)
    simpa [revisitOf] using h1.2
  · intro pre p r post h
    have h' : metricsSeq none ((allGroups sort obs).map dissolveRow) = (pre ++ [p]) ++ r :: post := by
      rw [← hseq, h]; simp
    have h1 := (metricsSeq_split _ _ _ r post h').2
    simp only [List.getLast?_append, List.getLast?_singleton, revisitOf] at h1
    have hsep := hc.separated
    rw [List.pairwise_map, h, List.pairwise_append] at hsep
    have hpr := (List.pairwise_cons.mp hsep.2.1).1 r List.mem_cons_self
    constructor
    · intro hne; simpa [hne] using h1
    · intro heq
      refine ⟨r.start - p.end_, by simpa [heq] using h1, rfl, ?_⟩
      rcases hpr with hpr | ⟨_, hpr⟩ <;> simp only at hpr <;> omega
  · intro k first last hf hl
    have hsorted : ((allGroups sort obs).map dissolveRow).Pairwise (fun a b => a.pointId ≤ b.pointId) := by
      rw [← aggregate_toObs, List.pairwise_map]
      have hsep := hc.separated
      rw [List.pairwise_map] at hsep
      refine hsep.imp ?_
      intro a b hab
      rcases hab with h | ⟨h, _⟩ <;> simp only at h
      · exact h.le
      · exact h.le
    have hfil := metricsSeq_filter_toObs k ((allGroups sort obs).map dissolveRow) none
    rw [← hseq] at hfil
    have := metricSum_before k ((allGroups sort obs).map dissolveRow) none (by simp) hsorted
      first.toObs last.toObs (by rw [← hfil, List.head?_map, hf]; rfl)
      (by rw [← hfil, List.getLast?_map, hl]; rfl)
    rw [← hseq] at this
    exact this

example : (aggregateObservations (SortValues.insertion _) sampleObs).map
    (fun r => (r.pointId, r.access, r.revisit)) = [(1, 11, none), (1, 0, some 9), (2, 2, none)] := by
  decide +kernel

example := C03_access_revisit (SortValues.insertion _) sampleObs sampleObs_wf

/-- **C04.** Neither the order of the input rows nor the sort algorithm affects the point,
start, end, epoch, access and revisit columns. -/
theorem C04_order_independent (sort sort' : SortValues Obs.start) (obs obs' : List Obs)
    (hperm : obs.Perm obs') (hwf : ∀ o ∈ obs, o.start ≤ o.end_) :
    (aggregateObservations sort obs).map
      (fun r => (r.pointId, r.start, r.epoch, r.end_, r.access, r.revisit)) =
    (aggregateObservations sort' obs').map
      (fun r => (r.pointId, r.start, r.epoch, r.end_, r.access, r.revisit)) := by
  have hwf' : ∀ o ∈ obs', o.start ≤ o.end_ := fun o ho => hwf o (hperm.mem_iff.mpr ho)
  have h1 := rows_isComponents sort obs hwf
  have h2 := rows_isComponents sort' obs' hwf'
  have hint : ((allGroups sort obs).map dissolveRow).map Obs.interval =
      ((allGroups sort' obs').map dissolveRow).map Obs.interval :=
    isComponents_unique (fun i => (hperm.map Obs.interval).mem_iff) h1 h2
  -- the epoch is a function of the interval
  let ep : List Obs → PInterval → ℚ := fun obs i =>
    mean ((obs.filter fun o => o.pointId = i.point ∧ i.start ≤ o.start ∧ o.end_ ≤ i.stop).map (·.epoch))
  have hep : ∀ (sort : SortValues Obs.start) (obs : List Obs) (_ : ∀ o ∈ obs, o.start ≤ o.end_),
      ((allGroups sort obs).map dissolveRow).map (fun r => (r.interval, r.epoch)) =
      (((allGroups sort obs).map dissolveRow).map Obs.interval).map (fun i => (i, ep obs i)) := by
    intro sort obs hwf
    rw [List.map_map, List.map_map, List.map_map]
    apply List.map_congr_left
    intro g hg
    have hp := group_perm_filter sort obs hwf g hg
    simp only [Function.comp_apply, Prod.mk.injEq, true_and]
    exact mean_perm (hp.map (·.epoch))
  have hep' : ep obs = ep obs' := by
    funext i
    exact mean_perm ((hperm.filter _).map _)
  have hfull : ((allGroups sort obs).map dissolveRow).map (fun r => (r.interval, r.epoch)) =
      ((allGroups sort' obs').map dissolveRow).map (fun r => (r.interval, r.epoch)) := by
    rw [hep sort obs hwf, hep sort' obs' hwf', hint, hep']
  have := metricsSeq_congr (fun r => r.epoch) _ _ none none hfull rfl
  rw [← aggregate_eq_metricsSeq, ← aggregate_eq_metricsSeq] at this
  have h3 := congrArg (List.map (fun x : PInterval × ℚ × Int × Option Int =>
    (x.1.point, x.1.start, x.2.1, x.1.stop, x.2.2.1, x.2.2.2))) this
  rw [List.map_map, List.map_map] at h3
  exact h3

example := C04_order_independent (SortValues.insertion _) (SortValues.insertion _) sampleObs
  sampleObs.reverse sampleObs.reverse_perm.symm sampleObs_wf

/-- **C05.** Aggregating an aggregated frame changes nothing. -/
theorem C05_idempotent (sort sort' : SortValues Obs.start) (obs : List Obs)
    (hwf : ∀ o ∈ obs, o.start ≤ o.end_) :
    aggregateObservations sort' ((aggregateObservations sort obs).map (·.toObs)) =
      aggregateObservations sort obs := by
  set rows := (allGroups sort obs).map dissolveRow with hrows
  rw [aggregate_toObs, aggregate_eq_metricsSeq sort, aggregate_eq_metricsSeq sort', ← hrows]
  congr 1
  have hc := rows_isComponents sort obs hwf
  rw [← hrows] at hc
  have hwf' : ∀ o ∈ rows, o.start ≤ o.end_ := fun o ho =>
    hc.nonempty _ (List.mem_map_of_mem (f := Obs.interval) ho)
  have hself : IsComponents (rows.map Obs.interval) (rows.map Obs.interval) :=
    ⟨hc.nonempty, fun r hr t ht => ⟨r, hr, rfl, ht⟩, fun r hr => ⟨r, hr, rfl, le_refl _, le_refl _⟩,
      hc.separated⟩
  have hc' := rows_isComponents sort' rows hwf'
  have hint : ((allGroups sort' rows).map dissolveRow).map Obs.interval = rows.map Obs.interval :=
    isComponents_unique (fun _ => Iff.rfl) hc' hself
  -- every group of the second pass is a single row
  have hlen : ∀ r ∈ rows, rows.filter (fun o => decide (o.pointId = r.pointId ∧ r.start ≤ o.start ∧ o.end_ ≤ r.end_))
      = [r] := by
    intro r hr
    obtain ⟨pre, post, hsplit⟩ := List.append_of_mem hr
    have hsep := hc.separated
    rw [List.pairwise_map, hsplit, List.pairwise_append] at hsep
    have hw : ∀ o ∈ pre ++ r :: post, o.start ≤ o.end_ := hsplit ▸ hwf'
    rw [hsplit, List.filter_append, List.filter_cons_of_pos (by simp)]
    have e1 : pre.filter (fun o => decide (o.pointId = r.pointId ∧ r.start ≤ o.start ∧ o.end_ ≤ r.end_)) = [] := by
      rw [List.filter_eq_nil_iff]
      intro o ho
      simp only [decide_eq_true_eq]
      rintro ⟨h1, h2, h3⟩
      have h4 := hsep.2.2 o ho r List.mem_cons_self
      have h5 := hw o (List.mem_append_left _ ho)
      rcases h4 with h4 | ⟨_, h4⟩ <;> simp only [Obs.interval] at h4 <;> omega
    have e2 : post.filter (fun o => decide (o.pointId = r.pointId ∧ r.start ≤ o.start ∧ o.end_ ≤ r.end_)) = [] := by
      rw [List.filter_eq_nil_iff]
      intro o ho
      simp only [decide_eq_true_eq]
      rintro ⟨h1, h2, h3⟩
      have h4 := (List.pairwise_cons.mp hsep.2.1).1 o ho
      have h5 := hw o (List.mem_append_right _ (List.mem_cons_of_mem _ ho))
      rcases h4 with h4 | ⟨_, h4⟩ <;> simp only [Obs.interval] at h4 <;> omega
    rw [e1, e2, List.nil_append]
  have hrow : ∀ g ∈ allGroups sort' rows, ∃ r ∈ rows, g = [r] := by
    intro g hg
    have hp := group_perm_filter sort' rows hwf' g hg
    have hi : (dissolveRow g).interval ∈ rows.map Obs.interval := by
      rw [← hint]; exact List.mem_map_of_mem (List.mem_map_of_mem hg)
    obtain ⟨r, hr, he⟩ := List.mem_map.mp hi
    simp only [Obs.interval, PInterval.mk.injEq] at he
    rw [← he.1, ← he.2.1, ← he.2.2, hlen r hr] at hp
    exact ⟨r, hr, List.perm_singleton.mp hp⟩
  have hd : ∀ r : Obs, dissolveRow [r] = r := by
    intro r
    cases r
    have hi : ∀ x : String, ", ".intercalate [x] = x := fun x => rfl
    simp [dissolveRow, colMin, colMax, mean, hi]
  have hflat : (allGroups sort' rows).map dissolveRow = (allGroups sort' rows).flatten := by
    generalize allGroups sort' rows = gs at hrow
    induction gs with
    | nil => rfl
    | cons g gs ih =>
      obtain ⟨r, _, rfl⟩ := hrow g List.mem_cons_self
      rw [List.map_cons, List.flatten_cons, hd, ih (fun g hg => hrow g (List.mem_cons_of_mem _ hg))]
      rfl
  -- same rows, same order
  have hperm : ((allGroups sort' rows).map dissolveRow).Perm rows := by
    rw [hflat]; exact allGroups_perm sort' rows
  refine hperm.eq_of_pairwise (le := fun a b : Obs => a.pointId < b.pointId ∨
      (a.pointId = b.pointId ∧ a.end_ < b.start)) ?_ ?_ ?_
  · intro a b ha hb hab hba
    exfalso
    have e1 := hwf' a (hperm.mem_iff.mp ha)
    have e2 := hwf' b hb
    rcases hab with hab | ⟨p1, hab⟩ <;> rcases hba with hba | ⟨p2, hba⟩ <;> omega
  · have := hc'.separated
    rw [List.pairwise_map] at this
    exact this
  · have := hc.separated
    rw [List.pairwise_map] at this
    exact this

example := C05_idempotent (SortValues.insertion _) (SortValues.insertion _) sampleObs sampleObs_wf

end Tatc.Props
