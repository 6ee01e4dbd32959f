import Verif.Props.Chunks
import Verif.Props.Latency

/-!
# C134-C136: the origin of time, the order of deliveries, and what mean values account for
-/

namespace Tatc.Props
open Tatc.Pandas Tatc.Coverage Tatc.Latency Tatc.Spec

/-! ## C134: the origin of time -/

/-- The observation, `d` later. -/
def later (d : Int) (o : Obs) : Obs := { o with start := o.start + d, epoch := o.epoch + d, end_ := o.end_ + d }

/-- The aggregated row, `d` later; access and revisit times are the same. -/
def laterRow (d : Int) (r : AggRow) : AggRow :=
  { r with start := r.start + d, epoch := r.epoch + d, end_ := r.end_ + d }

/-- The downlink, `d` later. -/
def laterDownlink (d : Int) (o : Downlink) : Downlink :=
  { o with start := o.start + d, epoch := o.epoch + d, end_ := o.end_ + d }

/-- The row of latencies, `d` later; the latency is the same. -/
def laterLatency (d : Int) (r : LatRow) : LatRow :=
  { r with obs := later d r.obs, downlinked := r.downlinked.map (· + (d : ℚ)), observed := r.observed + d }

/-- A sort that looks only at how keys compare: changing rows without changing how their keys compare changes nothing
about the order in which they come out. -/
def Comparing {α κ : Type} [LE κ] {key : α → κ} (sort : SortValues key) : Prop :=
  ∀ f : α → α, (∀ a b, key (f a) ≤ key (f b) ↔ key a ≤ key b) → ∀ l, sort.run (l.map f) = (sort.run l).map f

/-- Insertion sort looks only at how keys compare. -/
theorem insertion_comparing {α κ : Type} [LinearOrder κ] (key : α → κ) : Comparing (SortValues.insertion key) := by
  intro f hf l
  exact (List.map_insertionSort (fun a b => key a ≤ key b) (fun a b => key a ≤ key b) f l
    (fun a _ b _ => (hf a b).symm)).symm

theorem later_compare (d : Int) (a b : Obs) : (later d a).start ≤ (later d b).start ↔ a.start ≤ b.start := by
  unfold later; simp

theorem shift_map {α β : Type} (f : α → β) (l : List α) : shift (l.map f) = (shift l).map (Option.map f) := by
  cases l with
  | nil => rfl
  | cons a t =>
    simp only [List.map_cons, shift, Option.map_none]
    rw [← List.map_cons, ← List.map_dropLast]
    simp [List.map_map, Function.comp_def]

theorem cummaxFrom_later (d : Int) (l : List (Option Int)) (acc : Option Int) :
    cummaxFrom (acc.map (· + d)) (l.map (Option.map (· + d))) = (cummaxFrom acc l).map (Option.map (· + d)) := by
  induction l generalizing acc with
  | nil => rfl
  | cons a t ih =>
    cases a with
    | none => simp only [List.map_cons, Option.map_none, cummaxFrom, ih]
    | some x =>
      simp only [List.map_cons, Option.map_some, cummaxFrom]
      cases acc with
      | none => rw [← ih]; rfl
      | some y =>
        simp only [Option.map_some]
        rw [max_add_add_right, ← ih]
        rfl

theorem overlapLabels_later (d : Int) (s : List Obs) : overlapLabels (s.map (later d)) = overlapLabels s := by
  unfold overlapLabels
  congr 1
  rw [List.map_map, List.map_map, show (Obs.start ∘ later d) = (· + d) ∘ Obs.start from rfl,
    show (Obs.end_ ∘ later d) = (· + d) ∘ Obs.end_ from rfl, ← List.map_map, ← List.map_map, shift_map]
  unfold cummax
  rw [show (none : Option Int) = (none : Option Int).map (· + d) from rfl, cummaxFrom_later, List.zipWith_map]
  congr 1
  funext a b
  cases b with
  | none => rfl
  | some b => simp [gtNaT]

theorem overlapGroups_later (d : Int) (s : List Obs) :
    overlapGroups (s.map (later d)) = (overlapGroups s).map (List.map (later d)) := by
  unfold overlapGroups
  rw [overlapLabels_later, List.zip_map_right, groupBy_map, List.map_map, List.map_map]
  rw [show (fun a : Nat × Obs => (Prod.map id (later d) a).1) = Prod.fst from rfl]
  apply List.map_congr_left
  intro kg _
  simp [List.map_map, Function.comp_def]

theorem foldl_min_later (d : Int) (t : List Int) (a : Int) : (t.map (· + d)).foldl min (a + d) = t.foldl min a + d := by
  induction t generalizing a with
  | nil => rfl
  | cons b t ih => rw [List.map_cons, List.foldl_cons, List.foldl_cons, min_add_add_right, ih]

theorem foldl_max_later (d : Int) (t : List Int) (a : Int) : (t.map (· + d)).foldl max (a + d) = t.foldl max a + d := by
  induction t generalizing a with
  | nil => rfl
  | cons b t ih => rw [List.map_cons, List.foldl_cons, List.foldl_cons, max_add_add_right, ih]

theorem mean_later (q : ℚ) (l : List ℚ) (hne : l ≠ []) : mean (l.map (· + q)) = mean l + q := by
  unfold mean
  have hs : ∀ l : List ℚ, (l.map (· + q)).sum = l.sum + l.length * q := by
    intro l
    induction l with
    | nil => simp
    | cons a t ih => rw [List.map_cons, List.sum_cons, List.sum_cons, ih]; push_cast [List.length_cons]; ring
  rw [hs, List.length_map]
  have : (l.length : ℚ) ≠ 0 := by
    rw [Nat.cast_ne_zero]; simpa using hne
  field_simp

theorem dissolveRow_later (d : Int) (g : List Obs) (hne : g ≠ []) :
    dissolveRow (g.map (later d)) = later d (dissolveRow g) := by
  cases g with
  | nil => exact absurd rfl hne
  | cons o t =>
    have h1 := foldl_min_later d (t.map (·.start)) o.start
    have h2 := foldl_max_later d (t.map (·.end_)) o.end_
    have h3 := mean_later d ((o :: t).map (·.epoch)) (by simp)
    simp only [List.map_map, List.map_cons] at h1 h2 h3
    simp only [dissolveRow, later, List.map_cons, List.map_map, Obs.mk.injEq, true_and, colMin, colMax]
    exact ⟨rfl, rfl, h1, h3, h2⟩

theorem metricsSeq_later (d : Int) (rows : List Obs) (prev : Option Obs) :
    metricsSeq (prev.map (later d)) (rows.map (later d)) = (metricsSeq prev rows).map (laterRow d) := by
  induction rows generalizing prev with
  | nil => rfl
  | cons r t ih =>
    have := ih (some r)
    simp only [Option.map_some] at this
    simp only [List.map_cons, metricsSeq, this, List.cons.injEq, and_true]
    cases prev with
    | none => simp [later, laterRow, revisitOf]
    | some p => simp [later, laterRow, revisitOf]

theorem allGroups_later (sort : SortValues Obs.start) (hs : Comparing sort) (d : Int) (obs : List Obs) :
    allGroups sort (obs.map (later d)) = (allGroups sort obs).map (List.map (later d)) := by
  unfold allGroups
  rw [groupBy_map, show (fun a => (later d a).pointId) = Obs.pointId from rfl, List.flatMap_map, List.map_flatMap]
  congr 1
  funext kg
  rw [hs (later d) (later_compare d), overlapGroups_later]

/-- C134 for aggregated observations: when all observations are `d` later, the aggregated rows are the same, `d` later, with
the same access and revisit times, and the reduced frame is the same. -/
theorem C134_coverage (sort : SortValues Obs.start) (hs : Comparing sort) (d : Int) (obs : List Obs) :
    aggregateObservations sort (obs.map (later d)) = (aggregateObservations sort obs).map (laterRow d) ∧
    reduceObservations (aggregateObservations sort (obs.map (later d))) =
      reduceObservations (aggregateObservations sort obs) := by
  have h1 : aggregateObservations sort (obs.map (later d)) = (aggregateObservations sort obs).map (laterRow d) := by
    rw [aggregate_eq_metricsSeq, aggregate_eq_metricsSeq, allGroups_later sort hs, ← metricsSeq_later, List.map_map,
      List.map_map]
    congr 1
    apply List.map_congr_left
    intro g hg
    exact dissolveRow_later d g (allGroups_ok sort obs g hg).ne
  refine ⟨h1, ?_⟩
  rw [h1]
  apply reduce_congr
  rw [List.map_map]
  rfl

/-- C134 for latencies: when observations and downlinks are `d` later, so are the rows, with the same stations and latencies,
and the reduced frame is the same. -/
theorem C134_latency (sortEnd : SortValues Obs.end_) (sortStart : SortValues Downlink.start)
    (sortObserved : SortValues LatRow.observed) (h1 : Comparing sortEnd) (h2 : Comparing sortStart)
    (h3 : Comparing sortObserved) (d : Int) (obs : List Obs) (downlinks : List Downlink) :
    computeLatencies sortEnd sortStart sortObserved (obs.map (later d)) (downlinks.map (laterDownlink d)) =
      (computeLatencies sortEnd sortStart sortObserved obs downlinks).map (laterLatency d) ∧
    reduceLatencies (computeLatencies sortEnd sortStart sortObserved (obs.map (later d))
      (downlinks.map (laterDownlink d))) =
      reduceLatencies (computeLatencies sortEnd sortStart sortObserved obs downlinks) := by
  have e : computeLatencies sortEnd sortStart sortObserved (obs.map (later d)) (downlinks.map (laterDownlink d)) =
      (computeLatencies sortEnd sortStart sortObserved obs downlinks).map (laterLatency d) := by
    unfold computeLatencies
    rw [List.isEmpty_map, List.isEmpty_map]
    split_ifs with h
    · rfl
    · rw [← h3 (laterLatency d) (fun a b => by unfold laterLatency; simp), h1 (later d) (fun a b => by unfold later; simp),
        h2 (laterDownlink d) (fun a b => by unfold laterDownlink; simp), List.map_map, List.map_map]
      congr 1
      apply List.map_congr_left
      intro o _
      have hf : asofForward ((sortStart.run downlinks).map (laterDownlink d)) (later d o) =
          (asofForward (sortStart.run downlinks) o).map (laterDownlink d) := by
        unfold asofForward
        rw [List.find?_map]
        congr 2
        funext x
        rw [Bool.eq_iff_iff]
        simp only [Function.comp_apply, Bool.and_eq_true, decide_eq_true_iff, laterDownlink, later, add_le_add_iff_right]
        exact ⟨fun h => ⟨of_decide_eq_true h.1, h.2⟩, fun h => ⟨decide_eq_true h.1, h.2⟩⟩
      simp only [Function.comp_apply]
      unfold latencyRow
      rw [hf]
      cases asofForward (sortStart.run downlinks) o with
      | none => simp [laterLatency, later]
      | some x => simp [laterLatency, later, laterDownlink]
  refine ⟨e, ?_⟩
  rw [e]
  unfold reduceLatencies
  rw [List.isEmpty_map]
  split_ifs
  · rfl
  · rw [groupBy_map, List.map_map]
    apply List.map_congr_left
    intro kg _
    simp [laterLatency, Function.comp_def]

/-- Sorts as assumed exist, and there the frames of C01 and C12, a day later, are as claimed. -/
example : (aggregateObservations (SortValues.insertion _) (sampleObs.map (later 86400))).map
    (fun r => (r.pointId, r.start, r.end_, r.access, r.revisit)) =
    [(1, 86400, 86411, 11, none), (1, 86420, 86420, 0, some 9), (2, 86400, 86402, 2, none)] := by
  decide +kernel

example := C134_coverage (SortValues.insertion _) (insertion_comparing _) 86400 sampleObs

example := C134_latency (SortValues.insertion _) (SortValues.insertion _) (SortValues.insertion _) (insertion_comparing _)
  (insertion_comparing _) (insertion_comparing _) 86400 sampleObs [⟨"g", "A", 30, 35, 40⟩]

/-! ## C135: first in, first out -/

variable (sortEnd : SortValues Obs.end_) (sortStart : SortValues Downlink.start)
  (sortObserved : SortValues LatRow.observed)

/-- C135, full statement: of two observations of a satellite the one that ends first is downlinked first.  Proved of the
starts of the downlinks, and of the reported times when no pass of the satellite over one station begins during a pass over
another and has its middle before (which is when it is false). -/
theorem C135_order_partial (observations : List Obs) (downlinks : List Downlink) (row row' : LatRow)
    (hrow : row ∈ computeLatencies sortEnd sortStart sortObserved observations downlinks)
    (hrow' : row' ∈ computeLatencies sortEnd sortStart sortObserved observations downlinks)
    (hsat : row.obs.satellite = row'.obs.satellite) (hend : row.obs.end_ ≤ row'.obs.end_)
    (hdel : row'.downlinked ≠ none) :
    (∃ d d', Earliest downlinks row.obs d ∧ Reports row d ∧ Earliest downlinks row'.obs d' ∧ Reports row' d' ∧
      (d = d' ∨ d.start < d'.start)) ∧
    ((∀ d ∈ downlinks, ∀ d' ∈ downlinks, d.satellite = d'.satellite → d.start < d'.start → d.epoch ≤ d'.epoch) →
      ∃ t t', row.downlinked = some t ∧ row'.downlinked = some t' ∧ t ≤ t') := by
  obtain ⟨o, -, rfl⟩ := mem_computeLatencies sortEnd sortStart sortObserved hrow
  obtain ⟨o', -, rfl⟩ := mem_computeLatencies sortEnd sortStart sortObserved hrow'
  have hsat : o.satellite = o'.satellite := hsat
  have hend : o.end_ ≤ o'.end_ := hend
  cases h' : asofForward (sortStart.run downlinks) o' with
  | none => simp [latencyRow, h'] at hdel
  | some d' =>
    have e' := asofForward_some h'
    cases h : asofForward (sortStart.run downlinks) o with
    | none => exact absurd ⟨d', e'.1, e'.2.1.1.trans hsat.symm, hend.trans e'.2.1.2⟩ (asofForward_none h)
    | some d =>
      have e := asofForward_some h
      have hor : d = d' ∨ d.start < d'.start := by
        by_cases hd : o'.end_ ≤ d.start
        · left
          unfold asofForward at h h'
          obtain ⟨hp, as, bs, hl, hn⟩ := List.find?_eq_some_iff_append.mp h
          have : (sortStart.run downlinks).find?
              (fun d => decide (d.satellite = o'.satellite) && decide (o'.end_ ≤ d.start)) = some d := by
            rw [List.find?_eq_some_iff_append]
            refine ⟨by simp [hd, e.2.1.1, hsat], as, bs, hl, ?_⟩
            intro a ha
            have := hn a ha
            simp only [Bool.not_eq_true', Bool.and_eq_false_iff, decide_eq_false_iff_not] at this ⊢
            rcases this with h1 | h1
            · left; rwa [hsat] at h1
            · right; omega
          rw [h'] at this
          exact (Option.some.inj this).symm
        · right
          have := e'.2.1.2
          omega
      refine ⟨⟨d, d', e, by simp [Reports, latencyRow, h], e', by simp [Reports, latencyRow, h'], hor⟩, ?_⟩
      intro hno
      refine ⟨d.epoch, d'.epoch, by simp [latencyRow, h], by simp [latencyRow, h'], ?_⟩
      rcases hor with rfl | hlt
      · exact le_rfl
      · exact hno d e.1 d' e'.1 (by rw [e.2.1.1, e'.2.1.1, hsat]) hlt

/-- C135 is false of the reported times: an observation that ends before a long pass over one station is reported to be
downlinked in the middle of that pass, after one that ends later and waits for a short pass over another. -/
theorem C135_order_false :
    ¬ ∀ (observations : List Obs) (downlinks : List Downlink) (row row' : LatRow),
      row ∈ computeLatencies sortEnd sortStart sortObserved observations downlinks →
      row' ∈ computeLatencies sortEnd sortStart sortObserved observations downlinks →
      row.obs.satellite = row'.obs.satellite → row.obs.end_ ≤ row'.obs.end_ →
      ∀ t t', row.downlinked = some t → row'.downlinked = some t' → t ≤ t' := by
  intro h
  set obs : List Obs := [⟨1, "a", "i", 0, 2, 5⟩, ⟨1, "a", "i", 10, 12, 15⟩] with hobs
  set dls : List Downlink := [⟨"g", "a", 10, 55, 100⟩, ⟨"h", "a", 20, 25, 30⟩] with hdls
  obtain ⟨hperm, hright⟩ := C12_earliest_downlink_partial sortEnd sortStart sortObserved obs dls (by simp [hdls])
  have get : ∀ o ∈ obs, ∃ row ∈ computeLatencies sortEnd sortStart sortObserved obs dls, row.obs = o := by
    intro o ho
    exact List.mem_map.mp (hperm.mem_iff.mpr ho)
  obtain ⟨r1, hr1, ho1⟩ := get ⟨1, "a", "i", 0, 2, 5⟩ (by simp [hobs])
  obtain ⟨r2, hr2, ho2⟩ := get ⟨1, "a", "i", 10, 12, 15⟩ (by simp [hobs])
  obtain ⟨d1, ⟨hm1, he1, hf1⟩, hrep1⟩ := (hright r1 hr1).1 ⟨⟨"g", "a", 10, 55, 100⟩, by simp [hdls], by simp [Eligible, ho1]⟩
  obtain ⟨d2, ⟨hm2, he2, hf2⟩, hrep2⟩ := (hright r2 hr2).1 ⟨⟨"h", "a", 20, 25, 30⟩, by simp [hdls], by simp [Eligible, ho2]⟩
  have e1 : d1.epoch = 55 := by
    have := hf1 ⟨"g", "a", 10, 55, 100⟩ (by simp [hdls]) (by simp [Eligible, ho1])
    simp only [hdls, List.mem_cons, List.not_mem_nil, or_false] at hm1
    rcases hm1 with rfl | rfl
    · rfl
    · simp at this
  have e2 : d2.epoch = 25 := by
    have := he2.2
    rw [ho2] at this
    simp only [hdls, List.mem_cons, List.not_mem_nil, or_false] at hm2
    rcases hm2 with rfl | rfl
    · simp at this
    · rfl
  have := h obs dls r1 r2 hr1 hr2 (by rw [ho1, ho2]) (by rw [ho1, ho2]; decide) 55 25 (by rw [hrep1.2, e1])
    (by rw [hrep2.2, e2])
  norm_num at this

/-- The hypotheses are met: two observations of one satellite and two passes, one after the other. -/
example : ∃ row row' : LatRow,
    row ∈ computeLatencies (SortValues.insertion _) (SortValues.insertion _) (SortValues.insertion _)
      [⟨1, "a", "i", 0, 2, 5⟩, ⟨1, "a", "i", 10, 12, 15⟩] [⟨"g", "a", 8, 9, 10⟩, ⟨"h", "a", 20, 25, 30⟩] ∧
    row' ∈ computeLatencies (SortValues.insertion _) (SortValues.insertion _) (SortValues.insertion _)
      [⟨1, "a", "i", 0, 2, 5⟩, ⟨1, "a", "i", 10, 12, 15⟩] [⟨"g", "a", 8, 9, 10⟩, ⟨"h", "a", 20, 25, 30⟩] ∧
    row.obs.satellite = row'.obs.satellite ∧ row.obs.end_ ≤ row'.obs.end_ ∧ row'.downlinked ≠ none :=
  ⟨latencyRow [⟨"g", "a", 8, 9, 10⟩, ⟨"h", "a", 20, 25, 30⟩] ⟨1, "a", "i", 0, 2, 5⟩,
    latencyRow [⟨"g", "a", 8, 9, 10⟩, ⟨"h", "a", 20, 25, 30⟩] ⟨1, "a", "i", 10, 12, 15⟩,
    by decide +kernel, by decide +kernel, rfl, by decide, by decide +kernel⟩

/-! ## C136: mean values account for the observed period -/

theorem revisits_after (k : Int) (rows : List Obs) (p : Obs) (hp : p.pointId = k)
    (hs : (p :: rows).Pairwise (fun a b => a.pointId ≤ b.pointId)) :
    (((metricsSeq (some p) rows).filter fun r => r.pointId = k).filterMap (·.revisit)).length =
      ((metricsSeq (some p) rows).filter fun r => r.pointId = k).length := by
  induction rows generalizing p with
  | nil => rfl
  | cons a t ih =>
    rw [List.pairwise_cons] at hs
    by_cases ha : a.pointId = k
    · rw [metricsSeq, List.filter_cons_of_pos (by simpa using ha), List.length_cons, ← ih a ha hs.2]
      simp [revisitOf, hp, ha]
    · have hgt : ∀ b ∈ a :: t, b.pointId ≠ k := by
        intro b hb
        have h1 := hs.1 a List.mem_cons_self
        have h2 : a.pointId ≤ b.pointId := by
          rcases List.mem_cons.mp hb with rfl | hb
          · exact le_refl _
          · exact (List.pairwise_cons.mp hs.2).1 b hb
        omega
      have e2 : (metricsSeq (some p) (a :: t)).filter (fun r => decide (r.pointId = k)) = [] := by
        have := metricsSeq_filter_toObs k (a :: t) (some p)
        have e1 : (a :: t).filter (fun r => decide (r.pointId = k)) = [] := by
          rw [List.filter_eq_nil_iff]; intro b hb; simpa using hgt b hb
        rw [e1] at this
        exact List.map_eq_nil_iff.mp this
      rw [e2]; rfl

/-- All rows of a point but the first have a revisit. -/
theorem revisits_before (k : Int) (rows : List Obs) (prev : Option Obs) (hp : ∀ p ∈ prev, p.pointId ≠ k)
    (hs : rows.Pairwise (fun a b => a.pointId ≤ b.pointId)) :
    (((metricsSeq prev rows).filter fun r => r.pointId = k).filterMap (·.revisit)).length =
      ((metricsSeq prev rows).filter fun r => r.pointId = k).length - 1 := by
  induction rows generalizing prev with
  | nil => rfl
  | cons a t ih =>
    by_cases ha : a.pointId = k
    · rw [metricsSeq, List.filter_cons_of_pos (by simpa using ha), List.length_cons, Nat.add_sub_cancel,
        ← revisits_after k t a ha hs]
      have hr : revisitOf prev a = none := by
        cases prev with
        | none => rfl
        | some p =>
          have := hp p rfl
          simp only [revisitOf]
          rw [if_neg (by rw [ha]; exact this)]
      simp [hr]
    · rw [metricsSeq, List.filter_cons_of_neg (by simpa using ha)]
      exact ih (some a) (by simpa using ha) (List.pairwise_cons.mp hs).2

/-- C136: the mean access time times the number of observations of a point plus the mean revisit time times the number of gaps
between them is the period from the start of the first to the end of the last observation, to within half a microsecond for
every observation and gap. -/
theorem C136_account (sort : SortValues Obs.start) (obs : List Obs) (hwf : ∀ o ∈ obs, o.start ≤ o.end_) (s : RedRow)
    (hs : s ∈ reduceObservations (aggregateObservations sort obs)) :
    ∃ first last : Int,
      (∃ o ∈ obs, o.pointId = s.pointId ∧ o.start = first) ∧ (∀ o ∈ obs, o.pointId = s.pointId → first ≤ o.start) ∧
      (∃ o ∈ obs, o.pointId = s.pointId ∧ o.end_ = last) ∧ (∀ o ∈ obs, o.pointId = s.pointId → o.end_ ≤ last) ∧
      |1000 * ((s.samples : ℚ) * s.access + ((s.samples : ℚ) - 1) * (s.revisit.getD 0 : Int)) - (last - first : Int)| ≤
        500 * (2 * s.samples - 1) := by
  obtain ⟨hcount, hpos, hacc, -, hnone, hrev⟩ := (C06_reduce (aggregateObservations sort obs)).2.2.2 s hs
  set agg := aggregateObservations sort obs with hagg
  set rows := agg.filter fun r => r.pointId = s.pointId with hrows
  have hc := C01_components sort obs hwf
  have hne : rows ≠ [] := by
    intro h; rw [h] at hcount; simp at hcount; omega
  obtain ⟨first, hf⟩ : ∃ a, rows.head? = some a := by
    cases h : rows with
    | nil => exact absurd h hne
    | cons a t => exact ⟨a, rfl⟩
  obtain ⟨last, hl⟩ : ∃ a, rows.getLast? = some a := ⟨_, List.getLast?_eq_some_getLast hne⟩
  have hsum := (C03_access_revisit sort obs hwf).2.2.2 s.pointId first last hf hl
  have hfm : first ∈ rows := List.mem_of_head? hf
  have hlm : last ∈ rows := List.mem_of_getLast? hl
  have hsorted : rows.Pairwise fun a b : AggRow => a.end_ < b.start := by
    have := hc.separated
    rw [List.pairwise_map] at this
    have h2 := this.filter (fun r => decide (r.pointId = s.pointId))
    refine h2.imp_of_mem ?_
    intro a b ha hb hab
    have ha' := (List.mem_filter.mp ha).2
    have hb' := (List.mem_filter.mp hb).2
    simp only [decide_eq_true_eq] at ha' hb'
    rcases hab with h | ⟨-, h⟩
    · simp only at h; omega
    · exact h
  have hlen : (rows.filterMap (·.revisit)).length = rows.length - 1 := by
    have hso : ((allGroups sort obs).map dissolveRow).Pairwise (fun a b => a.pointId ≤ b.pointId) := by
      rw [← aggregate_toObs, List.pairwise_map]
      have hsep := hc.separated
      rw [List.pairwise_map] at hsep
      refine hsep.imp ?_
      intro a b hab
      rcases hab with h | ⟨h, _⟩ <;> simp only at h
      · exact h.le
      · exact h.le
    have := revisits_before s.pointId _ none (by simp) hso
    rw [← aggregate_eq_metricsSeq] at this
    exact this
  have hwfr : ∀ r ∈ rows, r.start ≤ r.end_ := fun r hr =>
    hc.nonempty _ (List.mem_map_of_mem (f := fun r : AggRow => (⟨r.pointId, r.start, r.end_⟩ : PInterval))
      (List.mem_filter.mp hr).1)
  have hfirst : ∀ r ∈ rows, first.start ≤ r.start := by
    intro r hr
    obtain ⟨t, ht⟩ := List.head?_eq_some_iff.mp hf
    rw [ht] at hr hsorted
    rcases List.mem_cons.mp hr with rfl | hr
    · exact le_rfl
    · have h1 := (List.pairwise_cons.mp hsorted).1 r hr
      have := hwfr first hfm
      omega
  have hlast : ∀ r ∈ rows, r.end_ ≤ last.end_ := by
    intro r hr
    obtain ⟨t, ht⟩ := List.getLast?_eq_some_iff.mp hl
    rw [ht] at hr hsorted
    rcases List.mem_append.mp hr with hr | hr
    · have h1 := (List.pairwise_append.mp hsorted).2.2 r hr last (by simp)
      have := hwfr last hlm
      omega
    · rw [List.mem_singleton] at hr; rw [hr]
  have hrow : ∀ o ∈ obs, o.pointId = s.pointId → ∃ r ∈ rows, r.start ≤ o.start ∧ o.end_ ≤ r.end_ := by
    intro o ho hk
    obtain ⟨i, hi, h1, h2, h3⟩ := hc.covers _ (List.mem_map_of_mem (f := fun o : Obs =>
      (⟨o.pointId, o.start, o.end_⟩ : PInterval)) ho)
    obtain ⟨r, hr, rfl⟩ := List.mem_map.mp hi
    exact ⟨r, List.mem_filter.mpr ⟨hr, by simpa using h1.trans hk⟩, h2, h3⟩
  have hpart := (C02_partition sort obs hwf).2
  refine ⟨first.start, last.end_, ?_, ?_, ?_, ?_, ?_⟩
  · obtain ⟨g, -, hperm, -, -, -, ⟨o, ho, he⟩, -⟩ := hpart first (List.mem_filter.mp hfm).1
    have := hperm.mem_iff.mp ho
    simp only [List.mem_filter, decide_eq_true_eq] at this
    have hk := (List.mem_filter.mp hfm).2
    simp only [decide_eq_true_eq] at hk
    exact ⟨o, this.1, this.2.1.trans hk, he.symm⟩
  · intro o ho hk
    obtain ⟨r, hr, h1, -⟩ := hrow o ho hk
    exact (hfirst r hr).trans h1
  · obtain ⟨g, -, hperm, -, -, -, -, -, ⟨o, ho, he⟩, -⟩ := hpart last (List.mem_filter.mp hlm).1
    have := hperm.mem_iff.mp ho
    simp only [List.mem_filter, decide_eq_true_eq] at this
    have hk := (List.mem_filter.mp hlm).2
    simp only [decide_eq_true_eq] at hk
    exact ⟨o, this.1, this.2.1.trans hk, he.symm⟩
  · intro o ho hk
    obtain ⟨r, hr, -, h1⟩ := hrow o ho hk
    exact h1.trans (hlast r hr)
  · have cast : ∀ l : List Int, ((l.sum : Int) : ℚ) = (l.map fun x : Int => (x : ℚ)).sum := by
      intro l
      induction l with
      | nil => rfl
      | cons a t ih => rw [List.sum_cons, List.map_cons, List.sum_cons, ← ih]; push_cast; rfl
    have hsumQ := congrArg (fun x : Int => (x : ℚ)) hsum
    simp only [Int.cast_add] at hsumQ
    rw [cast, cast, List.map_map] at hsumQ
    rw [← hsumQ]
    change |1000 * ((s.samples : ℚ) * s.access + ((s.samples : ℚ) - 1) * (s.revisit.getD 0 : Int)) -
      ((rows.map fun r => (r.access : ℚ)).sum + ((rows.filterMap (·.revisit)).map fun x : Int => (x : ℚ)).sum)| ≤ _
    set A := (rows.map fun r => (r.access : ℚ)).sum
    set R := ((rows.filterMap (·.revisit)).map fun x : Int => (x : ℚ)).sum with hR
    have hn : (s.samples : ℚ) = rows.length := by rw [hcount]
    have hn1 : (1 : ℚ) ≤ rows.length := by
      have : 1 ≤ rows.length := by omega
      exact_mod_cast this
    have hlq : ((rows.filterMap (·.revisit)).length : ℚ) = (rows.length : ℚ) - 1 := by
      rw [hlen, Nat.cast_sub (by omega)]; norm_num
    rw [hn]
    rw [abs_le] at hacc
    have ha1 : |1000 * ((rows.length : ℚ) * s.access) - A| ≤ 500 * rows.length := by
      have hA : A = A / rows.length * rows.length := by field_simp
      rw [hA, abs_le]
      constructor <;> nlinarith [hacc.1, hacc.2]
    have hr1 : |1000 * (((rows.length : ℚ) - 1) * (s.revisit.getD 0 : Int)) - R| ≤ 500 * (rows.length - 1) := by
      cases hv : s.revisit with
      | none =>
        have := hnone.mp hv
        rw [hR, this]
        simp only [Option.getD_none, Int.cast_zero, mul_zero, List.map_nil, List.sum_nil, sub_zero, abs_zero]
        linarith
      | some v =>
        have hb := (hrev v hv).1
        rw [hlq] at hb
        have hpos' : (0 : ℚ) < (rows.length : ℚ) - 1 := by
          rw [← hlq]
          have : (rows.filterMap (·.revisit)) ≠ [] := fun h => by rw [hnone.mpr h] at hv; cases hv
          have := List.length_pos_iff.mpr this
          exact_mod_cast this
        rw [abs_le] at hb
        simp only [Option.getD_some]
        have hRR : R = R / ((rows.length : ℚ) - 1) * ((rows.length : ℚ) - 1) := by field_simp
        rw [hRR, abs_le]
        constructor <;> nlinarith [hb.1, hb.2]
    rw [abs_le] at ha1 hr1 ⊢
    constructor <;> linarith [ha1.1, ha1.2, hr1.1, hr1.2]

example (s : RedRow) (hs : s ∈ reduceObservations (aggregateObservations (SortValues.insertion _) sampleObs)) :=
  C136_account (SortValues.insertion _) sampleObs sampleObs_wf s hs

end Tatc.Props
