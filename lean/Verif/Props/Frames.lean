import Verif.Model.Frames
import Verif.Lemmas.ExceptList

/-!
# C98: the columns of a result do not depend on whether it is empty

Someone who reads a column of a result wants it to be there also when nothing was observed.
-/

namespace Tatc.Props

open Tatc.Frames

/-- The frame has exactly the named columns, each once, in some order. -/
def HasColumns (f : Frame) (names : List String) : Prop :=
  f.columns.Nodup ∧ ∀ c, c ∈ f.columns ↔ c ∈ names

/-- The columns of observations the documentation and the examples use. -/
def observationColumns (omitSolar : Bool) : List String :=
  ["point_id", "geometry", "satellite", "instrument", "start", "epoch", "end", "sat_alt", "sat_az"] ++
    if omitSolar then [] else ["sat_sunlit", "solar_alt", "solar_az", "solar_time"]

theorem hasColumns_of_perm {f : Frame} {names : List String} (hn : names.Nodup) (h : f.columns.Perm names) :
    HasColumns f names :=
  ⟨h.nodup_iff.mpr hn, fun _ => h.mem_iff⟩

theorem collectObservations_columns (omitSolar : Bool) (records : Nat) :
    (collectObservations omitSolar records).columns.Perm (observationColumns omitSolar) := by
  unfold collectObservations
  split
  · have h (b : Bool) :
        (collectObservations b 1).columns.Perm (observationColumns b) := by cases b <;> decide
    have e : ∀ n, ({ (collectObservations omitSolar 1) with rows := n } : Frame).columns.Perm
        (observationColumns omitSolar) := fun _ => h omitSolar
    convert e records using 2
    cases omitSolar <;> simp [collectObservations, Frame.assigns, Frame.assign]
  · cases omitSolar <;> decide

theorem observationColumns_nodup (omitSolar : Bool) : (observationColumns omitSolar).Nodup := by
  cases omitSolar <;> decide

/-- C98, observations of one satellite: the same columns with any number of observations, also none. -/
theorem C98_observations (omitSolar : Bool) (records : Nat) :
    HasColumns (collectObservations omitSolar records) (observationColumns omitSolar) ∧
      (collectObservations omitSolar records).rows = records := by
  refine ⟨hasColumns_of_perm (observationColumns_nodup _) (collectObservations_columns _ _), ?_⟩
  unfold collectObservations
  split
  · cases omitSolar <;> simp [Frame.assigns, Frame.assign]
  · simp [emptyCoverage]; omega

theorem foldl_union_mem (l : List String) (cs : List String) (c : String) :
    c ∈ l.foldl (fun cs c => if c ∈ cs then cs else cs ++ [c]) cs ↔ c ∈ cs ∨ c ∈ l := by
  induction l generalizing cs with
  | nil => simp
  | cons a l ih =>
    rw [List.foldl_cons, ih]
    by_cases ha : a ∈ cs
    · rw [if_pos ha, List.mem_cons]
      constructor
      · tauto
      · rintro (h | rfl | h) <;> tauto
    · rw [if_neg ha, List.mem_append, List.mem_singleton, List.mem_cons]; tauto

theorem foldl_union_nodup (l : List String) (cs : List String) (h : cs.Nodup) :
    (l.foldl (fun cs c => if c ∈ cs then cs else cs ++ [c]) cs).Nodup := by
  induction l generalizing cs with
  | nil => exact h
  | cons a l ih =>
    rw [List.foldl_cons]
    apply ih
    split
    · exact h
    · rename_i ha
      rw [List.nodup_append]
      refine ⟨h, by simp, ?_⟩
      intro b hb c hc
      rw [List.mem_singleton] at hc
      subst hc
      rintro rfl
      exact ha hb

/-- C98, observations of several satellites and instruments: the same columns whichever of them observe anything; with
no satellite there is nothing to concatenate and the call fails. -/
theorem C98_multi (omitSolar : Bool) (records : List Nat) :
    (records = [] → collectMulti omitSolar records = .error .valueError) ∧
      (records ≠ [] → ∃ f, collectMulti omitSolar records = .ok f ∧
        HasColumns f (observationColumns omitSolar) ∧ f.rows = records.sum) := by
  constructor
  · rintro rfl; rfl
  · intro h
    have hne : records.map (collectObservations omitSolar) ≠ [] := by simpa using h
    refine ⟨_, by unfold collectMulti Tatc.Frames.concat require; rw [if_pos hne]; rfl, ⟨?_, ?_⟩, ?_⟩
    · exact foldl_union_nodup _ _ List.nodup_nil
    · intro c
      simp only [foldl_union_mem, List.not_mem_nil, false_or, List.mem_flatMap, List.mem_map]
      constructor
      · rintro ⟨_, ⟨n, _, rfl⟩, hc⟩
        exact ((collectObservations_columns omitSolar n).mem_iff).mp hc
      · intro hc
        obtain ⟨n, rest, rfl⟩ := List.exists_cons_of_ne_nil h
        exact ⟨_, ⟨n, by simp, rfl⟩, ((collectObservations_columns omitSolar n).mem_iff).mpr hc⟩
    · simp only [List.map_map]
      congr 1
      conv_rhs => rw [← List.map_id records]
      apply List.map_congr_left
      intro n _
      exact (C98_observations omitSolar n).2

/-- C98, downlinks: the same columns with any number of downlinks, also none. -/
theorem C98_downlinks (records : Nat) :
    HasColumns (collectDownlinks records) ["station", "geometry", "satellite", "start", "epoch", "end"] ∧
      (collectDownlinks records).rows = records := by
  unfold collectDownlinks
  split
  · exact ⟨hasColumns_of_perm (by decide) (by simp only; decide), rfl⟩
  · exact ⟨hasColumns_of_perm (by decide) (by decide), by simp [emptyDownlinks]; omega⟩

/-- C98, radio occultations: the same columns in the same order with any number of them, also none. -/
theorem C98_ro (arcs : Nat) : (collectRo arcs).columns = (collectRo 0).columns ∧ (collectRo arcs).rows = arcs := by
  unfold collectRo
  split
  · rename_i h; subst h; exact ⟨rfl, rfl⟩
  · exact ⟨rfl, rfl⟩

theorem reads_ok {f : Frame} {names : List String} :
    f.reads names = .ok () ↔ ∀ n ∈ names, n ∈ f.columns := by
  unfold Frame.reads
  rw [require_eq_ok]

theorem dissolve_ok {f g : Frame} {key aggregated : List String} {groups : Nat}
    (h : f.dissolve key aggregated groups = .ok g) :
    g = { columns := "geometry" :: aggregated, rows := groups } := by
  unfold Frame.dissolve at h
  simp only [bind_eq_ok, pure, Except.pure, Except.ok.injEq] at h
  obtain ⟨_, _, h⟩ := h
  exact h.symm

/-- C98, reduced observations: whatever is reduced, if the call returns, the result has exactly the columns point,
geometry, access, revisit and samples, also when there was nothing to reduce. -/
theorem C98_reduced (aggregated : Frame) (groups : Nat) (f : Frame)
    (h : reduceObservations aggregated groups = .ok f) :
    HasColumns f ["point_id", "geometry", "access", "revisit", "samples"] := by
  unfold reduceObservations at h
  split at h
  · simp only [pure, Except.pure, Except.ok.injEq] at h
    subst h
    exact hasColumns_of_perm (by decide) (by decide)
  · simp only [bind_eq_ok, pure, Except.pure, Except.ok.injEq] at h
    obtain ⟨_, _, g, hg, rfl⟩ := h
    rw [dissolve_ok hg]
    exact hasColumns_of_perm (by decide) (by simp [Frame.resetIndex, Frame.assigns, Frame.assign])

/-- C98, reduced latencies: exactly the columns point, geometry, latency and samples, also when there was nothing to
reduce. -/
theorem C98_reduced_latencies (latencies : Frame) (groups : Nat) (f : Frame)
    (h : reduceLatencies latencies groups = .ok f) :
    HasColumns f ["point_id", "geometry", "latency", "samples"] := by
  unfold reduceLatencies at h
  split at h
  · simp only [pure, Except.pure, Except.ok.injEq] at h
    subst h
    exact hasColumns_of_perm (by decide) (by decide)
  · simp only [bind_eq_ok, pure, Except.pure, Except.ok.injEq] at h
    obtain ⟨_, _, g, hg, rfl⟩ := h
    rw [dissolve_ok hg]
    exact hasColumns_of_perm (by decide) (by simp [Frame.resetIndex, Frame.assigns, Frame.assign])

example : reduceObservations
    { columns := ["geometry", "point_id", "satellite", "start", "end", "access", "revisit"], rows := 5 } 2 =
    .ok { columns := ["point_id", "geometry", "access", "revisit", "samples"], rows := 2 } := by decide

/-- C98, tracks without optional columns: the same columns with any number of times and whatever the mask leaves. -/
theorem C98_tracks_partial (times times' clipped clipped' : Nat) :
    (collectOrbitTrack false false false false times clipped).columns =
        (collectOrbitTrack false false false false times' clipped').columns ∧
      (collectGroundTrack false false times clipped).columns =
        (collectGroundTrack false false times' clipped').columns := by
  have h1 : ∀ n m, (collectOrbitTrack false false false false n m).columns = emptyOrbitTrack.columns := by
    intro n m; unfold collectOrbitTrack; split <;> rfl
  have h2 : ∀ n m, (collectGroundTrack false false n m).columns = emptyGroundTrack.columns := by
    intro n m; unfold collectGroundTrack; split <;> rfl
  exact ⟨by rw [h1, h1], by rw [h2, h2]⟩

/-- C98 fails for tracks with optional columns: the columns asked for are missing when the mask, or the list of times,
leaves nothing. -/
theorem C98_tracks_false (times clipped : Nat) (h : 0 < times) :
    ("velocity" ∈ (collectOrbitTrack true false false false times clipped).columns ∧
        "velocity" ∉ (collectOrbitTrack true false false false 0 0).columns) ∧
      ("sat_sunlit" ∈ (collectOrbitTrack false true false false times clipped).columns ∧
        "sat_sunlit" ∉ (collectOrbitTrack false true false false 0 0).columns) ∧
      ("solar_beta" ∈ (collectOrbitTrack false false false true times clipped).columns ∧
        "solar_beta" ∉ (collectOrbitTrack false false false true 0 0).columns) ∧
      ("sat_alt" ∈ (collectGroundTrack true false times clipped).columns ∧
        "sat_alt" ∉ (collectGroundTrack true false 0 0).columns) ∧
      ("solar_alt" ∈ (collectGroundTrack false true times clipped).columns ∧
        "solar_alt" ∉ (collectGroundTrack false true 0 0).columns) := by
  have h' : times ≠ 0 := by omega
  simp [collectOrbitTrack, collectGroundTrack, h', Frame.assign, Frame.assigns, emptyOrbitTrack, emptyGroundTrack]

/-- C98 fails for aggregated observations: access and revisit are columns exactly if there was something to
aggregate. -/
theorem C98_aggregate_false (omitSolar : Bool) (records groups : Nat) :
    ∃ f, aggregateObservations (collectObservations omitSolar records) groups = .ok f ∧
      ("access" ∈ f.columns ↔ 0 < records) ∧ ("revisit" ∈ f.columns ↔ 0 < records) := by
  rcases Nat.eq_zero_or_pos records with rfl | h
  · cases omitSolar <;> exact ⟨_, rfl, by decide, by decide⟩
  · have h' : records ≠ 0 := by omega
    refine ⟨{ columns := ["geometry", "point_id", "satellite", "instrument", "start", "epoch", "end", "access",
      "revisit"], rows := groups }, ?_, by simp [h], by simp [h]⟩
    cases omitSolar <;>
      simp [aggregateObservations, collectObservations, h, h', Frame.assigns, Frame.assign, Frame.reads,
        Frame.dissolve, require, pure, Except.pure, bind, Except.bind]

/-- C98 fails for latencies: the altitude and azimuth of the satellite, which the documentation lists, are columns
exactly if there are observations and downlinks. -/
theorem C98_latencies_false (omitSolar : Bool) (records downlinks : Nat) :
    ∃ f, computeLatencies (collectObservations omitSolar records) (collectDownlinks downlinks) = .ok f ∧
      ("sat_alt" ∈ f.columns ↔ 0 < records ∧ 0 < downlinks) ∧
      (∀ c ∈ ["point_id", "geometry", "satellite", "instrument", "observed", "station", "downlinked", "latency"],
        c ∈ f.columns) := by
  by_cases h : 0 < records ∧ 0 < downlinks
  · obtain ⟨h1, h2⟩ := h
    have h1' : records ≠ 0 := by omega
    have h2' : downlinks ≠ 0 := by omega
    refine ⟨{ columns := ["point_id", "geometry", "satellite", "instrument", "sat_alt", "sat_az", "station",
      "downlinked", "latency", "observed"], rows := records }, ?_, by simp [h1, h2], by simp⟩
    cases omitSolar <;>
      simp [computeLatencies, collectObservations, collectDownlinks, h1, h2, h1', h2', Frame.assigns, Frame.assign,
        Frame.reads, mergeAsof, Frame.rename, Frame.select, List.lookup, require, pure, Except.pure, bind, Except.bind]
  · refine ⟨emptyLatency, ?_, by simp [emptyLatency, h], by simp [emptyLatency]⟩
    have : (collectObservations omitSolar records).rows = 0 ∨ (collectDownlinks downlinks).rows = 0 := by
      rw [(C98_observations omitSolar records).2, (C98_downlinks downlinks).2]; omega
    unfold computeLatencies
    rw [if_pos this]
    rfl

/-- Latencies of aggregated observations cannot be computed: with anything to downlink, the call fails because
aggregation dropped the altitude and azimuth of the satellite. -/
theorem C98_aggregated_latencies_false (omitSolar : Bool) (records groups downlinks : Nat) (hr : 0 < records)
    (hg : 0 < groups) (hd : 0 < downlinks) :
    ∃ f, aggregateObservations (collectObservations omitSolar records) groups = .ok f ∧
      computeLatencies f (collectDownlinks downlinks) = .error .keyError := by
  have h' : records ≠ 0 := by omega
  have hg' : groups ≠ 0 := by omega
  have hd' : downlinks ≠ 0 := by omega
  refine ⟨{ columns := ["geometry", "point_id", "satellite", "instrument", "start", "epoch", "end", "access",
      "revisit"], rows := groups }, ?_, ?_⟩
  · cases omitSolar <;>
      simp [aggregateObservations, collectObservations, hr, h', Frame.assigns, Frame.assign, Frame.reads,
        Frame.dissolve, require, pure, Except.pure, bind, Except.bind]
  · simp [computeLatencies, collectDownlinks, hd, hg', hd', Frame.assign,
        Frame.reads, mergeAsof, Frame.rename, Frame.select, List.lookup, require, bind, Except.bind]

/-- Aggregating any frame that has the columns of observations succeeds. -/
theorem aggregate_succeeds (o : Frame) (groups : Nat)
    (h : ∀ c ∈ ["point_id", "geometry", "satellite", "instrument", "start", "epoch", "end"], c ∈ o.columns) :
    ∃ a, aggregateObservations o groups = .ok a ∧
      (0 < a.rows → ∀ c ∈ ["point_id", "geometry", "access", "revisit"], c ∈ a.columns) := by
  unfold aggregateObservations
  split
  · exact ⟨emptyAggregate, rfl, by simp [emptyAggregate]⟩
  · simp only [List.mem_cons, List.not_mem_nil, or_false, forall_eq_or_imp, forall_eq] at h
    obtain ⟨h1, h2, h3, h4, h5, h6, h7⟩ := h
    have mono : ∀ c, c ∈ o.columns → c ∈ (o.assign "obs").columns := by
      intro c hc; unfold Frame.assign; split <;> simp [hc]
    have mobs : "obs" ∈ (o.assign "obs").columns := by
      unfold Frame.assign; split
      · assumption
      · simp
    refine ⟨(⟨["geometry", "point_id", "satellite", "instrument", "start", "epoch", "end"], groups⟩ : Frame).assigns ["access", "revisit"], ?_, ?_⟩
    · have r1 : o.reads ["point_id", "start", "end"] = .ok () := by rw [reads_ok]; simp [h1, h5, h7]
      have r2 : (o.assign "obs").reads
          (["obs"] ++ ["geometry"] ++ ["point_id", "satellite", "instrument", "start", "epoch", "end"]) = .ok () := by
        rw [reads_ok]; simp [mobs, mono _ h1, mono _ h2, mono _ h3, mono _ h4, mono _ h5, mono _ h6, mono _ h7]
      unfold Frame.dissolve
      rw [r1, r2]
      rfl
    · simp [Frame.assigns, Frame.assign]

/-- Reducing a frame that has the columns of aggregated observations, or no row, succeeds. -/
theorem reduce_succeeds (a : Frame) (groups : Nat)
    (h : 0 < a.rows → ∀ c ∈ ["point_id", "geometry", "access", "revisit"], c ∈ a.columns) :
    ∃ r, reduceObservations a groups = .ok r ∧
      ∀ c ∈ ["point_id", "geometry", "access", "revisit", "samples"], c ∈ r.columns := by
  unfold reduceObservations
  split
  · exact ⟨emptyReduce, rfl, by simp [emptyReduce]⟩
  · rename_i hz
    have h := h (by omega)
    simp only [List.mem_cons, List.not_mem_nil, or_false, forall_eq_or_imp, forall_eq] at h
    obtain ⟨h1, h2, h3, h4⟩ := h
    have e : a.assigns ["access", "revisit"] = a := by simp [Frame.assigns, Frame.assign, h3, h4]
    rw [e]
    have mono : ∀ c, c ∈ a.columns → c ∈ (a.assign "samples").columns := by
      intro c hc; unfold Frame.assign; split <;> simp [hc]
    have ms : "samples" ∈ (a.assign "samples").columns := by
      unfold Frame.assign; split
      · assumption
      · simp
    refine ⟨((⟨["geometry", "access", "revisit", "samples"], groups⟩ : Frame).resetIndex "point_id").assigns ["access", "revisit"], ?_, ?_⟩
    · have r1 : a.reads ["access", "revisit"] = .ok () := by rw [reads_ok]; simp [h3, h4]
      have r2 : (a.assign "samples").reads
          (["point_id"] ++ ["geometry"] ++ ["access", "revisit", "samples"]) = .ok () := by
        rw [reads_ok]; simp [ms, mono _ h1, mono _ h2, mono _ h3, mono _ h4]
      unfold Frame.dissolve
      rw [r1, r2]
      rfl
    · simp [Frame.resetIndex, Frame.assigns, Frame.assign]

theorem assigns_mem (f : Frame) (names : List String) :
    (∀ c ∈ f.columns, c ∈ (f.assigns names).columns) ∧ (∀ c ∈ names, c ∈ (f.assigns names).columns) := by
  induction names generalizing f with
  | nil => exact ⟨fun c h => h, by simp⟩
  | cons a l ih =>
    have mono : ∀ c, c ∈ f.columns → c ∈ (f.assign a).columns := by
      intro c hc; unfold Frame.assign; split <;> simp [hc]
    have ma : a ∈ (f.assign a).columns := by
      unfold Frame.assign; split
      · assumption
      · simp
    obtain ⟨i1, i2⟩ := ih (f.assign a)
    constructor
    · intro c hc; exact i1 c (mono c hc)
    · intro c hc
      rcases List.mem_cons.mp hc with rfl | hc
      · exact i1 _ ma
      · exact i2 c hc

/-- Gridding a frame that has the columns to grid succeeds, with cells that have a label and a geometry. -/
theorem grid_succeeds (values : List String) (r cells : Frame) (joined groups : Nat)
    (hv : "geometry" ∉ values) (hr : ∀ c ∈ "samples" :: values, c ∈ r.columns)
    (hc : ∀ c ∈ ["cell_id", "geometry"], c ∈ cells.columns) :
    ∃ g, gridReduced values r cells joined groups = .ok g ∧
      ∀ c ∈ ["cell_id", "geometry", "samples"] ++ values, c ∈ g.columns := by
  unfold gridReduced
  simp only [List.mem_cons, List.not_mem_nil, or_false, forall_eq_or_imp, forall_eq] at hr hc
  split
  · refine ⟨_, rfl, ?_⟩
    obtain ⟨a1, a2⟩ := assigns_mem cells ("samples" :: values)
    intro c h
    simp only [List.cons_append, List.nil_append, List.mem_cons] at h
    rcases h with rfl | rfl | rfl | h
    · exact a1 _ hc.1
    · exact a1 _ hc.2
    · exact a2 _ (by simp)
    · exact a2 _ (by simp [h])
  · obtain ⟨a1, _⟩ := assigns_mem r values
    have r1 : r.reads values = .ok () := by rw [reads_ok]; exact hr.2
    have r2 : (r.assigns values).reads ["samples"] = .ok () := by rw [reads_ok]; simp [a1 _ hr.1]
    have r3 : (sjoin cells (r.assigns values) joined).reads (["cell_id"] ++ ["geometry"] ++ "samples" :: values) =
        .ok () := by
      rw [reads_ok]
      intro n hn
      unfold sjoin
      simp only [List.cons_append, List.nil_append, List.mem_cons, List.mem_append, List.mem_filter,
        decide_not, Bool.not_eq_eq_eq_not, Bool.not_true, decide_eq_false_iff_not] at hn ⊢
      rcases hn with rfl | rfl | rfl | hn
      · exact Or.inl hc.1
      · exact Or.inl hc.2
      · exact Or.inr (Or.inr ⟨a1 _ hr.1, by decide⟩)
      · exact Or.inr (Or.inr ⟨a1 _ (hr.2 n hn), by rintro rfl; exact hv hn⟩)
    refine ⟨(({ columns := "geometry" :: "samples" :: values, rows := groups } : Frame).resetIndex "cell_id").assigns
      values, ?_, ?_⟩
    · unfold Frame.dissolve
      rw [r1]
      simp only [bind, Except.bind]
      rw [r2]
      simp only
      rw [r3]
      rfl
    · intro c h
      apply (assigns_mem _ values).1
      simpa [Frame.resetIndex] using h

/-- C98, the whole analysis of coverage: collecting, aggregating, reducing and gridding never misses a column, whether
or not anything is observed, and the result has the label and geometry of cells, samples, access and revisit. -/
theorem C98_coverage_pipeline (omitSolar : Bool) (records : List Nat) (observed points joined shown : Nat)
    (cells : Frame) (h : records ≠ []) (hc : ∀ c ∈ ["cell_id", "geometry"], c ∈ cells.columns) :
    ∃ o a r g, collectMulti omitSolar records = .ok o ∧ aggregateObservations o observed = .ok a ∧
      reduceObservations a points = .ok r ∧ gridReduced ["access", "revisit"] r cells joined shown = .ok g ∧
      ∀ c ∈ ["cell_id", "geometry", "samples", "access", "revisit"], c ∈ g.columns := by
  obtain ⟨o, ho, ⟨_, hoc⟩, _⟩ := (C98_multi omitSolar records).2 h
  obtain ⟨a, ha, hac⟩ := aggregate_succeeds o observed (by
    intro c hm; rw [hoc]; exact List.mem_append_left _ (by revert c; decide))
  obtain ⟨r, hr, hrc⟩ := reduce_succeeds a points hac
  obtain ⟨g, hg, hgc⟩ := grid_succeeds ["access", "revisit"] r cells joined shown (by decide)
    (by intro c hm; apply hrc; revert c; decide) hc
  exact ⟨o, a, r, g, ho, ha, hr, hg, hgc⟩

/-- C98, the whole analysis of latency of one satellite: collecting observations and downlinks, and computing, reducing
and gridding latencies never misses a column, whether or not there are any. -/
theorem C98_latency_pipeline (omitSolar : Bool) (records downlinks points joined shown : Nat)
    (cells : Frame) (hc : ∀ c ∈ ["cell_id", "geometry"], c ∈ cells.columns) :
    ∃ l r g, computeLatencies (collectObservations omitSolar records) (collectDownlinks downlinks) = .ok l ∧
      reduceLatencies l points = .ok r ∧ gridReduced ["latency"] r cells joined shown = .ok g ∧
      ∀ c ∈ ["cell_id", "geometry", "samples", "latency"], c ∈ g.columns := by
  obtain ⟨l, hl, _, hlc⟩ := C98_latencies_false omitSolar records downlinks
  have hr : ∃ r, reduceLatencies l points = .ok r := by
    unfold reduceLatencies
    split
    · exact ⟨_, rfl⟩
    · have m1 : "latency" ∈ l.columns := hlc _ (by decide)
      have e : l.assign "latency" = l := by simp [Frame.assign, m1]
      have mono := (assigns_mem l ["samples"]).1
      have ms := (assigns_mem l ["samples"]).2
      have r1 : l.reads ["latency"] = .ok () := by rw [reads_ok]; simp [m1]
      have r2 : (l.assign "samples").reads (["point_id"] ++ ["geometry"] ++ ["latency", "samples"]) = .ok () := by
        rw [reads_ok]
        intro n hn
        simp only [List.cons_append, List.nil_append, List.mem_cons, List.not_mem_nil, or_false] at hn
        rcases hn with rfl | rfl | rfl | rfl
        · exact mono _ (hlc _ (by decide))
        · exact mono _ (hlc _ (by decide))
        · exact mono _ m1
        · exact ms _ (by simp)
      rw [e, r1]
      simp only [bind, Except.bind]
      unfold Frame.dissolve
      rw [r2]
      exact ⟨_, rfl⟩
  obtain ⟨r, hr⟩ := hr
  obtain ⟨g, hg, hgc⟩ := grid_succeeds ["latency"] r cells joined shown (by decide)
    (by intro c hm; rw [(C98_reduced_latencies l points r hr).2]; revert c; decide) hc
  exact ⟨l, r, g, hl, hr, hg, hgc⟩

example : ∃ o a r g, collectMulti false [0, 3] = .ok o ∧ aggregateObservations o 2 = .ok a ∧
    reduceObservations a 1 = .ok r ∧
    gridReduced ["access", "revisit"] r { columns := ["cell_id", "geometry"], rows := 8 } 1 1 = .ok g ∧
    g = { columns := ["cell_id", "geometry", "samples", "access", "revisit"], rows := 1 } :=
  ⟨_, _, _, _, rfl, rfl, rfl, rfl, rfl⟩

/-- C98 fails for grids: any further column of the cells is kept when there is nothing to grid and dropped when there
is something; and all cells are returned when there is nothing to grid, but only those with a point when there is. -/
theorem C98_grid_false (r cells : Frame) (joined shown : Nat) (name : String)
    (hname : name ∉ ["cell_id", "geometry", "samples", "access", "revisit"]) (hcell : name ∈ cells.columns)
    (hc : ∀ c ∈ ["cell_id", "geometry"], c ∈ cells.columns)
    (hr : ∀ c ∈ ["samples", "access", "revisit"], c ∈ r.columns) :
    ∃ g, gridReduced ["access", "revisit"] r cells joined shown = .ok g ∧
      (name ∈ g.columns ↔ r.rows = 0) ∧ g.rows = (if r.rows = 0 then cells.rows else shown) := by
  obtain ⟨g, hg, _⟩ := grid_succeeds ["access", "revisit"] r cells joined shown (by decide) hr hc
  refine ⟨g, hg, ?_⟩
  have hrows : ∀ (f : Frame) (l : List String), (f.assigns l).rows = f.rows := by
    intro f l
    induction l generalizing f with
    | nil => rfl
    | cons a l ih =>
      show ((f.assign a).assigns l).rows = _
      rw [ih]; unfold Frame.assign; split <;> rfl
  unfold gridReduced at hg
  split at hg
  · rename_i hz
    simp only [pure, Except.pure, Except.ok.injEq] at hg
    subst hg
    refine ⟨⟨fun _ => hz, fun _ => (assigns_mem _ _).1 _ hcell⟩, ?_⟩
    rw [hrows, if_pos hz]
  · rename_i hz
    simp only [bind_eq_ok, pure, Except.pure, Except.ok.injEq] at hg
    obtain ⟨_, _, _, _, d, hd, rfl⟩ := hg
    rw [dissolve_ok hd, hrows, if_neg hz]
    refine ⟨?_, rfl⟩
    simp only [hz, iff_false]
    simpa [Frame.resetIndex, Frame.assigns, Frame.assign] using hname

example : gridReduced ["access", "revisit"]
      { columns := ["point_id", "geometry", "access", "revisit", "samples"], rows := 0 }
      { columns := ["cell_id", "geometry", "name"], rows := 8 } 0 0 =
      .ok { columns := ["cell_id", "geometry", "name", "samples", "access", "revisit"], rows := 8 } ∧
    gridReduced ["access", "revisit"]
      { columns := ["point_id", "geometry", "access", "revisit", "samples"], rows := 4 }
      { columns := ["cell_id", "geometry", "name"], rows := 8 } 4 2 =
      .ok { columns := ["cell_id", "geometry", "samples", "access", "revisit"], rows := 2 } := by decide

end Tatc.Props
