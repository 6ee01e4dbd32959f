import Verif.Lemmas.IeeeSum
import Verif.Props.Reduce
import Verif.Props.Latency

/-!
# C158: mean access, revisit and latency as they are computed
-/

namespace Tatc.Props
open Tatc.Pandas Tatc.Spec Tatc.Coverage Tatc.Latency

/-- `v` microseconds is the mean of durations in nanoseconds, as near as a `timedelta` can be: off by half a microsecond
and 12 parts in 2⁵³; within the same whole microseconds as the durations, when these are less than nine years; and the
nearest microsecond unless the mean is too close to half a microsecond. -/
structure Averages (l : List ℝ) (v : ℤ) : Prop where
  close : |1000 * (v : ℝ) - l.sum / l.length| ≤ 500 + 12 / 2 ^ 53 * ((l.map abs).sum / l.length) + 1 / 10 ^ 6
  between : (∀ x ∈ l, |x| ≤ 3 * 10 ^ 17) → ∀ a b : ℤ, (∀ x ∈ l, 1000 * (a : ℝ) ≤ x ∧ x ≤ 1000 * b) → a ≤ v ∧ v ≤ b
  nearest : ∀ w : ℤ, |1000 * (w : ℝ) - l.sum / l.length| + 12 / 2 ^ 53 * ((l.map abs).sum / l.length) + 1 / 10 ^ 6 < 500 →
    v = w

theorem average_bounds {l : List ℝ} (hl : l ≠ []) {a b : ℝ} (h : ∀ x ∈ l, a ≤ x ∧ x ≤ b) :
    a ≤ l.sum / l.length ∧ l.sum / l.length ≤ b := by
  have hlen : (0 : ℝ) < l.length := by exact_mod_cast List.length_pos_iff.2 hl
  rw [le_div_iff₀ hlen, div_le_iff₀ hlen]
  clear hl hlen
  induction l with
  | nil => simp
  | cons x l ih =>
    have hx := h x List.mem_cons_self
    have := ih fun y hy => h y (List.mem_cons_of_mem _ hy)
    simp only [List.sum_cons, List.length_cons]
    push_cast
    constructor <;> linarith [hx.1, hx.2, this.1, this.2]

/-- What the computed mean of a group is worth. -/
theorem averages (l : List ℝ) (hl : l ≠ []) (hn : l.length ≤ 2 ^ 48) :
    Averages l (Ieee.timedeltaOf (Ieee.groupMean (l.map Ieee.secondsOf))) := by
  have hc := Ieee.meanDuration_close l hl hn
  generalize Ieee.timedeltaOf (Ieee.groupMean (l.map Ieee.secondsOf)) = v at *
  refine ⟨hc, ?_, ?_⟩
  · intro hbig a b hab
    have h1 := average_bounds hl hab
    have h2 : (l.map abs).sum / l.length ≤ 3 * 10 ^ 17 := by
      have := (average_bounds (l := l.map abs) (by simpa using hl) (a := 0) (b := 3 * 10 ^ 17) (by
        intro y hy
        obtain ⟨x, hx, rfl⟩ := List.mem_map.1 hy
        exact ⟨abs_nonneg x, hbig x hx⟩)).2
      rwa [List.length_map] at this
    generalize (l.map abs).sum / l.length = B at *
    have h3 : 12 / 2 ^ 53 * B ≤ 12 / 2 ^ 53 * (3 * 10 ^ 17) := mul_le_mul_of_nonneg_left h2 (by positivity)
    rw [abs_le] at hc
    constructor
    · have : (a : ℝ) < v + 1 := by
        have := hc.1
        norm_num at h3 this
        linarith [h1.1]
      exact Int.lt_add_one_iff.1 (by exact_mod_cast this)
    · have : (v : ℝ) < b + 1 := by
        have := hc.2
        norm_num at h3 this
        linarith [h1.2]
      exact Int.lt_add_one_iff.1 (by exact_mod_cast this)
  · intro w hw
    have h1 : |1000 * (v : ℝ) - 1000 * w| < 1000 := by
      calc |1000 * (v : ℝ) - 1000 * w| = |(1000 * (v : ℝ) - l.sum / l.length) - (1000 * w - l.sum / l.length)| := by
            congr 1; ring
        _ ≤ |1000 * (v : ℝ) - l.sum / l.length| + |1000 * (w : ℝ) - l.sum / l.length| := abs_sub _ _
        _ < 1000 := by linarith
    rw [abs_lt] at h1
    have h2 : (v : ℝ) < w + 1 := by linarith [h1.2]
    have h3 : (w : ℝ) < v + 1 := by linarith [h1.1]
    have h2' : v < w + 1 := by exact_mod_cast h2
    have h3' : w < v + 1 := by exact_mod_cast h3
    omega

theorem meanDuration_none (l : List ℝ) : Ieee.meanDuration l = none ↔ l = [] := by
  unfold Ieee.meanDuration
  split_ifs with he <;> simp [he]

theorem nanmean_none (l : List ℚ) (o : List (Option ℚ)) (ho : o.filterMap id = l) :
    (nanmean o).map timedeltaSeconds = if l = [] then none else some (timedeltaSeconds (mean l)) := by
  unfold nanmean
  simp only
  rw [ho]
  by_cases h : l = []
  · subst h; simp
  · have : ¬ l.isEmpty = true := by rwa [List.isEmpty_iff]
    rw [if_neg this, if_neg h, Option.map_some]

/-- **C158 (mean access and revisit).** The results that `reduce_observations` gives with the arithmetic of the machine:
one row for each point that has rows, in order, with the number of its rows as samples; the mean access and the mean
revisit are means of the values at that point, as near as a duration in microseconds can be; the mean revisit is missing
exactly when all are. -/
theorem C158_reduce (aggregated : List AggRow) (hn : aggregated.length ≤ 2 ^ 48) :
    ((Ieee.reduceObservations aggregated).map (·.pointId)).Pairwise (· < ·) ∧
    (∀ k : Int, k ∈ (Ieee.reduceObservations aggregated).map (·.pointId) ↔ ∃ r ∈ aggregated, r.pointId = k) ∧
    ((Ieee.reduceObservations aggregated).map (·.samples)).sum = aggregated.length ∧
    (∀ s ∈ Ieee.reduceObservations aggregated,
      let rows := aggregated.filter fun r => r.pointId = s.pointId
      let revisits := rows.filterMap (·.revisit)
      s.samples = rows.length ∧ 0 < s.samples ∧
      Averages (rows.map fun r => (r.access : ℝ)) s.access ∧
      (s.revisit = none ↔ revisits = []) ∧
      (∀ v ∈ s.revisit, Averages (revisits.map fun x : Int => (x : ℝ)) v)) := by
  refine ⟨?_, ?_, ?_, ?_⟩
  · unfold Ieee.reduceObservations
    split_ifs with h
    · simp
    · rw [List.map_map]
      exact groupBy_fst_sorted (fun r : AggRow => r.pointId) aggregated
  · intro k
    unfold Ieee.reduceObservations
    split_ifs with h
    · rw [List.isEmpty_iff] at h; subst h; simp
    · rw [List.map_map, List.mem_map]
      constructor
      · rintro ⟨⟨k', g⟩, hkg, rfl⟩
        exact (mem_groupBy.mp hkg).1
      · intro hk
        exact ⟨(k, aggregated.filter fun r => r.pointId = k), mem_groupBy.mpr ⟨hk, rfl⟩, rfl⟩
  · unfold Ieee.reduceObservations
    split_ifs with h
    · rw [List.isEmpty_iff] at h; subst h; rfl
    · rw [List.map_map]
      have hp := (groupBy_flatMap_perm (fun r : AggRow => r.pointId) aggregated).length_eq
      rw [← hp, List.length_flatMap]
      congr 1
      apply List.map_congr_left
      intro kg _
      simp
  · intro s hs
    unfold Ieee.reduceObservations at hs
    split_ifs at hs with h
    · simp at hs
    · obtain ⟨⟨k, g⟩, hkg, rfl⟩ := List.mem_map.mp hs
      obtain ⟨⟨r, hr, hrk⟩, hg⟩ := mem_groupBy.mp hkg
      simp only
      rw [← hg]
      have hne : g ≠ [] := by
        rw [hg]
        exact List.ne_nil_of_mem (List.mem_filter.mpr ⟨hr, by simpa using hrk⟩)
      have hlen : g.length ≤ 2 ^ 48 := by
        rw [hg]
        exact (List.length_filter_le _ _).trans hn
      refine ⟨sum_map_one g, ?_, ?_, ?_, ?_⟩
      · rw [sum_map_one]; exact List.length_pos_iff.mpr hne
      · have := averages (g.map fun r => (r.access : ℝ)) (by simpa using hne) (by simpa using hlen)
        rw [List.map_map] at this
        exact this
      · exact (meanDuration_none _).trans List.map_eq_nil_iff
      · intro v hv
        unfold Ieee.meanDuration at hv
        split_ifs at hv with he
        · simp at hv
        · rw [Option.mem_some_iff] at hv
          subst hv
          exact averages _ he (by
            rw [List.length_map]
            exact (List.length_filterMap_le _ _).trans hlen)

/-- **C158 (mean latency).** The same for `reduce_latencies`. -/
theorem C158_latency (rows : List LatRow) (hn : rows.length ≤ 2 ^ 48) :
    ((Ieee.reduceLatencies rows).map (·.pointId)).Pairwise (· < ·) ∧
    (∀ k : Int, k ∈ (Ieee.reduceLatencies rows).map (·.pointId) ↔ ∃ r ∈ rows, r.obs.pointId = k) ∧
    ((Ieee.reduceLatencies rows).map (·.samples)).sum = rows.length ∧
    (∀ s ∈ Ieee.reduceLatencies rows,
      let here := rows.filter fun r => r.obs.pointId = s.pointId
      let present := here.filterMap (·.latency)
      s.samples = here.length ∧ 0 < s.samples ∧
      (s.latency = none ↔ present = []) ∧
      (∀ v ∈ s.latency, Averages (present.map fun x : ℚ => (x : ℝ)) v)) := by
  refine ⟨?_, ?_, ?_, ?_⟩
  · unfold Ieee.reduceLatencies
    split_ifs with h
    · simp
    · rw [List.map_map]
      exact groupBy_fst_sorted (fun r : LatRow => r.obs.pointId) rows
  · intro k
    unfold Ieee.reduceLatencies
    split_ifs with h
    · rw [List.isEmpty_iff] at h; subst h; simp
    · rw [List.map_map, List.mem_map]
      constructor
      · rintro ⟨⟨k', g⟩, hkg, rfl⟩
        exact (mem_groupBy.mp hkg).1
      · intro hk
        exact ⟨(k, rows.filter fun r => r.obs.pointId = k), mem_groupBy.mpr ⟨hk, rfl⟩, rfl⟩
  · unfold Ieee.reduceLatencies
    split_ifs with h
    · rw [List.isEmpty_iff] at h; subst h; rfl
    · rw [List.map_map]
      have hp := (groupBy_flatMap_perm (fun r : LatRow => r.obs.pointId) rows).length_eq
      rw [← hp, List.length_flatMap]
      congr 1
      apply List.map_congr_left
      intro kg _
      simp
  · intro s hs
    unfold Ieee.reduceLatencies at hs
    split_ifs at hs with h
    · simp at hs
    · obtain ⟨⟨k, g⟩, hkg, rfl⟩ := List.mem_map.mp hs
      obtain ⟨⟨r, hr, hrk⟩, hg⟩ := mem_groupBy.mp hkg
      simp only
      rw [← hg]
      have hne : g ≠ [] := by
        rw [hg]
        exact List.ne_nil_of_mem (List.mem_filter.mpr ⟨hr, by simpa using hrk⟩)
      have hlen : g.length ≤ 2 ^ 48 := by
        rw [hg]
        exact (List.length_filter_le _ _).trans hn
      refine ⟨sum_map_one g, ?_, ?_, ?_⟩
      · rw [sum_map_one]; exact List.length_pos_iff.mpr hne
      · exact (meanDuration_none _).trans List.map_eq_nil_iff
      · intro v hv
        unfold Ieee.meanDuration at hv
        split_ifs at hv with he
        · simp at hv
        · rw [Option.mem_some_iff] at hv
          subst hv
          exact averages _ he (by
            rw [List.length_map]
            exact (List.length_filterMap_le _ _).trans hlen)

/-- A mean is the exact one, give or take one microsecond. -/
theorem averages_near (l : List Int) (v : ℤ) (h : Averages (l.map fun x : Int => (x : ℝ)) v) (hl : l ≠ [])
    (hbig : ∀ x ∈ l, |x| ≤ 7 * 10 ^ 17) : |v - timedeltaSeconds (mean (l.map nsToSeconds))| ≤ 1 := by
  have h1 := h.close
  have h2 := timedelta_close l
  generalize timedeltaSeconds (mean (l.map nsToSeconds)) = w at *
  have h2' : |(w : ℝ) * 1000 - (l.map fun x : Int => (x : ℝ)).sum / l.length| ≤ 500 := by
    have e : (((w : ℚ) * 1000 - (l.map fun x : Int => (x : ℚ)).sum / l.length : ℚ) : ℝ) =
        (w : ℝ) * 1000 - (l.map fun x : Int => (x : ℝ)).sum / l.length := by
      push_cast
      rw [List.map_map]
      congr 4
    rw [← e]
    exact_mod_cast h2
  rw [List.length_map, List.map_map] at h1
  have hB : (l.map (abs ∘ fun x : Int => (x : ℝ))).sum / l.length ≤ 7 * 10 ^ 17 := by
    have := (average_bounds (l := l.map (abs ∘ fun x : Int => (x : ℝ))) (by simpa using hl) (a := 0) (b := 7 * 10 ^ 17) (by
      intro y hy
      obtain ⟨x, hx, rfl⟩ := List.mem_map.1 hy
      refine ⟨abs_nonneg _, ?_⟩
      have := hbig x hx
      show |(x : ℝ)| ≤ _
      exact_mod_cast this)).2
    rwa [List.length_map] at this
  generalize (l.map (abs ∘ fun x : Int => (x : ℝ))).sum / l.length = B at *
  generalize (l.map fun x : Int => (x : ℝ)).sum / l.length = m at *
  have h3 : |((v - w : ℤ) : ℝ)| < 2 := by
    rw [abs_le] at h1 h2'
    rw [abs_lt]
    push_cast
    have := h1.1
    have := h1.2
    norm_num at *
    constructor <;> linarith [h2'.1, h2'.2]
  have h4 : |v - w| < 2 := by exact_mod_cast h3
  omega

/-- **C158 (exact means).** The rows with the arithmetic of the machine are those with exact arithmetic: same points,
same samples, same missing values; no mean differs by more than one microsecond, when the durations are less than 22
years. -/
theorem C158_exact (aggregated : List AggRow) (hn : aggregated.length ≤ 2 ^ 48)
    (hbig : ∀ r ∈ aggregated, |r.access| ≤ 7 * 10 ^ 17 ∧ ∀ v ∈ r.revisit, |v| ≤ 7 * 10 ^ 17) :
    List.Forall₂ (fun s e : RedRow => s.pointId = e.pointId ∧ s.samples = e.samples ∧ |s.access - e.access| ≤ 1 ∧
        (s.revisit = none ↔ e.revisit = none) ∧ ∀ v ∈ s.revisit, ∀ w ∈ e.revisit, |v - w| ≤ 1)
      (Ieee.reduceObservations aggregated) (reduceObservations aggregated) := by
  unfold Ieee.reduceObservations reduceObservations
  split_ifs with h
  · exact .nil
  rw [List.forall₂_map_left_iff, List.forall₂_map_right_iff, List.forall₂_same]
  rintro ⟨k, g⟩ hkg
  obtain ⟨⟨r, hr, hrk⟩, hg⟩ := mem_groupBy.mp hkg
  have hne : g ≠ [] := by
    rw [hg]
    exact List.ne_nil_of_mem (List.mem_filter.mpr ⟨hr, by simpa using hrk⟩)
  have hlen : g.length ≤ 2 ^ 48 := by
    rw [hg]
    exact (List.length_filter_le _ _).trans hn
  have hmem : ∀ r ∈ g, r ∈ aggregated := by
    intro r hr
    rw [hg] at hr
    exact (List.mem_filter.1 hr).1
  have erev : (g.map fun r => r.revisit.map nsToSeconds).filterMap id = (g.filterMap (·.revisit)).map nsToSeconds := by
    have := filterMap_map_ns (g.map (·.revisit))
    rw [List.map_map] at this
    rw [show (g.map fun r : AggRow => r.revisit.map nsToSeconds) =
      g.map ((fun r : Option Int => r.map nsToSeconds) ∘ fun r => r.revisit) from rfl, this]
    congr 1
    rw [List.filterMap_map]; rfl
  refine ⟨rfl, rfl, ?_, ?_, ?_⟩
  · have h1 := averages ((g.map (·.access)).map fun x : Int => (x : ℝ)) (by simpa using hne) (by simpa using hlen)
    have h2 := averages_near (g.map (·.access)) _ h1 (by simpa using hne) (by
      intro x hx
      obtain ⟨r, hr, rfl⟩ := List.mem_map.1 hx
      exact (hbig r (hmem r hr)).1)
    rw [List.map_map, List.map_map, List.map_map] at h2
    exact h2
  · refine (meanDuration_none _).trans ?_
    rw [List.map_eq_nil_iff]
    simp only
    rw [nanmean_none _ _ erev]
    by_cases he : g.filterMap (·.revisit) = []
    · rw [he]; simp
    · have : ¬ (g.filterMap (·.revisit)).map nsToSeconds = [] := by simpa using he
      rw [if_neg this]; simpa using he
  · intro v hv w hw
    simp only at hv hw
    rw [nanmean_none _ _ erev] at hw
    unfold Ieee.meanDuration at hv
    by_cases he : g.filterMap (·.revisit) = []
    · rw [he] at hv; simp at hv
    · have h1 : ¬ (g.filterMap (·.revisit)).map nsToSeconds = [] := by simpa using he
      have h2 : ¬ (g.filterMap (·.revisit)).map (fun x : Int => (x : ℝ)) = [] := by simpa using he
      rw [if_neg h2, Option.mem_some_iff] at hv
      rw [if_neg h1, Option.mem_some_iff] at hw
      subst hv hw
      refine averages_near _ _ (averages _ (by simpa using he) (by
        rw [List.length_map]
        exact (List.length_filterMap_le _ _).trans hlen)) he ?_
      intro x hx
      obtain ⟨r, hr, hx⟩ := List.mem_filterMap.1 hx
      exact (hbig r (hmem r hr)).2 x hx

/-- Three observations of a point that last 1, 2 and 4 seconds. -/
def threeRows : List AggRow :=
  [⟨⟨7, "A", "I", 0, 0, 1000000000⟩, 1000000000, none⟩,
    ⟨⟨7, "A", "I", 5000000000, 5000000000, 7000000000⟩, 2000000000, some 4000000000⟩,
    ⟨⟨7, "A", "I", 9000000000, 9000000000, 13000000000⟩, 4000000000, some 2000000001⟩]

/-- Their mean access is 2.333333 s and their mean revisit 3 s, although neither is a double precision number. -/
theorem C158_example : ∀ s ∈ Ieee.reduceObservations threeRows, s.access = 2333333 ∧ s.revisit = some 3000000 := by
  intro s hs
  have hall := C158_reduce threeRows (by norm_num [threeRows])
  have hid : s.pointId = 7 := by
    obtain ⟨r, hr, hk⟩ := (hall.2.1 s.pointId).1 (List.mem_map_of_mem hs)
    simp only [threeRows, List.mem_cons, List.not_mem_nil, or_false] at hr
    rcases hr with rfl | rfl | rfl <;> exact hk.symm
  obtain ⟨-, -, hacc, hnone, hrev⟩ := hall.2.2.2 s hs
  rw [hid] at hacc hnone hrev
  have hrows : (threeRows.filter fun r => r.pointId = 7) = threeRows := by decide +kernel
  have hlist : threeRows.filterMap (·.revisit) = [4000000000, 2000000001] := by decide +kernel
  rw [hrows] at hacc hnone hrev
  rw [hlist] at hnone hrev
  constructor
  · refine hacc.nearest 2333333 ?_
    norm_num [threeRows, abs_of_nonneg, abs_of_neg]
  · obtain ⟨v, hv⟩ := Option.ne_none_iff_exists'.1 (fun h => by
      have := hnone.1 h
      simp at this : s.revisit ≠ none)
    rw [hv]
    congr 1
    refine (hrev v hv).nearest 3000000 ?_
    norm_num [threeRows, abs_of_nonneg, abs_of_neg]

end Tatc.Props
