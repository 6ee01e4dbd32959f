import Verif.Props.Aggregate
import Verif.Lemmas.Round

/-!
# C06: `reduce_observations`
-/

namespace Tatc.Props
open Tatc.Pandas Tatc.Spec Tatc.Coverage

theorem sum_map_one {α : Type} (l : List α) : (l.map fun _ => 1).sum = l.length := by
  induction l with
  | nil => rfl
  | cons a t ih => simp [Nat.add_comm]

theorem mean_scale (l : List ℚ) (c : ℚ) : mean (l.map (· / c)) = mean l / c := by
  unfold mean
  have : (l.map (· / c)).sum = l.sum / c := by
    induction l with
    | nil => simp
    | cons a t ih => simp only [List.map_cons, List.sum_cons, ih]; ring
  rw [this, List.length_map]; ring

/-- Rounding a mean of nanoseconds to microseconds. -/
theorem timedelta_close (l : List Int) :
    |((timedeltaSeconds (mean (l.map nsToSeconds)) : Int) : ℚ) * 1000 -
      ((l.map fun x : Int => (x : ℚ)).sum / l.length)| ≤ 500 := by
  have e : l.map nsToSeconds = (l.map fun x : Int => (x : ℚ)).map (· / 1000000000) := by
    rw [List.map_map]; rfl
  rw [e, mean_scale]
  have h := abs_roundHalfEven_sub_le (mean (l.map fun x : Int => (x : ℚ)) / 1000000000 * 1000000)
  have e2 : (l.map fun x : Int => (x : ℚ)).sum / l.length = mean (l.map fun x : Int => (x : ℚ)) := by
    simp [mean]
  rw [e2]
  unfold timedeltaSeconds
  rw [abs_le] at h ⊢
  constructor <;> linarith [h.1, h.2]

theorem timedelta_bounds (l : List Int) (hne : l ≠ []) (a b : Int) (ha : ∀ x ∈ l, 1000 * a ≤ x)
    (hb : ∀ x ∈ l, x ≤ 1000 * b) :
    a ≤ timedeltaSeconds (mean (l.map nsToSeconds)) ∧
      timedeltaSeconds (mean (l.map nsToSeconds)) ≤ b := by
  have hm := mean_bounds (l := l.map nsToSeconds) (by simpa using hne)
    (a := (a : ℚ) / 1000000) (b := (b : ℚ) / 1000000)
    (by
      intro x hx
      obtain ⟨y, hy, rfl⟩ := List.mem_map.mp hx
      have := ha y hy
      have : (1000 * a : ℚ) ≤ y := by exact_mod_cast this
      unfold nsToSeconds; linarith)
    (by
      intro x hx
      obtain ⟨y, hy, rfl⟩ := List.mem_map.mp hx
      have := hb y hy
      have : (y : ℚ) ≤ 1000 * b := by exact_mod_cast this
      unfold nsToSeconds; linarith)
  unfold timedeltaSeconds
  exact ⟨le_roundHalfEven (by linarith [hm.1]), roundHalfEven_le (by linarith [hm.2])⟩

theorem filterMap_map_ns (g : List (Option Int)) :
    (g.map fun r => r.map nsToSeconds).filterMap id = (g.filterMap id).map nsToSeconds := by
  induction g with
  | nil => rfl
  | cons a t ih =>
    cases a with
    | none => simpa using ih
    | some v => simpa using ih

theorem reduce_samples_sum (aggregated : List AggRow) :
    ((reduceObservations aggregated).map (·.samples)).sum = aggregated.length := by
  unfold reduceObservations
  split_ifs with h
  · rw [List.isEmpty_iff] at h; subst h; rfl
  · rw [List.map_map]
    have hp := (groupBy_flatMap_perm (fun r : AggRow => r.pointId) aggregated).length_eq
    rw [← hp, List.length_flatMap]
    congr 1
    apply List.map_congr_left
    intro kg _
    simp

/-- **C06.** `reduce_observations` has one row per point, in increasing order of point; each
row counts the point's rows, and gives the mean access and mean present revisit time to within
half a microsecond (500 ns), between the smallest and the largest; revisit is missing exactly
when no row of the point has one; the sample counts add up to the number of rows. -/
theorem C06_reduce (aggregated : List AggRow) :
    ((reduceObservations aggregated).map (·.pointId)).Pairwise (· < ·) ∧
    (∀ k : Int, k ∈ (reduceObservations aggregated).map (·.pointId) ↔
      ∃ r ∈ aggregated, r.pointId = k) ∧
    ((reduceObservations aggregated).map (·.samples)).sum = aggregated.length ∧
    (∀ s ∈ reduceObservations aggregated,
      let rows := aggregated.filter fun r => r.pointId = s.pointId
      let revisits := rows.filterMap (·.revisit)
      s.samples = rows.length ∧ 0 < s.samples ∧
      |(s.access : ℚ) * 1000 - (rows.map fun r => (r.access : ℚ)).sum / rows.length| ≤ 500 ∧
      (∀ a b : Int, (∀ r ∈ rows, 1000 * a ≤ r.access ∧ r.access ≤ 1000 * b) →
        a ≤ s.access ∧ s.access ≤ b) ∧
      (s.revisit = none ↔ revisits = []) ∧
      (∀ v, s.revisit = some v →
        |(v : ℚ) * 1000 - (revisits.map fun x : Int => (x : ℚ)).sum / revisits.length| ≤ 500 ∧
        (∀ a b : Int, (∀ x ∈ revisits, 1000 * a ≤ x ∧ x ≤ 1000 * b) → a ≤ v ∧ v ≤ b))) := by
  refine ⟨?_, ?_, reduce_samples_sum aggregated, ?_⟩
  · unfold reduceObservations
    split_ifs with h
    · simp
    · rw [List.map_map]
      exact groupBy_fst_sorted (fun r : AggRow => r.pointId) aggregated
  · intro k
    unfold reduceObservations
    split_ifs with h
    · rw [List.isEmpty_iff] at h; subst h; simp
    · rw [List.map_map, List.mem_map]
      constructor
      · rintro ⟨⟨k', g⟩, hkg, rfl⟩
        exact (mem_groupBy.mp hkg).1
      · intro hk
        exact ⟨(k, aggregated.filter fun a => a.pointId = k), mem_groupBy.mpr ⟨hk, rfl⟩, rfl⟩
  · intro s hs
    unfold reduceObservations at hs
    split_ifs at hs with h
    · simp at hs
    · obtain ⟨⟨k, g⟩, hkg, rfl⟩ := List.mem_map.mp hs
      obtain ⟨⟨r, hr, hrk⟩, hg⟩ := mem_groupBy.mp hkg
      simp only
      rw [← hg]
      have hne : g ≠ [] := by
        rw [hg]
        exact List.ne_nil_of_mem (List.mem_filter.mpr ⟨hr, by simpa using hrk⟩)
      have eacc : (g.map fun r => nsToSeconds r.access) = (g.map (·.access)).map nsToSeconds := by
        rw [List.map_map]; rfl
      have erev : (g.map fun r => r.revisit.map nsToSeconds).filterMap id =
          (g.filterMap (·.revisit)).map nsToSeconds := by
        have := filterMap_map_ns (g.map (·.revisit))
        rw [List.map_map] at this
        rw [show (g.map fun r : AggRow => r.revisit.map nsToSeconds) =
          g.map ((fun r : Option Int => r.map nsToSeconds) ∘ fun r => r.revisit) from rfl, this]
        congr 1
        rw [List.filterMap_map]; rfl
      refine ⟨sum_map_one g, ?_, ?_, ?_, ?_, ?_⟩
      · rw [sum_map_one]; exact List.length_pos_iff.mpr hne
      · rw [eacc]
        have := timedelta_close (g.map (·.access))
        rw [List.map_map (g := fun x : Int => (x : ℚ)), List.length_map] at this
        exact this
      · intro a b hab
        rw [eacc]
        apply timedelta_bounds _ (by simpa using hne)
        · intro x hx
          obtain ⟨r, hr, rfl⟩ := List.mem_map.mp hx
          exact (hab r hr).1
        · intro x hx
          obtain ⟨r, hr, rfl⟩ := List.mem_map.mp hx
          exact (hab r hr).2
      · unfold nanmean
        simp only
        rw [erev]
        split_ifs with he
        · rw [List.isEmpty_iff, List.map_eq_nil_iff] at he
          simp [he]
        · rw [List.isEmpty_iff, List.map_eq_nil_iff] at he
          simp [he]
      · intro v hv
        unfold nanmean at hv
        simp only at hv
        rw [erev] at hv
        split_ifs at hv with he
        · simp at hv
        · rw [List.isEmpty_iff, List.map_eq_nil_iff] at he
          simp only [Option.map_some, Option.some.injEq] at hv
          rw [← hv]
          refine ⟨timedelta_close _, ?_⟩
          intro a b hab
          exact timedelta_bounds _ he a b (fun x hx => (hab x hx).1) (fun x hx => (hab x hx).2)

/-- **C06, on aggregated frames.** After `aggregate_observations`, the revisit time of a point
is missing exactly when the point has a single sample. -/
theorem C06_revisit_missing_iff (sort : SortValues Obs.start) (obs : List Obs)
    (hwf : ∀ o ∈ obs, o.start ≤ o.end_) :
    ∀ s ∈ reduceObservations (aggregateObservations sort obs), s.revisit = none ↔ s.samples = 1 := by
  intro s hs
  set rows := aggregateObservations sort obs with hrows
  obtain ⟨hcount, hpos, -, -, hnone, -⟩ := (C06_reduce rows).2.2.2 s hs
  rw [hnone, hcount]
  rw [hcount] at hpos
  obtain ⟨-, hfirst, hnext, -⟩ := C03_access_revisit sort obs hwf
  rw [← hrows] at hfirst hnext
  have hsorted : rows.Pairwise (fun a b => a.pointId ≤ b.pointId) := by
    have := (C01_components sort obs hwf).separated
    rw [List.pairwise_map] at this
    refine this.imp ?_
    rintro a b (h | ⟨h, _⟩) <;> simp only at h
    · exact h.le
    · exact h.le
  generalize s.pointId = k at *
  clear hs hnone hcount hwf hrows
  -- the rows of the point form a block: pre ++ block ++ post
  have main : ∀ (l pre : List AggRow), rows = pre ++ l → (∀ p ∈ pre.getLast?, p.pointId ≠ k) →
      ((l.filter fun r => r.pointId = k).filterMap (·.revisit) = [] ↔
        (l.filter fun r => r.pointId = k).length ≤ 1) := by
    intro l
    induction l with
    | nil => simp
    | cons a t ih =>
      intro pre hpre hlast
      by_cases ha : a.pointId = k
      · have hrev : a.revisit = none := by
          rcases List.eq_nil_or_concat pre with rfl | ⟨pre', p, rfl⟩
          · exact hfirst a t hpre
          · have := hnext pre' p a t (by rw [hpre]; simp)
            apply this.1
            rw [ha]
            exact hlast p (by simp)
        rw [List.filter_cons_of_pos (by simpa using ha), List.filterMap_cons_none hrev,
          List.length_cons]
        cases t with
        | nil => simp
        | cons b t =>
          by_cases hb : b.pointId = k
          · have := (hnext pre a b t hpre).2 (by rw [ha, hb])
            obtain ⟨v, hv, -, -⟩ := this
            rw [List.filter_cons_of_pos (by simpa using hb), List.filterMap_cons_some hv]
            simp
          · have hnil : (b :: t).filter (fun r => decide (r.pointId = k)) = [] := by
              rw [List.filter_eq_nil_iff]
              intro c hc
              simp only [decide_eq_true_eq]
              have h1 := hsorted
              rw [hpre, List.pairwise_append] at h1
              have h2 := List.pairwise_cons.mp h1.2.1
              have h3 := h2.1 b List.mem_cons_self
              have h4 : b.pointId ≤ c.pointId := by
                rcases List.mem_cons.mp hc with rfl | hc
                · exact le_refl _
                · exact (List.pairwise_cons.mp h2.2).1 c hc
              omega
            rw [hnil]; simp
      · rw [List.filter_cons_of_neg (by simpa using ha)]
        exact ih (pre ++ [a]) (by rw [hpre]; simp) (by simpa using ha)
  have := main rows [] rfl (by simp)
  rw [this]
  omega

example : ∀ s ∈ reduceObservations (aggregateObservations (SortValues.insertion _) sampleObs),
    s.revisit = none ↔ s.samples = 1 :=
  C06_revisit_missing_iff (SortValues.insertion _) sampleObs sampleObs_wf

example : (reduceObservations (aggregateObservations (SortValues.insertion _)
    [⟨1, "A", "i", 0, 0, 2000⟩, ⟨1, "A", "i", 5000, 0, 9000⟩, ⟨3, "A", "i", 0, 0, 1⟩])).map
    (fun s => (s.pointId, s.access, s.revisit, s.samples)) =
    [(1, 3, some 3, 2), (3, 0, none, 1)] := by decide +kernel

end Tatc.Props
