import Verif.Model.Latency
import Verif.Props.Reduce

/-!
# C12–C15: latency
-/

namespace Tatc.Props
open Tatc.Pandas Tatc.Coverage Tatc.Latency

/-- A downlink an observation may use: same satellite, starting at or after its end. -/
def Eligible (o : Obs) (d : Downlink) : Prop := d.satellite = o.satellite ∧ o.end_ ≤ d.start

/-- `d` is an earliest eligible downlink of `o` in the frame. -/
def Earliest (downlinks : List Downlink) (o : Obs) (d : Downlink) : Prop :=
  d ∈ downlinks ∧ Eligible o d ∧ ∀ d' ∈ downlinks, Eligible o d' → d.start ≤ d'.start

/-- The row reports downlink `d`. -/
def Reports (row : LatRow) (d : Downlink) : Prop :=
  row.station = some d.station ∧ row.downlinked = some d.epoch

/-- The row reports no downlink. -/
def Missing (row : LatRow) : Prop :=
  row.station = none ∧ row.downlinked = none ∧ row.latency = none

/-- What C12 says about one row. -/
def DeliveredRight (downlinks : List Downlink) (row : LatRow) : Prop :=
  ((∃ d ∈ downlinks, Eligible row.obs d) → ∃ d, Earliest downlinks row.obs d ∧ Reports row d) ∧
  ((¬ ∃ d ∈ downlinks, Eligible row.obs d) → Missing row)

theorem asofForward_some {sort : SortValues Downlink.start} {downlinks : List Downlink} {o : Obs}
    {d : Downlink} (h : asofForward (sort.run downlinks) o = some d) : Earliest downlinks o d := by
  unfold asofForward at h
  obtain ⟨hp, as, bs, he, hnot⟩ := List.find?_eq_some_iff_append.mp h
  simp only [Bool.and_eq_true, decide_eq_true_eq] at hp
  have hmem : ∀ x, x ∈ sort.run downlinks ↔ x ∈ downlinks := fun x => (sort.perm downlinks).mem_iff
  refine ⟨(hmem d).mp (by rw [he]; simp), hp, ?_⟩
  intro d' hd' hel
  have hs := sort.sorted downlinks
  rw [he] at hs
  have := (hmem d').mpr hd'
  rw [he] at this
  rcases List.mem_append.mp this with h1 | h1
  · have := hnot d' h1
    simp only [Bool.not_eq_true', Bool.and_eq_false_iff, decide_eq_false_iff_not] at this
    rcases this with h2 | h2
    · exact absurd hel.1 h2
    · exact absurd hel.2 h2
  · rcases List.mem_cons.mp h1 with rfl | h1
    · exact le_refl _
    · exact (List.pairwise_cons.mp (List.pairwise_append.mp hs).2.1).1 d' h1

theorem asofForward_none {sort : SortValues Downlink.start} {downlinks : List Downlink} {o : Obs}
    (h : asofForward (sort.run downlinks) o = none) : ¬ ∃ d ∈ downlinks, Eligible o d := by
  unfold asofForward at h
  rw [List.find?_eq_none] at h
  rintro ⟨d, hd, he⟩
  have := h d ((sort.perm downlinks).mem_iff.mpr hd)
  simp [he.1, he.2] at this

variable (sortEnd : SortValues Obs.end_) (sortStart : SortValues Downlink.start)
  (sortObserved : SortValues LatRow.observed)

theorem mem_computeLatencies {observations : List Obs} {downlinks : List Downlink} {row : LatRow}
    (h : row ∈ computeLatencies sortEnd sortStart sortObserved observations downlinks) :
    ∃ o ∈ observations, row = latencyRow (sortStart.run downlinks) o := by
  unfold computeLatencies at h
  split_ifs at h
  · simp at h
  · rw [(sortObserved.perm _).mem_iff, List.mem_map] at h
    obtain ⟨o, ho, rfl⟩ := h
    exact ⟨o, (sortEnd.perm _).mem_iff.mp ho, rfl⟩

/-- **C12** (partial: some downlink exists).  One row per observation, and each row reports an
earliest eligible downlink, or nothing when there is none. -/
theorem C12_earliest_downlink_partial (observations : List Obs) (downlinks : List Downlink)
    (hne : downlinks ≠ []) :
    ((computeLatencies sortEnd sortStart sortObserved observations downlinks).map
      (·.obs)).Perm observations ∧
    ∀ row ∈ computeLatencies sortEnd sortStart sortObserved observations downlinks,
      DeliveredRight downlinks row := by
  constructor
  · unfold computeLatencies
    split_ifs with h
    · rw [Bool.or_eq_true, List.isEmpty_iff, List.isEmpty_iff] at h
      rcases h with h | h
      · subst h; simp
      · exact absurd h hne
    · refine ((sortObserved.perm _).map _).trans ?_
      rw [List.map_map]
      have : (LatRow.obs ∘ latencyRow (sortStart.run downlinks)) = id := rfl
      rw [this, List.map_id]
      exact sortEnd.perm _
  · intro row hrow
    obtain ⟨o, ho, rfl⟩ := mem_computeLatencies sortEnd sortStart sortObserved hrow
    cases hd : asofForward (sortStart.run downlinks) o with
    | none =>
      have hno := asofForward_none hd
      refine ⟨fun h => absurd h hno, fun _ => ?_⟩
      simp [Missing, latencyRow, hd]
    | some d =>
      have he := asofForward_some hd
      refine ⟨fun _ => ⟨d, he, by simp [Reports, latencyRow, hd]⟩, fun h => absurd ⟨d, he.1, he.2.1⟩ h⟩

/-- **C12 is false for an empty downlink frame**: the observations disappear from the result. -/
theorem C12_earliest_downlink_false :
    ¬ ∀ (observations : List Obs) (downlinks : List Downlink),
      ((computeLatencies sortEnd sortStart sortObserved observations downlinks).map
        (·.obs)).Perm observations := by
  intro h
  have := (h [⟨1, "s", "i", 0, 1, 2⟩] []).length_eq
  simp [computeLatencies] at this

/-- **C13.** Latency is downlinked minus observed, present exactly with the downlink, never
negative when epochs lie within their intervals, and rows are ordered by observed time. -/
theorem C13_latency (observations : List Obs) (downlinks : List Downlink) :
    (∀ row ∈ computeLatencies sortEnd sortStart sortObserved observations downlinks,
      row.observed = row.obs.epoch ∧
      row.latency = row.downlinked.map (· - row.observed)) ∧
    ((∀ o ∈ observations, o.epoch ≤ o.end_) → (∀ d ∈ downlinks, (d.start : ℚ) ≤ d.epoch) →
      ∀ row ∈ computeLatencies sortEnd sortStart sortObserved observations downlinks,
        ∀ l, row.latency = some l → 0 ≤ l) ∧
    (computeLatencies sortEnd sortStart sortObserved observations downlinks).Pairwise
      (fun a b => a.observed ≤ b.observed) := by
  refine ⟨?_, ?_, ?_⟩
  · intro row hrow
    obtain ⟨o, ho, rfl⟩ := mem_computeLatencies sortEnd sortStart sortObserved hrow
    refine ⟨rfl, ?_⟩
    simp only [latencyRow, Option.map_map]
    rfl
  · intro ho hd row hrow l hl
    obtain ⟨o, hoo, rfl⟩ := mem_computeLatencies sortEnd sortStart sortObserved hrow
    simp only [latencyRow] at hl
    cases he : asofForward (sortStart.run downlinks) o with
    | none => simp [he] at hl
    | some d =>
      rw [he] at hl
      simp only [Option.map_some, Option.some.injEq] at hl
      have h1 := asofForward_some he
      have h2 := hd d h1.1
      have h3 := ho o hoo
      have h4 : ((o.end_ : Int) : ℚ) ≤ (d.start : ℚ) := by exact_mod_cast h1.2.1.2
      rw [← hl]
      linarith
  · unfold computeLatencies
    split_ifs
    · simp
    · exact sortObserved.sorted _

/-- **C14.** Adding downlink opportunities: a delivered observation stays delivered, and the
start of its downlink does not move later. -/
theorem C14_monotone (observations : List Obs) (downlinks more : List Downlink)
    (hsub : ∀ d ∈ downlinks, d ∈ more) (row row' : LatRow)
    (hrow : row ∈ computeLatencies sortEnd sortStart sortObserved observations downlinks)
    (hrow' : row' ∈ computeLatencies sortEnd sortStart sortObserved observations more)
    (hobs : row.obs = row'.obs) (hdel : row.downlinked ≠ none) :
    row'.downlinked ≠ none ∧ row'.latency ≠ none ∧
    ∃ d d', Earliest downlinks row.obs d ∧ Reports row d ∧
      Earliest more row'.obs d' ∧ Reports row' d' ∧ d'.start ≤ d.start := by
  obtain ⟨o, ho, rfl⟩ := mem_computeLatencies sortEnd sortStart sortObserved hrow
  obtain ⟨o', ho', rfl⟩ := mem_computeLatencies sortEnd sortStart sortObserved hrow'
  have : o = o' := hobs
  subst this
  cases hd : asofForward (sortStart.run downlinks) o with
  | none => simp [latencyRow, hd] at hdel
  | some d =>
    have h1 := asofForward_some hd
    cases hd' : asofForward (sortStart.run more) o with
    | none => exact absurd ⟨d, hsub d h1.1, h1.2.1⟩ (asofForward_none hd')
    | some d' =>
      have h2 := asofForward_some hd'
      refine ⟨by simp [latencyRow, hd'], by simp [latencyRow, hd'], d, d', h1, ?_, h2, ?_,
        h2.2.2 d (hsub d h1.1) h1.2.1⟩
      · simp [Reports, latencyRow, hd]
      · simp [Reports, latencyRow, hd']

/-- **C14, the reported latency itself is not monotone**: latency is measured to the middle of the
downlink pass, so an earlier but longer pass increases it. -/
theorem C14_latency_value_false :
    ¬ ∀ (observations : List Obs) (downlinks more : List Downlink),
      (∀ d ∈ downlinks, d ∈ more) → ∀ row row' : LatRow,
      row ∈ computeLatencies sortEnd sortStart sortObserved observations downlinks →
      row' ∈ computeLatencies sortEnd sortStart sortObserved observations more →
      row.obs = row'.obs → ∀ l l', row.latency = some l → row'.latency = some l' → l' ≤ l := by
  intro h
  let o : Obs := ⟨1, "s", "i", 0, 1, 2⟩
  let d : Downlink := ⟨"g", "s", 20, 21, 22⟩
  let e : Downlink := ⟨"f", "s", 10, 60, 110⟩
  obtain ⟨p1, q1⟩ := C12_earliest_downlink_partial sortEnd sortStart sortObserved [o] [d] (by simp)
  obtain ⟨p2, q2⟩ := C12_earliest_downlink_partial sortEnd sortStart sortObserved [o] [e, d] (by simp)
  have l1 := List.perm_singleton.mp p1
  have l2 := List.perm_singleton.mp p2
  obtain ⟨r1, hr1, er1⟩ := List.map_eq_singleton_iff.mp l1
  obtain ⟨r2, hr2, er2⟩ := List.map_eq_singleton_iff.mp l2
  have m1 : r1 ∈ computeLatencies sortEnd sortStart sortObserved [o] [d] := by rw [hr1]; simp
  have m2 : r2 ∈ computeLatencies sortEnd sortStart sortObserved [o] [e, d] := by rw [hr2]; simp
  obtain ⟨d1, hd1, rep1⟩ := (q1 r1 m1).1 ⟨d, by simp, by rw [er1]; exact ⟨rfl, by decide⟩⟩
  obtain ⟨d2, hd2, rep2⟩ := (q2 r2 m2).1 ⟨d, by simp, by rw [er2]; exact ⟨rfl, by decide⟩⟩
  have e1 : d1 = d := by simpa using hd1.1
  have e2 : d2 = e := by
    rcases List.mem_cons.mp hd2.1 with h | h
    · exact h
    · have hh : d2 = d := by simpa using h
      have := hd2.2.2 e (by simp) (by rw [er2]; exact ⟨rfl, by decide⟩)
      rw [hh] at this
      exact absurd this (by decide)
  obtain ⟨o1, lat1⟩ := (C13_latency sortEnd sortStart sortObserved [o] [d]).1 r1 m1
  obtain ⟨o2, lat2⟩ := (C13_latency sortEnd sortStart sortObserved [o] [e, d]).1 r2 m2
  rw [rep1.2, e1, o1, er1] at lat1
  rw [rep2.2, e2, o2, er2] at lat2
  have := h [o] [d] [e, d] (by simp) r1 r2 m1 m2 (by rw [er1, er2]) _ _ lat1 lat2
  simp only [o, d, e] at this
  norm_num at this

/-- Two satellites, a tie at the observation's end, and an observation without a downlink. -/
example : (computeLatencies (SortValues.insertion _) (SortValues.insertion _) (SortValues.insertion _)
    [⟨1, "a", "i", 0, 5, 10⟩, ⟨2, "b", "i", 0, 4, 9⟩, ⟨3, "a", "i", 50, 55, 60⟩]
    [⟨"g", "a", 10, 15, 20⟩, ⟨"h", "a", 9, 12, 15⟩, ⟨"k", "b", 30, 31, 32⟩]).map
      (fun r => (r.obs.pointId, r.station, r.latency)) =
    [(2, some "k", some 27), (1, some "g", some 10), (3, none, none)] := by decide +kernel

/-- The hypotheses of C14 are met: an earlier downlink is added for a delivered observation. -/
example : ∃ row row' : LatRow,
    row ∈ computeLatencies (SortValues.insertion _) (SortValues.insertion _) (SortValues.insertion _)
      [⟨1, "a", "i", 0, 5, 10⟩] [⟨"g", "a", 30, 35, 40⟩] ∧
    row' ∈ computeLatencies (SortValues.insertion _) (SortValues.insertion _) (SortValues.insertion _)
      [⟨1, "a", "i", 0, 5, 10⟩] [⟨"h", "a", 12, 13, 14⟩, ⟨"g", "a", 30, 35, 40⟩] ∧
    row.obs = row'.obs ∧ row.downlinked ≠ none :=
  ⟨latencyRow [⟨"g", "a", 30, 35, 40⟩] ⟨1, "a", "i", 0, 5, 10⟩,
    latencyRow [⟨"h", "a", 12, 13, 14⟩, ⟨"g", "a", 30, 35, 40⟩] ⟨1, "a", "i", 0, 5, 10⟩,
    by decide +kernel, by decide +kernel, rfl, by decide +kernel⟩

/-- **C15.** One row per point in increasing order, counting the point's observations, with the
mean of its present latencies to within half a microsecond, between the smallest and largest;
missing exactly when none is present. -/
theorem C15_reduce (rows : List LatRow) :
    ((reduceLatencies rows).map (·.pointId)).Pairwise (· < ·) ∧
    (∀ k : Int, k ∈ (reduceLatencies rows).map (·.pointId) ↔ ∃ r ∈ rows, r.obs.pointId = k) ∧
    ((reduceLatencies rows).map (·.samples)).sum = rows.length ∧
    (∀ s ∈ reduceLatencies rows,
      let own := rows.filter fun r => r.obs.pointId = s.pointId
      let present := own.filterMap (·.latency)
      s.samples = own.length ∧ 0 < s.samples ∧
      (s.latency = none ↔ present = []) ∧
      (∀ v, s.latency = some v →
        |(v : ℚ) * 1000 - present.sum / present.length| ≤ 500 ∧
        (∀ a b : Int, (∀ x ∈ present, 1000 * a ≤ x ∧ x ≤ 1000 * b) → a ≤ v ∧ v ≤ b))) := by
  refine ⟨?_, ?_, ?_, ?_⟩
  · unfold reduceLatencies
    split_ifs with h
    · simp
    · rw [List.map_map]
      exact groupBy_fst_sorted (fun r : LatRow => r.obs.pointId) rows
  · intro k
    unfold reduceLatencies
    split_ifs with h
    · rw [List.isEmpty_iff] at h; subst h; simp
    · rw [List.map_map, List.mem_map]
      constructor
      · rintro ⟨⟨k', g⟩, hkg, rfl⟩
        exact (mem_groupBy.mp hkg).1
      · intro hk
        exact ⟨(k, rows.filter fun a => a.obs.pointId = k), mem_groupBy.mpr ⟨hk, rfl⟩, rfl⟩
  · unfold reduceLatencies
    split_ifs with h
    · rw [List.isEmpty_iff] at h; subst h; rfl
    · rw [List.map_map]
      have hp := (groupBy_flatMap_perm (fun r : LatRow => r.obs.pointId) rows).length_eq
      rw [← hp, List.length_flatMap]
      congr 1
      apply List.map_congr_left
      intro kg _
      simp
  · intro s hs
    unfold reduceLatencies at hs
    split_ifs at hs with h
    · simp at hs
    · obtain ⟨⟨k, g⟩, hkg, rfl⟩ := List.mem_map.mp hs
      obtain ⟨⟨r, hr, hrk⟩, hg⟩ := mem_groupBy.mp hkg
      simp only
      rw [← hg]
      have hne : g ≠ [] := by
        rw [hg]
        exact List.ne_nil_of_mem (List.mem_filter.mpr ⟨hr, by simpa using hrk⟩)
      have erev : (g.map fun r => r.latency.map (· / 1000000000)).filterMap id =
          (g.filterMap (·.latency)).map (· / 1000000000) := by
        clear hkg hg hne hs
        induction g with
        | nil => rfl
        | cons a t ih =>
          cases ha : a.latency with
          | none => simpa [ha] using ih
          | some v => simpa [ha] using ih
      refine ⟨sum_map_one g, ?_, ?_, ?_⟩
      · rw [sum_map_one]; exact List.length_pos_iff.mpr hne
      · unfold nanmean
        simp only
        rw [erev]
        split_ifs with he
        · rw [List.isEmpty_iff, List.map_eq_nil_iff] at he
          simp [he]
        · rw [List.isEmpty_iff, List.map_eq_nil_iff] at he
          simp [he]
      · intro v hv
        unfold nanmean at hv
        simp only at hv
        rw [erev] at hv
        split_ifs at hv with he
        · simp at hv
        · rw [List.isEmpty_iff, List.map_eq_nil_iff] at he
          simp only [Option.map_some, Option.some.injEq] at hv
          rw [mean_scale] at hv
          generalize g.filterMap (·.latency) = p at *
          rw [← hv]
          have e : p.sum / p.length = mean p := rfl
          rw [e]
          unfold timedeltaSeconds
          constructor
          · have h := abs_roundHalfEven_sub_le (mean p / 1000000000 * 1000000)
            rw [abs_le] at h ⊢
            constructor <;> linarith [h.1, h.2]
          · intro a b hab
            have hm := mean_bounds he (a := 1000 * a) (b := 1000 * b)
              (fun x hx => (hab x hx).1) (fun x hx => (hab x hx).2)
            exact ⟨le_roundHalfEven (by linarith [hm.1]), roundHalfEven_le (by linarith [hm.2])⟩

example : (reduceLatencies (computeLatencies (SortValues.insertion _) (SortValues.insertion _)
    (SortValues.insertion _)
    [⟨1, "a", "i", 0, 5000, 10000⟩, ⟨1, "a", "i", 20000, 25000, 30000⟩, ⟨3, "c", "i", 50, 55, 60⟩]
    [⟨"g", "a", 10000, 15000, 20000⟩])).map (fun s => (s.pointId, s.latency, s.samples)) =
    [(1, some 10, 2), (3, none, 1)] := by decide +kernel

end Tatc.Props

namespace Tatc.Props
open Tatc.Pandas Tatc.Coverage Tatc.Latency

/-- **C73.** The downlink opportunities of a satellite are exactly the visible intervals, of every
station, that last at least that station's minimum access time: each gives one row with the
interval's ends and its middle as epoch, rows are ordered by start, and there are no others. -/
theorem C73_downlinks (sort : SortValues Downlink.start) (satellite : String)
    (stations : List (Station × List Interval)) :
    (collectDownlinks sort satellite stations).Pairwise (fun a b => a.start ≤ b.start) ∧
    ∃ source : List (Station × Interval),
      source.Perm (stations.flatMap fun sp =>
        (sp.2.filter fun p => decide (1000 * sp.1.minAccess ≤ p.right - p.left)).map fun p => (sp.1, p)) ∧
      List.Forall₂ (fun (sp : Station × Interval) (d : Downlink) => d.station = sp.1.name ∧ d.satellite = satellite ∧
          d.start = sp.2.left ∧ d.end_ = sp.2.right ∧
          ((2 : ℚ) * d.epoch = sp.2.left + sp.2.right ∨ (2 : ℚ) * d.epoch + 1 = sp.2.left + sp.2.right))
        source (collectDownlinks sort satellite stations) := by
  let mk : Station × Interval → Downlink := fun sp =>
    { station := sp.1.name, satellite := satellite, start := sp.2.left, epoch := sp.2.mid,
      end_ := sp.2.right }
  let src := stations.flatMap fun sp =>
    (sp.2.filter fun p => decide (1000 * sp.1.minAccess ≤ p.right - p.left)).map fun p => (sp.1, p)
  have hrec : collectDownlinks sort satellite stations =
      if (src.map mk).length > 0 then sort.run (src.map mk) else [] := by
    have : src.map mk = stations.flatMap fun sp =>
        (sp.2.filter fun p => decide (1000 * sp.1.minAccess ≤ p.right - p.left)).map fun p =>
          { station := sp.1.name, satellite := satellite, start := p.left, epoch := p.mid,
            end_ := p.right } := by
      simp only [src, List.map_flatMap, List.map_map]
      rfl
    rw [this]
    rfl
  have hmk : ∀ sp : Station × Interval, (mk sp).station = sp.1.name ∧ (mk sp).satellite = satellite ∧
      (mk sp).start = sp.2.left ∧ (mk sp).end_ = sp.2.right ∧
      (2 * (mk sp).epoch = sp.2.left + sp.2.right ∨
        2 * (mk sp).epoch + 1 = sp.2.left + sp.2.right) := by
    intro sp
    refine ⟨rfl, rfl, rfl, rfl, ?_⟩
    have : 2 * sp.2.mid = sp.2.left + sp.2.right ∨ 2 * sp.2.mid + 1 = sp.2.left + sp.2.right := by
      unfold Interval.mid; omega
    show 2 * ((sp.2.mid : Int) : ℚ) = _ ∨ 2 * ((sp.2.mid : Int) : ℚ) + 1 = _
    exact_mod_cast this
  rw [hrec]
  split_ifs with h
  · refine ⟨sort.sorted _, ?_⟩
    have hp : (sort.run (src.map mk)).Perm (src.map mk) := sort.perm _
    obtain ⟨source, hs, he⟩ : ∃ source : List (Station × Interval), source.Perm src ∧
        source.map mk = sort.run (src.map mk) := by
      have h0 : List.Forall₂ (fun d a => d = mk a) (src.map mk) src := by
        generalize src = l
        induction l with
        | nil => exact List.Forall₂.nil
        | cons a t ih => exact List.Forall₂.cons rfl ih
      obtain ⟨v, h1, h2⟩ := List.perm_comp_forall₂ hp h0
      refine ⟨v, h2, ?_⟩
      clear h2 h0 hp
      generalize sort.run (src.map mk) = l at h1
      induction h1 with
      | nil => rfl
      | cons h _ ih => rw [List.map_cons, ih, h]
    refine ⟨source, hs, ?_⟩
    rw [← he]
    clear he hs
    induction source with
    | nil => exact List.Forall₂.nil
    | cons a t ih => exact List.Forall₂.cons (hmk a) ih
  · have : src = [] := by
      rw [← List.length_eq_zero_iff]
      rw [List.length_map] at h
      omega
    refine ⟨by simp, [], ?_, List.Forall₂.nil⟩
    show [].Perm src
    rw [this]

example : collectDownlinks (SortValues.insertion _) "s"
    [(⟨"g", 10⟩, [⟨50000, 60000⟩, ⟨70000, 79999⟩]), (⟨"h", 0⟩, [⟨0, 3⟩])] =
    [⟨"h", "s", 0, 1, 3⟩, ⟨"g", "s", 50000, 55000, 60000⟩] := by decide +kernel

end Tatc.Props
