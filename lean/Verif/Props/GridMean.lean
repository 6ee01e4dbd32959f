import Verif.Props.Grid

/-!
# C155: what gridding gives when it gives a result

`C07` says what the documentation promises and shows where the code departs from it.  Here is what holds of every frame
that `grid_observations` and `grid_latencies` do return: which cells have a row, that samples are neither lost nor
duplicated, and that each value lies between the smallest and the largest of its points.
-/

namespace Tatc.Props
open Tatc Tatc.Pandas Tatc.Coverage Tatc.Grid

open Classical in
/-- The plain mean of a column over points, in microseconds; missing if a value is missing. -/
noncomputable def plainMean (pts : List Reduced) (i : Nat) : Option ℚ :=
  if ∀ p ∈ pts, ∃ v, p.values[i]? = some (some v) then some ((pts.map (colValue i)).sum / pts.length) else none

theorem gridRow_ok (ncols : Nat) {reduced : List Reduced} {c : Cell} {pts : List Reduced} (hne : pts ≠ [])
    (hpos : ∀ r ∈ reduced, 0 < r.samples) (hl : c.label < reduced.length) :
    gridRow ncols reduced c.cellId (pts.map fun r => (c, r)) =
      .ok ⟨c.cellId, (pts.map (·.samples)).sum,
        (List.range ncols).map fun i => (plainMean pts i).map roundHalfEven⟩ := by
  classical
  have hlab : (((pts.map fun r => (c, r)).map fun cr => cr.1.label)) = pts.map fun _ => c.label := by
    rw [List.map_map]; rfl
  have hloc : locSamples reduced (pts.map fun _ => c.label) =
      .ok (pts.map fun _ => (reduced[c.label]'hl).samples) := by
    rw [locSamples_ok _ _ (by
      intro l hl'
      obtain ⟨x, _, rfl⟩ := List.mem_map.mp hl'
      exact hl), List.map_map]
    congr 1
    apply List.map_congr_left
    intro x _
    simp [List.getElem?_eq_getElem hl]
  set w0 := (reduced[c.label]'hl).samples with hw0
  have hw0pos : 0 < w0 := hpos _ (List.getElem_mem hl)
  have hw0q : (0 : ℚ) < w0 := by exact_mod_cast hw0pos
  have hlen : (0 : ℚ) < pts.length := by
    exact_mod_cast List.length_pos_iff.mpr hne
  have htot : ((pts.map fun _ => w0).map fun w : Nat => (w : ℚ)).sum = pts.length * w0 := by
    clear hlab hloc hlen hne
    induction pts with
    | nil => simp
    | cons a t ih =>
      rw [List.map_cons, List.map_cons, List.sum_cons, ih, List.length_cons]
      push_cast
      ring
  have hzip : ∀ (vals : Reduced → Option ℚ),
      (List.zipWith (fun v (w : Nat) => v.getD 0 * (w : ℚ)) (pts.map vals) (pts.map fun _ => w0)).sum =
        (pts.map fun p => (vals p).getD 0).sum * w0 := by
    intro vals
    clear hlab hloc hlen hne htot
    induction pts with
    | nil => simp
    | cons a t ih =>
      simp only [List.map_cons, List.zipWith_cons_cons, List.sum_cons, ih]
      ring
  have hs : ∀ i, (pts.map fun p => ((((p.values[i]?).join).map usToSeconds).getD 0)).sum =
      (pts.map (colValue i)).sum / 1000000 := by
    intro i
    clear hlab hloc hlen hne htot hzip
    induction pts with
    | nil => simp
    | cons a t ih =>
      rw [List.map_cons, List.map_cons, List.sum_cons, List.sum_cons, ih]
      unfold colValue
      cases (a.values[i]?).join <;> simp [usToSeconds]
      ring
  have hcol : ∀ i, (do
      let w ← locSamples reduced ((pts.map fun r => (c, r)).map fun cr => cr.1.label)
      let a ← npAverage ((pts.map fun r => (c, r)).map fun cr => ((cr.2.values[i]?).join).map usToSeconds) w
      return a.map timedeltaSeconds : Except PyErr (Option Int)) = .ok ((plainMean pts i).map roundHalfEven) := by
    intro i
    rw [hlab, hloc, List.map_map]
    show (do
      let a ← npAverage (pts.map fun p => ((p.values[i]?).join).map usToSeconds) (pts.map fun _ => w0)
      return a.map timedeltaSeconds : Except PyErr (Option Int)) = _
    unfold npAverage
    simp only
    rw [htot, if_neg (by positivity)]
    have hiff : ((pts.map fun p => ((p.values[i]?).join).map usToSeconds).all Option.isSome = true) ↔
        ∀ p ∈ pts, ∃ v, p.values[i]? = some (some v) := by
      rw [List.all_eq_true]
      constructor
      · intro h p hp
        have := h _ (List.mem_map_of_mem hp)
        cases hv : p.values[i]? with
        | none => simp [hv] at this
        | some x => cases x with
          | none => simp [hv] at this
          | some v => exact ⟨v, rfl⟩
      · intro h x hx
        obtain ⟨p, hp, rfl⟩ := List.mem_map.mp hx
        obtain ⟨v, hv⟩ := h p hp
        simp [hv]
    unfold plainMean
    by_cases hall : ∀ p ∈ pts, ∃ v, p.values[i]? = some (some v)
    · rw [if_pos (hiff.mpr hall), if_pos hall, hzip fun p => ((p.values[i]?).join).map usToSeconds]
      show Except.ok (some (timedeltaSeconds _)) = Except.ok (some (roundHalfEven _))
      rw [mul_div_mul_right _ _ hw0q.ne', hs]
      unfold timedeltaSeconds
      congr 3
      ring
    · rw [if_neg (fun h => hall (hiff.mp h)), if_neg hall]
      rfl
  unfold gridRow
  rw [mapM_ok _ (fun i => (plainMean pts i).map roundHalfEven) _ (fun i _ => hcol i)]
  show Except.ok _ = _
  congr 2
  rw [List.map_map]; rfl

/-- The mean of integers between two integers rounds to a number between them. -/
theorem round_mean_between {pts : List Reduced} (hne : pts ≠ []) (i : Nat) (lo hi : Int)
    (h : ∀ p ∈ pts, (lo : ℚ) ≤ colValue i p ∧ colValue i p ≤ hi) :
    lo ≤ roundHalfEven ((pts.map (colValue i)).sum / pts.length) ∧
      roundHalfEven ((pts.map (colValue i)).sum / pts.length) ≤ hi := by
  have hlen : (0 : ℚ) < pts.length := by exact_mod_cast List.length_pos_iff.mpr hne
  have hsum : (lo : ℚ) * pts.length ≤ (pts.map (colValue i)).sum ∧ (pts.map (colValue i)).sum ≤ hi * pts.length := by
    clear hne hlen
    induction pts with
    | nil => simp
    | cons a t ih =>
      have h1 := h a List.mem_cons_self
      have h2 := ih fun p hp => h p (List.mem_cons_of_mem _ hp)
      simp only [List.map_cons, List.sum_cons, List.length_cons]
      push_cast
      constructor <;> linarith [h1.1, h1.2, h2.1, h2.2]
  set m := (pts.map (colValue i)).sum / pts.length with hm
  have h1 : (lo : ℚ) ≤ m := by rw [hm, le_div_iff₀ hlen]; exact hsum.1
  have h2 : m ≤ (hi : ℚ) := by rw [hm, div_le_iff₀ hlen]; exact hsum.2
  have hr := abs_le.mp (abs_roundHalfEven_sub_le m)
  constructor
  · by_contra hlt
    push Not at hlt
    have : (roundHalfEven m : ℚ) + 1 ≤ lo := by exact_mod_cast hlt
    linarith [hr.1]
  · by_contra hlt
    push Not at hlt
    have : (hi : ℚ) + 1 ≤ roundHalfEven m := by exact_mod_cast hlt
    linarith [hr.2]

/-- What gridding returns, in one equation. -/
theorem gridReduced_ok (ncols : Nat) (contains : Cell → Reduced → Bool) (reduced : List Reduced) (cells : List Cell)
    (hred : reduced ≠ []) (hnd : (cells.map (·.cellId)).Nodup) (hpos : ∀ r ∈ reduced, 0 < r.samples)
    (hlabel : ∀ c ∈ cells, pointsIn contains reduced c ≠ [] → c.label < reduced.length) :
    gridReduced ncols contains reduced cells =
      .ok ((groupBy (fun cr : Cell × Reduced => cr.1.cellId) (sjoin contains cells reduced)).map fun kg =>
        ⟨kg.1, ((kg.2.map Prod.snd).map (·.samples)).sum,
          (List.range ncols).map fun i => (plainMean (kg.2.map Prod.snd) i).map roundHalfEven⟩) := by
  unfold gridReduced
  rw [if_neg (by simpa using hred)]
  apply mapM_ok
  rintro ⟨k, g⟩ hkg
  obtain ⟨⟨⟨c, r⟩, hcr, hk⟩, hg⟩ := mem_groupBy.mp hkg
  obtain ⟨hc, hr, hcon⟩ := mem_sjoin.mp hcr
  have hne : pointsIn contains reduced c ≠ [] := List.ne_nil_of_mem (List.mem_filter.mpr ⟨hr, hcon⟩)
  have hg' : g = (pointsIn contains reduced c).map fun r => (c, r) := by
    rw [hg, ← hk]; exact sjoin_filter_cell hnd hc
  simp only at hk
  subst hk
  rw [hg', gridRow_ok ncols hne hpos (hlabel c hc hne)]
  simp only [List.map_map, Function.comp_def, List.map_id']

/-- **C155, whether there is a result.** Gridding returns a frame exactly if every cell that contains a reduced point has
an index label that the reduced frame has. -/
theorem C155_returns (ncols : Nat) (hn : 0 < ncols) (contains : Cell → Reduced → Bool) (reduced : List Reduced)
    (cells : List Cell) (hnd : (cells.map (·.cellId)).Nodup) (hpos : ∀ r ∈ reduced, 0 < r.samples) :
    (∃ rows, gridReduced ncols contains reduced cells = .ok rows) ↔
      ∀ c ∈ cells, (∃ p ∈ reduced, contains c p = true) → c.label < reduced.length := by
  constructor
  · rintro ⟨rows, h⟩ c hc ⟨p, hp, hcp⟩
    by_contra hlt
    push Not at hlt
    rw [C07_key_error ncols hn contains reduced cells hpos c hc p hp hcp hlt] at h
    exact absurd h (by simp)
  · intro h
    by_cases hred : reduced = []
    · subst hred; exact ⟨_, rfl⟩
    · exact ⟨_, gridReduced_ok ncols contains reduced cells hred hnd hpos fun c hc hne => by
        obtain ⟨p, hp⟩ := List.exists_mem_of_ne_nil _ hne
        obtain ⟨h1, h2⟩ := List.mem_filter.mp hp
        exact h c hc ⟨p, h1, h2⟩⟩

/-- **C155, the rows.** Of the frame that gridding a non-empty reduced frame returns: rows come in order of cell
identifiers, there is one for each cell that contains a point and no other, its samples are those of the points in the
cell, and each of its values is missing if and only if that of one of these points is and lies otherwise between the
smallest and the largest of theirs. -/
theorem C155_rows (ncols : Nat) (hn : 0 < ncols) (contains : Cell → Reduced → Bool) (reduced : List Reduced)
    (cells : List Cell) (hred : reduced ≠ []) (hnd : (cells.map (·.cellId)).Nodup)
    (hpos : ∀ r ∈ reduced, 0 < r.samples) (rows : List GridRow)
    (h : gridReduced ncols contains reduced cells = .ok rows) :
    (rows.map (·.cellId)).Pairwise (· < ·) ∧
    (∀ k, k ∈ rows.map (·.cellId) ↔ ∃ c ∈ cells, c.cellId = k ∧ ∃ p ∈ reduced, contains c p = true) ∧
    ∀ row ∈ rows, ∀ c ∈ cells, c.cellId = row.cellId →
      row.samples = ((reduced.filter (contains c)).map (·.samples)).sum ∧
      row.values.length = ncols ∧
      ∀ i < ncols,
        (row.values[i]? = some none ↔ ∃ p ∈ reduced, contains c p = true ∧ ∀ v, p.values[i]? ≠ some (some v)) ∧
        ∀ a, row.values[i]? = some (some a) →
          (∃ p ∈ reduced, contains c p = true ∧ ∃ v ≤ a, p.values[i]? = some (some v)) ∧
          (∃ p ∈ reduced, contains c p = true ∧ ∃ v ≥ a, p.values[i]? = some (some v)) := by
  have hlabel := (C155_returns ncols hn contains reduced cells hnd hpos).mp ⟨rows, h⟩
  rw [gridReduced_ok ncols contains reduced cells hred hnd hpos fun c hc hne => by
        obtain ⟨p, hp⟩ := List.exists_mem_of_ne_nil _ hne
        obtain ⟨h1, h2⟩ := List.mem_filter.mp hp
        exact hlabel c hc ⟨p, h1, h2⟩] at h
  rw [Except.ok.injEq] at h
  subst h
  refine ⟨?_, ?_, ?_⟩
  · rw [List.map_map]
    exact groupBy_fst_sorted _ _
  · intro k
    rw [List.map_map]
    constructor
    · intro hk
      obtain ⟨⟨k', g⟩, hkg, rfl⟩ := List.mem_map.mp hk
      obtain ⟨⟨⟨c, r⟩, hcr, hk⟩, -⟩ := mem_groupBy.mp hkg
      obtain ⟨hc, hr, hcon⟩ := mem_sjoin.mp hcr
      exact ⟨c, hc, hk, r, hr, hcon⟩
    · rintro ⟨c, hc, rfl, p, hp, hcp⟩
      exact List.mem_map.mpr ⟨(c.cellId, _), mem_groupBy.mpr ⟨⟨(c, p), mem_sjoin.mpr ⟨hc, hp, hcp⟩, rfl⟩, rfl⟩, rfl⟩
  · intro row hrow c hc hck
    obtain ⟨⟨k, g⟩, hkg, rfl⟩ := List.mem_map.mp hrow
    simp only at hck
    subst hck
    obtain ⟨⟨⟨c', r⟩, hcr, hk⟩, hg⟩ := mem_groupBy.mp hkg
    obtain ⟨hc', hr, hcon⟩ := mem_sjoin.mp hcr
    simp only at hk
    have hcc : c' = c := List.inj_on_of_nodup_map hnd hc' hc hk
    subst hcc
    have hg' : g.map Prod.snd = pointsIn contains reduced c' := by
      rw [hg, sjoin_filter_cell hnd hc, List.map_map]
      simp [Function.comp_def]
    rw [hg']
    have hne : pointsIn contains reduced c' ≠ [] := List.ne_nil_of_mem (List.mem_filter.mpr ⟨hr, hcon⟩)
    have hmem : ∀ p, p ∈ pointsIn contains reduced c' ↔ p ∈ reduced ∧ contains c' p = true := fun p => List.mem_filter
    refine ⟨rfl, by simp, ?_⟩
    intro i hi
    simp only [List.getElem?_map, List.getElem?_range hi, Option.map_some, Option.some.injEq, Option.map_eq_none_iff]
    unfold plainMean
    constructor
    · constructor
      · intro hnone
        split_ifs at hnone with hall
        push Not at hall
        obtain ⟨p, hp, hv⟩ := hall
        exact ⟨p, ((hmem p).mp hp).1, ((hmem p).mp hp).2, hv⟩
      · rintro ⟨p, hp, hcp, hv⟩
        rw [if_neg]
        intro hall
        obtain ⟨v, hv'⟩ := hall p ((hmem p).mpr ⟨hp, hcp⟩)
        exact hv v hv'
    · intro a ha
      split_ifs at ha with hall
      · rw [Option.map_some, Option.some.injEq] at ha
        set pts := pointsIn contains reduced c' with hpts
        have hval : ∀ p ∈ pts, ∃ v : Int, p.values[i]? = some (some v) ∧ colValue i p = v := by
          intro p hp
          obtain ⟨v, hv⟩ := hall p hp
          exact ⟨v, hv, by simp [colValue, hv]⟩
        constructor
        · by_contra hcon'
          push Not at hcon'
          have := (round_mean_between hne i (a + 1) ((pts.map fun p => ⌈|colValue i p|⌉).sum) (by
            intro p hp
            obtain ⟨v, hv, e⟩ := hval p hp
            constructor
            · rw [e]
              have h1 : a < v := by
                by_contra hle
                push Not at hle
                exact hcon' p ((hmem p).mp hp).1 ((hmem p).mp hp).2 v hle hv
              exact_mod_cast h1
            · have h1 : ⌈|colValue i p|⌉ ≤ (pts.map fun p => ⌈|colValue i p|⌉).sum :=
                List.single_le_sum (fun x hx => by
                  obtain ⟨q, _, rfl⟩ := List.mem_map.mp hx
                  exact Int.ceil_nonneg (abs_nonneg _)) _ (List.mem_map_of_mem hp)
              have h2 : ((⌈|colValue i p|⌉ : Int) : ℚ) ≤ ((pts.map fun p => ⌈|colValue i p|⌉).sum : Int) := by
                exact_mod_cast h1
              linarith [Int.le_ceil |colValue i p|, le_abs_self (colValue i p)])).1
          rw [ha] at this
          omega
        · by_contra hcon'
          push Not at hcon'
          have := (round_mean_between hne i (-(pts.map fun p => ⌈|colValue i p|⌉).sum) (a - 1) (by
            intro p hp
            obtain ⟨v, hv, e⟩ := hval p hp
            constructor
            · have h1 : ⌈|colValue i p|⌉ ≤ (pts.map fun p => ⌈|colValue i p|⌉).sum :=
                List.single_le_sum (fun x hx => by
                  obtain ⟨q, _, rfl⟩ := List.mem_map.mp hx
                  exact Int.ceil_nonneg (abs_nonneg _)) _ (List.mem_map_of_mem hp)
              have h2 : ((⌈|colValue i p|⌉ : Int) : ℚ) ≤ ((pts.map fun p => ⌈|colValue i p|⌉).sum : Int) := by
                exact_mod_cast h1
              push_cast at h2 ⊢
              linarith [Int.le_ceil |colValue i p|, neg_abs_le (colValue i p)]
            · rw [e]
              have h1 : v < a := by
                by_contra hle
                push Not at hle
                exact hcon' p ((hmem p).mp hp).1 ((hmem p).mp hp).2 v hle hv
              have h3 : v ≤ a - 1 := by omega
              exact_mod_cast h3)).2
          rw [ha] at this
          omega
      · simp at ha

theorem sjoin_samples (contains : Cell → Reduced → Bool) (cells : List Cell) (reduced : List Reduced) :
    ((sjoin contains cells reduced).map fun cr => cr.2.samples).sum =
      (reduced.map fun p => p.samples * cells.countP fun c => contains c p).sum := by
  induction cells with
  | nil => simp [sjoin]
  | cons c t ih =>
    have e : sjoin contains (c :: t) reduced =
        ((reduced.filter (contains c)).map fun r => (c, r)) ++ sjoin contains t reduced := by simp [sjoin]
    rw [e, List.map_append, List.sum_append, ih, List.map_map]
    clear ih e
    induction reduced with
    | nil => simp
    | cons p r ih =>
      simp only [List.filter_cons, List.map_cons, List.sum_cons, List.countP_cons] at ih ⊢
      split_ifs with hc
      · simp only [List.map_cons, List.sum_cons, Function.comp_apply]
        rw [Nat.mul_add, Nat.mul_one]
        omega
      · rw [Nat.mul_add]
        omega

/-- **C155, samples.** The samples of the rows that gridding returns add up to those of the reduced points, each counted
once for every cell that contains it. -/
theorem C155_samples (ncols : Nat) (hn : 0 < ncols) (contains : Cell → Reduced → Bool) (reduced : List Reduced)
    (cells : List Cell) (hnd : (cells.map (·.cellId)).Nodup)
    (hpos : ∀ r ∈ reduced, 0 < r.samples) (rows : List GridRow)
    (h : gridReduced ncols contains reduced cells = .ok rows) :
    (rows.map (·.samples)).sum = (reduced.map fun p => p.samples * cells.countP fun c => contains c p).sum := by
  by_cases hred : reduced = []
  · subst hred
    have : gridReduced ncols contains [] cells =
      .ok (cells.map fun c => { cellId := c.cellId, samples := 0, values := List.replicate ncols none }) := rfl
    rw [this, Except.ok.injEq] at h
    subst h
    simp [List.map_map, Function.comp_def]
  have hlabel := (C155_returns ncols hn contains reduced cells hnd hpos).mp ⟨rows, h⟩
  rw [gridReduced_ok ncols contains reduced cells hred hnd hpos fun c hc hne => by
        obtain ⟨p, hp⟩ := List.exists_mem_of_ne_nil _ hne
        obtain ⟨h1, h2⟩ := List.mem_filter.mp hp
        exact hlabel c hc ⟨p, h1, h2⟩] at h
  rw [Except.ok.injEq] at h
  subst h
  rw [← sjoin_samples, List.map_map]
  have hp := (groupBy_flatMap_perm (fun cr : Cell × Reduced => cr.1.cellId) (sjoin contains cells reduced)).map
    (fun cr => cr.2.samples)
  rw [← hp.sum_eq, List.map_flatMap, List.flatMap_def, List.sum_flatten, List.map_map]
  congr 1
  apply List.map_congr_left
  intro kg _
  simp [List.map_map, Function.comp_def]

/-- **C155, no sample is lost.** If every reduced point lies in exactly one of the cells, as the points of a grid do in
the cells of the same grid (C43, C151), the samples of the rows add up to the samples of the points. -/
theorem C155_conserved (ncols : Nat) (hn : 0 < ncols) (contains : Cell → Reduced → Bool) (reduced : List Reduced)
    (cells : List Cell) (hnd : (cells.map (·.cellId)).Nodup)
    (hpos : ∀ r ∈ reduced, 0 < r.samples) (hone : ∀ p ∈ reduced, (cells.filter fun c => contains c p).length = 1)
    (rows : List GridRow) (h : gridReduced ncols contains reduced cells = .ok rows) :
    (rows.map (·.samples)).sum = (reduced.map (·.samples)).sum := by
  rw [C155_samples ncols hn contains reduced cells hnd hpos rows h]
  congr 1
  apply List.map_congr_left
  intro p hp
  rw [List.countP_eq_length_filter, hone p hp, Nat.mul_one]

/-- Three points with different numbers of samples in two of three cells; access is present, revisit is missing for one
point. -/
example : gridReduced 2 (fun c p => decide (c.cellId = p.pointId % 2))
      [⟨0, 2, [some 10, none]⟩, ⟨1, 5, [some 20, some 7]⟩, ⟨2, 3, [some 31, some 9]⟩] [⟨0, 0⟩, ⟨1, 1⟩, ⟨2, 2⟩] =
      .ok [⟨0, 5, [some 20, none]⟩, ⟨1, 5, [some 20, some 7]⟩] := by decide +kernel

example := C155_rows 2 (by decide) (fun c p => decide (c.cellId = p.pointId % 2))
  [⟨0, 2, [some 10, none]⟩, ⟨1, 5, [some 20, some 7]⟩, ⟨2, 3, [some 31, some 9]⟩] [⟨0, 0⟩, ⟨1, 1⟩, ⟨2, 2⟩]
  (by decide) (by decide) (by decide) [⟨0, 5, [some 20, none]⟩, ⟨1, 5, [some 20, some 7]⟩] (by decide +kernel)

example := C155_conserved 2 (by decide) (fun c p => decide (c.cellId = p.pointId % 2))
  [⟨0, 2, [some 10, none]⟩, ⟨1, 5, [some 20, some 7]⟩, ⟨2, 3, [some 31, some 9]⟩] [⟨0, 0⟩, ⟨1, 1⟩, ⟨2, 2⟩]
  (by decide) (by decide) (by decide) [⟨0, 5, [some 20, none]⟩, ⟨1, 5, [some 20, some 7]⟩] (by decide +kernel)

end Tatc.Props
