import Verif.Model.Grid
import Verif.Lemmas.Round
import Verif.Lemmas.ExceptList

/-!
# C07: `grid_observations` and `grid_latencies`

The property: every cell that contains reduced points gets the number of their samples and
the sample-weighted mean of each of their value columns (to within half a microsecond).

**The code violates it**: the weights are looked up with the index labels of the *cells*
frame, not of the reduced frame (`src/tatc/analysis/coverage.py` L442-L443,
`src/tatc/analysis/latency.py` L282).  Consequences proved here:
`C07_weighted_mean_false` (wrong mean) and `C07_key_error` (`KeyError` as soon as a cell
with a label beyond the number of reduced points contains a point).
-/

namespace Tatc.Props
open Tatc Tatc.Pandas Tatc.Coverage Tatc.Grid

/-- The reduced points inside a cell. -/
def pointsIn (contains : Cell → Reduced → Bool) (reduced : List Reduced) (c : Cell) : List Reduced :=
  reduced.filter (contains c)

/-- Value of column `i` of a reduced row (microseconds). -/
def colValue (i : Nat) (p : Reduced) : ℚ := (((p.values[i]?).join).getD 0 : Int)

/-- What the property demands of the result of gridding. -/
def GridCorrect (ncols : Nat) (contains : Cell → Reduced → Bool) (reduced : List Reduced)
    (cells : List Cell) (result : Except PyErr (List GridRow)) : Prop :=
  ∃ rows, result = .ok rows ∧ ∀ c ∈ cells, pointsIn contains reduced c ≠ [] →
    ∃ row ∈ rows, row.cellId = c.cellId ∧
      row.samples = ((pointsIn contains reduced c).map (·.samples)).sum ∧
      ∀ i < ncols, (∀ p ∈ pointsIn contains reduced c, ∃ v, p.values[i]? = some (some v)) →
        ∃ a, row.values[i]? = some (some a) ∧
          |(a : ℚ) - ((pointsIn contains reduced c).map fun p => (p.samples : ℚ) * colValue i p).sum /
            ((pointsIn contains reduced c).map fun p => (p.samples : ℚ)).sum| ≤ 1 / 2

/-- Two cells, two reduced points in the first cell: one sample of 0 s and three samples of
100 s.  The result is 50 s, the sample-weighted mean is 75 s. -/
theorem C07_weighted_mean_false :
    ¬ ∀ (contains : Cell → Reduced → Bool) (reduced : List Reduced) (cells : List Cell),
      (cells.map (·.cellId)).Nodup → (∀ r ∈ reduced, 0 < r.samples) →
      (∀ c ∈ cells, c.label < reduced.length) →
      GridCorrect 1 contains reduced cells (gridReduced 1 contains reduced cells) := by
  intro h
  have h1 := h (fun c _ => c.cellId == 0)
    [⟨0, 1, [some 0]⟩, ⟨1, 3, [some 100000000]⟩] [⟨0, 0⟩, ⟨1, 1⟩] (by decide) (by decide) (by decide)
  have e : gridReduced 1 (fun c _ => c.cellId == 0)
    [⟨0, 1, [some 0]⟩, ⟨1, 3, [some 100000000]⟩] [⟨0, 0⟩, ⟨1, 1⟩] =
      .ok [⟨0, 4, [some 50000000]⟩] := by decide +kernel
  obtain ⟨rows, hr, hc⟩ := h1
  rw [e] at hr
  cases hr
  obtain ⟨row, hrow, -, -, hv⟩ := hc ⟨0, 0⟩ (by decide) (by decide)
  rw [List.mem_singleton] at hrow
  subst hrow
  have e2 : (pointsIn (fun c _ => c.cellId == 0)
    [⟨0, 1, [some 0]⟩, ⟨1, 3, [some 100000000]⟩] ⟨0, 0⟩) =
    [⟨0, 1, [some 0]⟩, ⟨1, 3, [some 100000000]⟩] := by decide
  rw [e2] at hv
  obtain ⟨a, ha, hd⟩ := hv 0 (by decide) (by simp)
  simp only [List.getElem?_cons_zero, Option.some.injEq] at ha
  subst ha
  revert hd
  norm_num [colValue]

theorem locSamples_ok (reduced : List Reduced) (labels : List Nat)
    (h : ∀ l ∈ labels, l < reduced.length) :
    locSamples reduced labels = .ok (labels.map fun l => (reduced[l]?.map (·.samples)).getD 0) := by
  apply mapM_ok
  intro l hl
  rw [List.getElem?_eq_getElem (h l hl)]
  rfl

theorem locSamples_error (reduced : List Reduced) (labels : List Nat)
    (h : ∃ l ∈ labels, reduced.length ≤ l) : locSamples reduced labels = .error .keyError := by
  apply mapM_error
  · intro l _
    cases hl : reduced[l]? with
    | none => right; rfl
    | some r => left; exact ⟨r.samples, rfl⟩
  · obtain ⟨l, hl, hle⟩ := h
    refine ⟨l, hl, ?_⟩
    rw [List.getElem?_eq_none hle]

theorem sum_map_eq_zero_of_pos (l : List Nat) (h : ∀ w ∈ l, 0 < w) (hne : l ≠ []) :
    (0 : ℚ) < (l.map fun w : Nat => (w : ℚ)).sum := by
  induction l with
  | nil => exact absurd rfl hne
  | cons a t ih =>
    have ha := h a List.mem_cons_self
    have ha' : (0 : ℚ) < a := by exact_mod_cast ha
    rw [List.map_cons, List.sum_cons]
    by_cases ht : t = []
    · subst ht; simpa using ha'
    · have := ih (fun w hw => h w (List.mem_cons_of_mem _ hw)) ht
      linarith

theorem mem_sjoin {contains : Cell → Reduced → Bool} {cells : List Cell} {reduced : List Reduced}
    {c : Cell} {r : Reduced} :
    (c, r) ∈ sjoin contains cells reduced ↔ c ∈ cells ∧ r ∈ reduced ∧ contains c r = true := by
  unfold sjoin
  rw [List.mem_flatMap]
  constructor
  · rintro ⟨c', hc', h⟩
    obtain ⟨r', hr', e⟩ := List.mem_map.mp h
    rw [Prod.mk.injEq] at e
    obtain ⟨rfl, rfl⟩ := e
    obtain ⟨h1, h2⟩ := List.mem_filter.mp hr'
    exact ⟨hc', h1, h2⟩
  · rintro ⟨h1, h2, h3⟩
    exact ⟨c, h1, List.mem_map.mpr ⟨r, List.mem_filter.mpr ⟨h2, h3⟩, rfl⟩⟩

/-- **C07, failure mode.** When every reduced row has samples, gridding at least one column
raises `KeyError` as soon as some cell whose index label is not a label of the reduced frame
contains a reduced point. -/
theorem C07_key_error (ncols : Nat) (hn : 0 < ncols) (contains : Cell → Reduced → Bool)
    (reduced : List Reduced) (cells : List Cell) (hpos : ∀ r ∈ reduced, 0 < r.samples)
    (c : Cell) (hc : c ∈ cells) (r : Reduced) (hr : r ∈ reduced) (hcr : contains c r = true)
    (hlabel : reduced.length ≤ c.label) :
    gridReduced ncols contains reduced cells = .error .keyError := by
  unfold gridReduced
  have hne : reduced.isEmpty = false := by
    cases reduced with
    | nil => simp at hr
    | cons => rfl
  rw [hne]
  simp only [Bool.false_eq_true, if_false]
  apply mapM_error
  · rintro ⟨k, g⟩ hkg
    obtain ⟨⟨cr, hcr', hk⟩, hg⟩ := mem_groupBy.mp hkg
    by_cases hall : ∀ x ∈ g, x.1.label < reduced.length
    · left
      have hloc := locSamples_ok reduced (g.map fun cr => cr.1.label) (by
        intro l hl
        obtain ⟨x, hx, rfl⟩ := List.mem_map.mp hl
        exact hall x hx)
      set w := (g.map fun cr => cr.1.label).map fun l => (reduced[l]?.map (·.samples)).getD 0 with hw
      have hgne : g ≠ [] := by
        rw [hg]; exact List.ne_nil_of_mem (List.mem_filter.mpr ⟨hcr', by simpa using hk⟩)
      have hwpos : (0 : ℚ) < (w.map fun w : Nat => (w : ℚ)).sum := by
        apply sum_map_eq_zero_of_pos
        · intro x hx
          rw [hw, List.map_map, List.mem_map] at hx
          obtain ⟨y, hy, rfl⟩ := hx
          have hlt := hall y hy
          simp only [Function.comp_apply, List.getElem?_eq_getElem hlt, Option.map_some,
            Option.getD_some]
          exact hpos _ (List.getElem_mem hlt)
        · simpa [hw] using hgne
      have hcol : ∀ i ∈ List.range ncols, ∃ a : Option Int, (do
          let w ← locSamples reduced (g.map fun cr => cr.1.label)
          let a ← npAverage (g.map fun cr => ((cr.2.values[i]?).join).map usToSeconds) w
          return a.map timedeltaSeconds : Except PyErr (Option Int)) = .ok a := by
        intro i _
        rw [hloc]
        simp only [npAverage]
        rw [show (do
          let w ← (Except.ok w : Except PyErr (List Nat))
          let a ← (if (w.map fun w : Nat => (w : ℚ)).sum = 0 then
              (Except.error PyErr.zeroDivisionError : Except PyErr (Option ℚ))
            else if (g.map fun cr => ((cr.2.values[i]?).join).map usToSeconds).all Option.isSome then
              .ok (some ((List.zipWith (fun v (w : Nat) => v.getD 0 * (w : ℚ))
                (g.map fun cr => ((cr.2.values[i]?).join).map usToSeconds) w).sum /
                  (w.map fun w : Nat => (w : ℚ)).sum))
            else .ok none)
          return a.map timedeltaSeconds : Except PyErr (Option Int)) = (do
          let a ← (if (w.map fun w : Nat => (w : ℚ)).sum = 0 then
              (Except.error PyErr.zeroDivisionError : Except PyErr (Option ℚ))
            else if (g.map fun cr => ((cr.2.values[i]?).join).map usToSeconds).all Option.isSome then
              .ok (some ((List.zipWith (fun v (w : Nat) => v.getD 0 * (w : ℚ))
                (g.map fun cr => ((cr.2.values[i]?).join).map usToSeconds) w).sum /
                  (w.map fun w : Nat => (w : ℚ)).sum))
            else .ok none)
          return a.map timedeltaSeconds : Except PyErr (Option Int)) from rfl]
        rw [if_neg hwpos.ne']
        split_ifs
        · exact ⟨_, rfl⟩
        · exact ⟨_, rfl⟩
      choose! f hf using hcol
      unfold gridRow
      rw [mapM_ok _ f _ hf]
      exact ⟨_, rfl⟩
    · right
      push Not at hall
      obtain ⟨x, hx, hxl⟩ := hall
      unfold gridRow
      rw [mapM_error (e := .keyError)]
      · rfl
      · intro i _
        right
        rw [locSamples_error reduced _ ⟨x.1.label, List.mem_map.mpr ⟨x, hx, rfl⟩, hxl⟩]
        rfl
      · refine ⟨0, List.mem_range.mpr hn, ?_⟩
        rw [locSamples_error reduced _ ⟨x.1.label, List.mem_map.mpr ⟨x, hx, rfl⟩, hxl⟩]
        rfl
  · have hmem : (c, r) ∈ sjoin contains cells reduced := mem_sjoin.mpr ⟨hc, hr, hcr⟩
    refine ⟨(c.cellId, (sjoin contains cells reduced).filter fun a => a.1.cellId = c.cellId),
      mem_groupBy.mpr ⟨⟨(c, r), hmem, rfl⟩, rfl⟩, ?_⟩
    have hx : (c, r) ∈ (sjoin contains cells reduced).filter fun a => a.1.cellId = c.cellId :=
      List.mem_filter.mpr ⟨hmem, by simp⟩
    unfold gridRow
    rw [mapM_error (e := .keyError)]
    · rfl
    · intro i _
      right
      rw [locSamples_error reduced _ ⟨c.label, List.mem_map.mpr ⟨(c, r), hx, rfl⟩, hlabel⟩]
      rfl
    · refine ⟨0, List.mem_range.mpr hn, ?_⟩
      rw [locSamples_error reduced _ ⟨c.label, List.mem_map.mpr ⟨(c, r), hx, rfl⟩, hlabel⟩]
      rfl

/-- The failure mode occurs with one point lying in the sixth cell. -/
example : gridReduced 2 (fun c _ => c.cellId == 5) [⟨0, 1, [some 7, none]⟩]
    [⟨0, 0⟩, ⟨1, 1⟩, ⟨2, 2⟩, ⟨3, 3⟩, ⟨4, 4⟩, ⟨5, 5⟩] = .error .keyError :=
  C07_key_error 2 (by decide) _ _ _ (by decide) ⟨5, 5⟩ (by decide) ⟨0, 1, [some 7, none]⟩ (by decide)
    (by decide) (by decide)

theorem sjoin_filter_cell {contains : Cell → Reduced → Bool} {reduced : List Reduced}
    {cells : List Cell} (hnd : (cells.map (·.cellId)).Nodup) {c : Cell} (hc : c ∈ cells) :
    (sjoin contains cells reduced).filter (fun a => a.1.cellId = c.cellId) =
      (pointsIn contains reduced c).map fun r => (c, r) := by
  unfold sjoin pointsIn
  induction cells with
  | nil => simp at hc
  | cons d t ih =>
    rw [List.map_cons, List.nodup_cons] at hnd
    rw [List.flatMap_cons, List.filter_append]
    have hother : ∀ (c' : Cell), c'.cellId ≠ c.cellId →
        ((reduced.filter (contains c')).map fun r => (c', r)).filter
          (fun a => decide (a.1.cellId = c.cellId)) = [] := by
      intro c' hne
      rw [List.filter_eq_nil_iff]
      intro a ha
      obtain ⟨r, _, rfl⟩ := List.mem_map.mp ha
      simpa using hne
    rcases List.mem_cons.mp hc with rfl | hct
    · have e1 : ((reduced.filter (contains c)).map fun r => (c, r)).filter
          (fun a => decide (a.1.cellId = c.cellId)) = (reduced.filter (contains c)).map fun r => (c, r) := by
        rw [List.filter_eq_self]
        intro a ha
        obtain ⟨r, _, rfl⟩ := List.mem_map.mp ha
        simp
      rw [e1]
      have e2 : (t.flatMap fun c => (reduced.filter (contains c)).map fun r => (c, r)).filter
          (fun a => decide (a.1.cellId = c.cellId)) = [] := by
        rw [List.filter_eq_nil_iff]
        intro a ha
        obtain ⟨c', hc', ha'⟩ := List.mem_flatMap.mp ha
        obtain ⟨r, _, rfl⟩ := List.mem_map.mp ha'
        simp only [decide_eq_true_eq]
        intro e
        exact hnd.1 (e ▸ List.mem_map_of_mem hc')
      rw [e2, List.append_nil]
    · have hne : d.cellId ≠ c.cellId := by
        intro e
        exact hnd.1 (e ▸ List.mem_map_of_mem hct)
      rw [hother d hne, List.nil_append]
      exact ih hnd.2 hct

/-- **C07, the part that holds.** If cell ids are unique, every cell that contains a reduced
point has an index label of the reduced frame, and all points of a cell have the same positive
number of samples, then the result is the sample-weighted mean.  (Missing: unequal sample
counts, for which `C07_weighted_mean_false` shows the claim false, and larger cell frames, for
which `C07_key_error` applies.) -/
theorem C07_weighted_mean_partial (ncols : Nat) (contains : Cell → Reduced → Bool)
    (reduced : List Reduced) (cells : List Cell) (hnd : (cells.map (·.cellId)).Nodup)
    (hpos : ∀ r ∈ reduced, 0 < r.samples)
    (hlabel : ∀ c ∈ cells, pointsIn contains reduced c ≠ [] → c.label < reduced.length)
    (heq : ∀ c ∈ cells, ∀ p ∈ pointsIn contains reduced c, ∀ q ∈ pointsIn contains reduced c,
      p.samples = q.samples) :
    GridCorrect ncols contains reduced cells (gridReduced ncols contains reduced cells) := by
  classical
  -- every group is the block of one cell
  have hgroup : ∀ kg ∈ groupBy (fun cr : Cell × Reduced => cr.1.cellId) (sjoin contains cells reduced),
      ∃ c ∈ cells, kg.1 = c.cellId ∧ pointsIn contains reduced c ≠ [] ∧
        kg.2 = (pointsIn contains reduced c).map fun r => (c, r) := by
    rintro ⟨k, g⟩ hkg
    obtain ⟨⟨⟨c, r⟩, hcr, hk⟩, hg⟩ := mem_groupBy.mp hkg
    obtain ⟨hc, hr, hcon⟩ := mem_sjoin.mp hcr
    refine ⟨c, hc, hk.symm, ?_, ?_⟩
    · exact List.ne_nil_of_mem (List.mem_filter.mpr ⟨hr, hcon⟩)
    · rw [hg, ← hk]; exact sjoin_filter_cell hnd hc
  by_cases hempty : reduced = []
  · subst hempty
    refine ⟨_, rfl, ?_⟩
    intro c hc hne
    simp [pointsIn] at hne
  have hred : reduced.isEmpty = false := by
    cases reduced with
    | nil => exact absurd rfl hempty
    | cons => rfl
  -- the value of one column
  let val : List Reduced → Nat → Option Int := fun pts i =>
    if (pts.map fun p => ((p.values[i]?).join).map usToSeconds).all Option.isSome then
      some (timedeltaSeconds ((pts.map fun p => ((((p.values[i]?).join).map usToSeconds).getD 0)).sum / pts.length))
    else none
  have hrow : ∀ c ∈ cells, pointsIn contains reduced c ≠ [] →
      gridRow ncols reduced c.cellId ((pointsIn contains reduced c).map fun r => (c, r)) =
        .ok ⟨c.cellId, ((pointsIn contains reduced c).map (·.samples)).sum,
          (List.range ncols).map (val (pointsIn contains reduced c))⟩ := by
    intro c hc hne
    set pts := pointsIn contains reduced c with hpts
    have hl := hlabel c hc hne
    have hlab : (((pts.map fun r => (c, r)).map fun cr => cr.1.label)) = pts.map fun _ => c.label := by
      rw [List.map_map]; rfl
    have hloc : locSamples reduced (pts.map fun _ => c.label) =
        .ok (pts.map fun _ => (reduced[c.label]'hl).samples) := by
      rw [locSamples_ok _ _ (by
        intro l hl'
        obtain ⟨x, _, rfl⟩ := List.mem_map.mp hl'
        exact hl), List.map_map]
      congr 1
      apply List.map_congr_left
      intro x _
      simp [List.getElem?_eq_getElem hl]
    set w0 := (reduced[c.label]'hl).samples with hw0
    have hw0pos : 0 < w0 := hpos _ (List.getElem_mem hl)
    have hw0q : (0 : ℚ) < w0 := by exact_mod_cast hw0pos
    have hlen : (0 : ℚ) < pts.length := by
      exact_mod_cast List.length_pos_iff.mpr hne
    have htot : ((pts.map fun _ => w0).map fun w : Nat => (w : ℚ)).sum = pts.length * w0 := by
      clear hlab hloc hlen hne hpts
      induction pts with
      | nil => simp
      | cons a t ih =>
        rw [List.map_cons, List.map_cons, List.sum_cons, ih, List.length_cons]
        push_cast
        ring
    have hzip : ∀ (vals : Reduced → Option ℚ),
        (List.zipWith (fun v (w : Nat) => v.getD 0 * (w : ℚ)) (pts.map vals) (pts.map fun _ => w0)).sum =
          (pts.map fun p => (vals p).getD 0).sum * w0 := by
      intro vals
      clear hlab hloc hlen hne hpts htot
      induction pts with
      | nil => simp
      | cons a t ih =>
        simp only [List.map_cons, List.zipWith_cons_cons, List.sum_cons, ih]
        ring
    have hcol : ∀ i, (do
        let w ← locSamples reduced ((pts.map fun r => (c, r)).map fun cr => cr.1.label)
        let a ← npAverage ((pts.map fun r => (c, r)).map fun cr => ((cr.2.values[i]?).join).map usToSeconds) w
        return a.map timedeltaSeconds : Except PyErr (Option Int)) = .ok (val pts i) := by
      intro i
      rw [hlab, hloc, List.map_map]
      show (do
        let a ← npAverage (pts.map fun p => ((p.values[i]?).join).map usToSeconds) (pts.map fun _ => w0)
        return a.map timedeltaSeconds : Except PyErr (Option Int)) = .ok (val pts i)
      unfold npAverage
      simp only
      rw [htot, if_neg (by positivity)]
      simp only [val]
      split_ifs with hall
      · rw [hzip fun p => ((p.values[i]?).join).map usToSeconds]
        show Except.ok (some (timedeltaSeconds _)) = _
        rw [mul_div_mul_right _ _ hw0q.ne']
      · rfl
    unfold gridRow
    rw [mapM_ok _ (val pts) _ (fun i _ => hcol i)]
    show Except.ok _ = _
    congr 2
    rw [List.map_map]; rfl
  let mk : Int × List (Cell × Reduced) → GridRow := fun kg =>
    ⟨kg.1, ((kg.2.map Prod.snd).map (·.samples)).sum, (List.range ncols).map (val (kg.2.map Prod.snd))⟩
  have hres : gridReduced ncols contains reduced cells =
      .ok ((groupBy (fun cr : Cell × Reduced => cr.1.cellId) (sjoin contains cells reduced)).map mk) := by
    unfold gridReduced
    rw [hred]
    simp only [Bool.false_eq_true, if_false]
    apply mapM_ok
    intro kg hkg
    obtain ⟨c, hc, h1, h2, h3⟩ := hgroup kg hkg
    rw [h1, h3, hrow c hc h2]
    simp only [mk, h1, h3, List.map_map, Function.comp_def, List.map_id']
  refine ⟨_, hres, ?_⟩
  intro c hc hne
  obtain ⟨r, hr⟩ := List.exists_mem_of_ne_nil _ hne
  obtain ⟨hr1, hr2⟩ := List.mem_filter.mp hr
  have hmem : (c, r) ∈ sjoin contains cells reduced := mem_sjoin.mpr ⟨hc, hr1, hr2⟩
  have hkg : (c.cellId, (pointsIn contains reduced c).map fun r => (c, r)) ∈
      groupBy (fun cr : Cell × Reduced => cr.1.cellId) (sjoin contains cells reduced) := by
    rw [← sjoin_filter_cell hnd hc]
    exact mem_groupBy.mpr ⟨⟨(c, r), hmem, rfl⟩, rfl⟩
  refine ⟨mk _, List.mem_map_of_mem hkg, rfl, ?_, ?_⟩
  · simp only [mk, List.map_map, Function.comp_def]
  · intro i hi hpres
    have hsnd : (((pointsIn contains reduced c).map fun r => (c, r)).map Prod.snd) =
        pointsIn contains reduced c := by
      rw [List.map_map]; simp [Function.comp_def]
    simp only [mk, hsnd]
    set pts := pointsIn contains reduced c with hpts
    have hall : (pts.map fun p => ((p.values[i]?).join).map usToSeconds).all Option.isSome = true := by
      rw [List.all_eq_true]
      intro x hx
      obtain ⟨p, hp, rfl⟩ := List.mem_map.mp hx
      obtain ⟨v, hv⟩ := hpres p hp
      simp [hv]
    refine ⟨timedeltaSeconds ((pts.map fun p => ((((p.values[i]?).join).map usToSeconds).getD 0)).sum / pts.length), ?_, ?_⟩
    · simp only [List.getElem?_map, List.getElem?_range hi, Option.map_some, val, hall, if_true]
    · have hs : (pts.map fun p => ((((p.values[i]?).join).map usToSeconds).getD 0)).sum =
          (pts.map (colValue i)).sum / 1000000 := by
        clear hall hsnd hpts hkg hne hr
        induction pts with
        | nil => simp
        | cons a t ih =>
          rw [List.map_cons, List.map_cons, List.sum_cons, List.sum_cons, ih]
          unfold colValue
          cases (a.values[i]?).join <;> simp [usToSeconds]
          ring
      have hw : ∃ w : ℚ, 0 < w ∧ ∀ p ∈ pts, (p.samples : ℚ) = w := by
        refine ⟨r.samples, by exact_mod_cast hpos r hr1, ?_⟩
        intro p hp
        rw [heq c hc p hp r hr]
      obtain ⟨w, hw, hpw⟩ := hw
      have e1 : (pts.map fun p => (p.samples : ℚ) * colValue i p).sum = w * (pts.map (colValue i)).sum := by
        have : (pts.map fun p => (p.samples : ℚ) * colValue i p) = (pts.map fun p => w * colValue i p) :=
          List.map_congr_left fun p hp => by rw [hpw p hp]
        rw [this]
        generalize pts = l
        induction l with
        | nil => simp
        | cons a t ih => simp only [List.map_cons, List.sum_cons, ih]; ring
      have e2 : (pts.map fun p => (p.samples : ℚ)).sum = w * pts.length := by
        have : (pts.map fun p => (p.samples : ℚ)) = pts.map fun _ => w :=
          List.map_congr_left fun p hp => hpw p hp
        rw [this]
        simp
        ring
      rw [e1, e2, mul_div_mul_left _ _ hw.ne', hs]
      have h := abs_roundHalfEven_sub_le ((pts.map (colValue i)).sum / 1000000 / pts.length * 1000000)
      unfold timedeltaSeconds
      have e3 : (pts.map (colValue i)).sum / 1000000 / pts.length * 1000000 =
          (pts.map (colValue i)).sum / pts.length := by ring
      rw [e3] at h ⊢
      exact h

/-- The hypotheses are met with two cells and three points, two of them in one cell. -/
example : GridCorrect 1 (fun c p => decide (c.cellId = p.pointId % 2))
    [⟨0, 2, [some 10]⟩, ⟨1, 5, [some 20]⟩, ⟨2, 2, [some 31]⟩] [⟨0, 0⟩, ⟨1, 1⟩]
    (gridReduced 1 (fun c p => decide (c.cellId = p.pointId % 2))
      [⟨0, 2, [some 10]⟩, ⟨1, 5, [some 20]⟩, ⟨2, 2, [some 31]⟩] [⟨0, 0⟩, ⟨1, 1⟩]) :=
  C07_weighted_mean_partial 1 _ _ _ (by decide) (by decide) (by decide) (by decide)

end Tatc.Props
