import Verif.Model.Ro
import Verif.Spec.Runs
import Verif.Lemmas.ExceptList

/-!
# C57 and C61: occultation arcs and their rows
-/

namespace Tatc.Props
open Tatc.Ro Tatc.Spec Tatc.Pandas
open scoped Classical

/-- A sample that counts: valid geometry and a tangent point strictly inside the range of elevations. -/
def Counts (lo hi : ℝ) (s : Sample) : Prop := s.valid = true ∧ lo < s.elevation ∧ s.elevation < hi

/-- The arc made of the samples `a` to `e - 1`. -/
noncomputable def arcOf (tx : String) (s : Nat → Sample) (a e : Nat) : Arc :=
  ⟨tx, decide ((s a).pitch > -90), (List.range' a (e - a)).map s⟩

/-- The loop after the first `k` times. -/
noncomputable def after (tx : String) (n : Nat) (s : Nat → Sample) (lo hi : ℝ) (k : Nat) : List Arc × Option Arc :=
  ((List.range k).filter fun j => (s j).valid).foldl (arcStep tx n s lo hi) ([], none)

theorem after_succ (tx : String) (n : Nat) (s : Nat → Sample) (lo hi : ℝ) (k : Nat) :
    after tx n s lo hi (k + 1) =
      if (s k).valid then arcStep tx n s lo hi (after tx n s lo hi k) k else after tx n s lo hi k := by
  unfold after
  rw [List.range_succ, List.filter_append]
  by_cases hv : (s k).valid = true
  · simp [hv]
  · simp [hv]

/-- What the loop knows after the first `k` times: the closed arcs are the maximal runs that end by `k`, and an open
arc is a run that goes on. -/
structure Knows (tx : String) (n : Nat) (s : Nat → Sample) (lo hi : ℝ) (k : Nat) (state : List Arc × Option Arc) :
    Prop where
  closed : ∃ runs : List (Nat × Nat), state.1 = runs.map (fun r => arcOf tx s r.1 r.2) ∧
    (∀ r ∈ runs, MaximalRun (fun i => Counts lo hi (s i)) n r.1 r.2 ∧ r.2 ≤ k) ∧
    runs.Pairwise (fun a b => a.2 < b.1) ∧
    ((state.2 = none ∧ ∀ i, i < k → Counts lo hi (s i) → ∃ r ∈ runs, r.1 ≤ i ∧ i < r.2) ∨
      ∃ a, state.2 = some (arcOf tx s a k) ∧ a < k ∧ k < n ∧ (s k).valid = true ∧
        (∀ i, a ≤ i → i < k → Counts lo hi (s i)) ∧ (a = 0 ∨ ¬ Counts lo hi (s (a - 1))) ∧
        (∀ r ∈ runs, r.2 < a) ∧ ∀ i, i < a → Counts lo hi (s i) → ∃ r ∈ runs, r.1 ≤ i ∧ i < r.2)

theorem arcOf_succ (tx : String) (s : Nat → Sample) (a k : Nat) (h : a ≤ k) :
    { arcOf tx s a k with points := (arcOf tx s a k).points ++ [s k] } = arcOf tx s a (k + 1) := by
  unfold arcOf
  have : k + 1 - a = (k - a) + 1 := by omega
  rw [this, List.range'_concat]
  simp only [List.map_append, List.map_cons, List.map_nil]
  congr 3
  congr 1
  omega

theorem knows (tx : String) (n : Nat) (s : Nat → Sample) (lo hi : ℝ) (k : Nat) (hk : k ≤ n) :
    Knows tx n s lo hi k (after tx n s lo hi k) := by
  induction k with
  | zero =>
    exact ⟨[], rfl, by simp, List.Pairwise.nil, Or.inl ⟨rfl, by omega⟩⟩
  | succ k ih =>
    obtain ⟨runs, hobs, hruns, hpair, hstate⟩ := ih (by omega)
    rw [after_succ]
    set st := after tx n s lo hi k
    by_cases hv : (s k).valid = true
    swap
    · -- an invalid time
      rw [if_neg hv]
      have hk' : ¬ Counts lo hi (s k) := fun h => hv h.1
      rcases hstate with ⟨hn, hcov⟩ | ⟨a, -, -, -, hval, -⟩
      · refine ⟨runs, hobs, fun r hr => ⟨(hruns r hr).1, by have := (hruns r hr).2; omega⟩, hpair, Or.inl ⟨hn, ?_⟩⟩
        intro i hi hc
        rcases Nat.lt_succ_iff_lt_or_eq.mp hi with h | rfl
        · exact hcov i h hc
        · exact absurd hc hk'
      · exact absurd hval hv
    rw [if_pos hv]
    by_cases hel : (s k).elevation > lo ∧ (s k).elevation < hi
    · have hc : Counts lo hi (s k) := ⟨hv, hel.1, hel.2⟩
      -- the arc that is open, or a new one, with this sample
      have key : ∃ a, a ≤ k ∧ (st.2 = none ∧ a = k ∨ st.2 = some (arcOf tx s a k)) ∧ (∀ i, a ≤ i → i < k + 1 → Counts lo hi (s i)) ∧
          (a = 0 ∨ ¬ Counts lo hi (s (a - 1))) ∧ (∀ r ∈ runs, r.2 < a) ∧
          ∀ i, i < a → Counts lo hi (s i) → ∃ r ∈ runs, r.1 ≤ i ∧ i < r.2 := by
        rcases hstate with ⟨hn, hcov⟩ | ⟨a, ha, hak, -, -, hall, hbefore, hsep, hcov⟩
        · refine ⟨k, le_rfl, Or.inl ⟨hn, rfl⟩, ?_, ?_, ?_, hcov⟩
          · intro i h1 h2
            obtain rfl : i = k := by omega
            exact hc
          · by_cases h0 : k = 0
            · exact Or.inl h0
            · right
              intro hprev
              obtain ⟨r, hr, h1, h2⟩ := hcov (k - 1) (by omega) hprev
              obtain ⟨⟨m1, m2, m3, m4, m5⟩, hle⟩ := hruns r hr
              have hend : r.2 = k := by omega
              rcases m5 with h | h
              · omega
              · exact h (by rw [hend]; exact hc)
          · intro r hr
            obtain ⟨⟨m1, m2, m3, m4, m5⟩, hle⟩ := hruns r hr
            rcases Nat.lt_or_ge r.2 k with h | h
            · exact h
            · exfalso
              have hend : r.2 = k := by omega
              rcases m5 with h | h
              · omega
              · exact h (by rw [hend]; exact hc)
        · refine ⟨a, by omega, Or.inr ha, ?_, hbefore, hsep, hcov⟩
          intro i h1 h2
          rcases Nat.lt_succ_iff_lt_or_eq.mp h2 with h | rfl
          · exact hall i h1 h
          · exact hc
      obtain ⟨a, hak, harc, hall, hbefore, hsep, hcov⟩ := key
      have hstep : arcStep tx n s lo hi st k =
          if k + 1 ≥ n ∨ (s k).valid ≠ (s (k + 1)).valid then (st.1 ++ [arcOf tx s a (k + 1)], none)
          else (st.1, some (arcOf tx s a (k + 1))) := by
        rw [arcStep, if_pos hel]
        rw [← arcOf_succ tx s a k hak]
        rcases harc with ⟨hn, rfl⟩ | hs
        · have : arcOf tx s a a = ⟨tx, decide ((s a).pitch > -90), []⟩ := by simp [arcOf]
          rw [hn, this]
        · rw [hs]
      rw [hstep]
      split_ifs with hend
      · -- the arc ends here
        have hmax : MaximalRun (fun i => Counts lo hi (s i)) n a (k + 1) := by
          refine ⟨by omega, hk, hall, hbefore, ?_⟩
          rcases hend with h | h
          · left; omega
          · right
            intro hcc
            exact h (by rw [hv, hcc.1])
        refine ⟨runs ++ [(a, k + 1)], by rw [hobs]; simp, ?_, ?_, Or.inl ⟨rfl, ?_⟩⟩
        · intro r hr
          rcases List.mem_append.mp hr with h | h
          · exact ⟨(hruns r h).1, by have := (hruns r h).2; omega⟩
          · obtain rfl : r = (a, k + 1) := by simpa using h
            exact ⟨hmax, le_rfl⟩
        · rw [List.pairwise_append]
          exact ⟨hpair, List.pairwise_singleton _ _, by
            intro r hr q hq
            obtain rfl : q = (a, k + 1) := by simpa using hq
            exact hsep r hr⟩
        · intro i hi hci
          by_cases hia : i < a
          · obtain ⟨r, hr, h1, h2⟩ := hcov i hia hci
            exact ⟨r, List.mem_append_left _ hr, h1, h2⟩
          · exact ⟨(a, k + 1), by simp, by simp only; omega, hi⟩
      · -- the arc goes on
        push Not at hend
        have hval : (s (k + 1)).valid = true := by rw [← hend.2]; exact hv
        refine ⟨runs, hobs, fun r hr => ⟨(hruns r hr).1, by have := (hruns r hr).2; omega⟩, hpair,
          Or.inr ⟨a, rfl, by omega, by omega, hval, hall, hbefore, hsep, hcov⟩⟩
    · -- outside the range of elevations
      have hk' : ¬ Counts lo hi (s k) := fun h => hel ⟨h.2.1, h.2.2⟩
      rcases hstate with ⟨hn, hcov⟩ | ⟨a, ha, hak, -, -, hall, hbefore, hsep, hcov⟩
      · have hstep : arcStep tx n s lo hi st k = st := by
          rw [arcStep, if_neg hel, hn]
        rw [hstep]
        refine ⟨runs, hobs, fun r hr => ⟨(hruns r hr).1, by have := (hruns r hr).2; omega⟩, hpair, Or.inl ⟨hn, ?_⟩⟩
        intro i hi hc
        rcases Nat.lt_succ_iff_lt_or_eq.mp hi with h | rfl
        · exact hcov i h hc
        · exact absurd hc hk'
      · have hstep : arcStep tx n s lo hi st k = (st.1 ++ [arcOf tx s a k], none) := by
          rw [arcStep, if_neg hel, ha]
        rw [hstep]
        refine ⟨runs ++ [(a, k)], by rw [hobs]; simp, ?_, ?_, Or.inl ⟨rfl, ?_⟩⟩
        · intro r hr
          rcases List.mem_append.mp hr with h | h
          · exact ⟨(hruns r h).1, by have := (hruns r h).2; omega⟩
          · obtain rfl : r = (a, k) := by simpa using h
            exact ⟨⟨hak, by omega, hall, hbefore, Or.inr hk'⟩, by simp⟩
        · rw [List.pairwise_append]
          exact ⟨hpair, List.pairwise_singleton _ _, by
            intro r hr q hq
            obtain rfl : q = (a, k) := by simpa using hq
            exact hsep r hr⟩
        · intro i hi hci
          by_cases hia : i < a
          · obtain ⟨r, hr, h1, h2⟩ := hcov i hia hci
            exact ⟨r, List.mem_append_left _ hr, h1, h2⟩
          · refine ⟨(a, k), by simp, by simp only; omega, ?_⟩
            rcases Nat.lt_succ_iff_lt_or_eq.mp hi with h | rfl
            · exact h
            · exact absurd hci hk'

/-- C57: for every number of times and every sequence of samples, the arcs are, in order, exactly the maximal runs
of samples that count, each with all its samples in order. -/
theorem C57_arcs (tx : String) (n : Nat) (s : Nat → Sample) (lo hi : ℝ) :
    ∃ runs : List (Nat × Nat),
      collectArcs tx n s lo hi = runs.map (fun r =>
        ⟨tx, decide ((s r.1).pitch > -90), (List.range' r.1 (r.2 - r.1)).map s⟩) ∧
      runs.Pairwise (fun a b => a.2 < b.1) ∧
      ∀ a e, (a, e) ∈ runs ↔ MaximalRun (fun i => Counts lo hi (s i)) n a e := by
  obtain ⟨runs, hobs, hruns, hpair, hstate⟩ := knows tx n s lo hi n le_rfl
  refine ⟨runs, hobs, hpair, ?_⟩
  intro a e
  constructor
  · intro h; exact (hruns _ h).1
  · intro h
    have hall : ∀ i, i < n → Counts lo hi (s i) → ∃ r ∈ runs, r.1 ≤ i ∧ i < r.2 := by
      rcases hstate with ⟨-, hcov⟩ | ⟨a, -, -, hlt, -⟩
      · exact hcov
      · omega
    obtain ⟨r, hr, h1, h2⟩ := hall a (by have := h.1; have := h.2.1; omega) (h.2.2.1 a le_rfl h.1)
    obtain ⟨e1, e2⟩ := h.unique (hruns r hr).1 ⟨le_rfl, h.1⟩ ⟨h1, h2⟩
    rw [e1, e2]
    exact hr

/-- A non-trivial case: five times of which the second, third and fifth count. -/
example : ∃ s : Nat → Sample, MaximalRun (fun i => Counts 0 10 (s i)) 5 1 3 ∧
    MaximalRun (fun i => Counts 0 10 (s i)) 5 4 5 := by
  refine ⟨fun i => ⟨i, decide (i = 1 ∨ i = 2 ∨ i = 3 ∨ i = 4), 0, 0, if i = 3 then 20 else 5, 0, 0, 0⟩, ?_, ?_⟩
  · refine ⟨by norm_num, by norm_num, ?_, Or.inr ?_, Or.inr ?_⟩
    · intro i h1 h2
      have : i = 1 ∨ i = 2 := by omega
      rcases this with rfl | rfl <;> norm_num [Counts]
    · norm_num [Counts]
    · norm_num [Counts]
  · refine ⟨by norm_num, by norm_num, ?_, Or.inr ?_, Or.inl rfl⟩
    · intro i h1 h2
      obtain rfl : i = 4 := by omega
      norm_num [Counts]
    · norm_num [Counts]

/-! ## C61 -/

/-- The row of an arc reports one of its samples, the nearest to the elevation asked for. -/
structure ReportsArc (receiver : String) (elevation : ℝ) (arc : Arc) (row : Row) : Prop where
  names : row.receiver = receiver ∧ row.transmitter = arc.tx ∧ row.isRising = arc.isRising
  geometry : row.geometry = arc.points.map fun q => (q.lon, q.lat, q.elevation)
  sample : ∃ p ∈ arc.points, row.time = p.time ∧ row.position = (p.lon, p.lat, p.elevation) ∧ row.pitch = p.pitch ∧
    row.yaw = p.yaw ∧ row.azimuth = p.azimuth ∧ ∀ q ∈ arc.points, |p.elevation - elevation| ≤ |q.elevation - elevation|
  first : ∃ q, arc.points.head? = some q ∧ row.start = q.time
  last : ∃ q, arc.points.getLast? = some q ∧ row.end_ = q.time

theorem makeRow_reports (receiver : String) (elevation : ℝ) (arc : Arc) (h : arc.points ≠ []) :
    ∃ row, makeRow receiver elevation arc = .ok row ∧ ReportsArc receiver elevation arc row := by
  set f : Nat → ℝ := fun i => |((arc.points[i]?.map (·.elevation)).getD 0) - elevation| with hf
  have hlen : 0 < arc.points.length := List.length_pos_iff.mpr h
  have hne : (List.range arc.points.length) ≠ [] := by
    intro h0
    have : (List.range arc.points.length).length = 0 := by rw [h0]; rfl
    rw [List.length_range] at this
    omega
  obtain ⟨i, hi⟩ : ∃ i, (List.range arc.points.length).argmin f = some i := by
    rcases hcase : (List.range arc.points.length).argmin f with _ | i
    · exact absurd (List.argmin_eq_none.mp hcase) hne
    · exact ⟨i, rfl⟩
  have hmem := List.argmin_mem hi
  have hi' : i < arc.points.length := List.mem_range.mp hmem
  have hp : arc.points[i]? = some arc.points[i] := List.getElem?_eq_getElem hi'
  obtain ⟨first, hfirst⟩ : ∃ q, arc.points.head? = some q := ⟨_, List.head?_eq_some_head h⟩
  obtain ⟨last, hlast⟩ : ∃ q, arc.points.getLast? = some q := ⟨_, List.getLast?_eq_some_getLast h⟩
  refine ⟨⟨receiver, arc.tx, arc.isRising, arc.points.map fun q => (q.lon, q.lat, q.elevation),
    (arc.points[i].lon, arc.points[i].lat, arc.points[i].elevation), arc.points[i].pitch, arc.points[i].yaw,
    arc.points[i].azimuth, first.time, last.time, arc.points[i].time⟩, ?_, ?_⟩
  · unfold makeRow
    rw [← hf, hi]
    simp only [bind, Except.bind, hp, hfirst, hlast, pure, Except.pure]
  · refine ⟨⟨rfl, rfl, rfl⟩, rfl, ⟨arc.points[i], List.getElem_mem _, rfl, rfl, rfl, rfl, rfl, ?_⟩, ⟨first, hfirst, rfl⟩,
      ⟨last, hlast, rfl⟩⟩
    intro q hq
    obtain ⟨j, hj, rfl⟩ := List.getElem_of_mem hq
    have := List.le_of_mem_argmin (List.mem_range.mpr hj) hi
    simpa only [hf, List.getElem?_eq_getElem hi', List.getElem?_eq_getElem hj, Option.map_some, Option.getD_some] using this

theorem mapM_reports (receiver : String) (elevation : ℝ) (arcs : List Arc) (h : ∀ a ∈ arcs, a.points ≠ []) :
    ∃ rows, arcs.mapM (makeRow receiver elevation) = .ok rows ∧ List.Forall₂ (ReportsArc receiver elevation) arcs rows := by
  induction arcs with
  | nil => exact ⟨[], rfl, List.Forall₂.nil⟩
  | cons a l ih =>
    obtain ⟨row, hrow, hr⟩ := makeRow_reports receiver elevation a (h a (by simp))
    obtain ⟨rows, hrows, hrs⟩ := ih (fun b hb => h b (by simp [hb]))
    refine ⟨row :: rows, ?_, List.Forall₂.cons hr hrs⟩
    rw [List.mapM_cons, hrow, hrows]
    rfl

/-- C61: the frame holds exactly one row for every maximal run of every transmitter, reporting its sample nearest the
elevation; rows are in order of time; and with increasing times, start ≤ time ≤ end. -/
theorem C61_rows (sort : SortValues Row.time) (geo : Geodetic) (receiver : String) (rx w : Int → V3)
    (transmitters : List Transmitter) (times : List Int) (elevation maxYaw lo hi : ℝ) :
    ∃ frame rows, collectRo sort geo receiver rx w transmitters times elevation maxYaw lo hi = .ok frame ∧
      frame.Perm rows ∧ List.Forall₂ (ReportsArc receiver elevation)
        (transmitters.flatMap (collectSeries geo rx w times maxYaw lo hi)) rows ∧
      frame.Pairwise (fun a b => a.time ≤ b.time) ∧
      (times.Pairwise (· ≤ ·) → ∀ row ∈ frame, row.start ≤ row.time ∧ row.time ≤ row.end_) := by
  have harcs : ∀ a ∈ transmitters.flatMap (collectSeries geo rx w times maxYaw lo hi), a.points ≠ [] ∧
      (times.Pairwise (· ≤ ·) → a.points.Pairwise (fun p q => p.time ≤ q.time)) := by
    intro a ha
    rw [List.mem_flatMap] at ha
    obtain ⟨t, -, ha⟩ := ha
    obtain ⟨runs, heq, -, hmem⟩ := C57_arcs t.name times.length
      (fun j => sampleAt geo t rx w maxYaw (times.getD j 0)) lo hi
    unfold collectSeries at ha
    rw [heq, List.mem_map] at ha
    obtain ⟨⟨b, e⟩, hr, rfl⟩ := ha
    obtain ⟨h1, h2, -⟩ := (hmem b e).mp hr
    refine ⟨?_, ?_⟩
    · intro h0
      have := congrArg List.length h0
      simp at this
      omega
    · intro hp
      rw [List.pairwise_map]
      refine List.Pairwise.imp_of_mem ?_ (List.pairwise_lt_range' (s := b) (n := e - b))
      intro i j hi hj hlt
      rw [List.mem_range'_1] at hi hj
      show times.getD i 0 ≤ times.getD j 0
      simp only [List.getD_eq_getElem?_getD, List.getElem?_eq_getElem (show i < times.length by omega),
        List.getElem?_eq_getElem (show j < times.length by omega), Option.getD_some]
      exact List.pairwise_iff_getElem.mp hp i j (by omega) (by omega) hlt
  obtain ⟨rows, hrows, hreports⟩ := mapM_reports receiver elevation
    (transmitters.flatMap (collectSeries geo rx w times maxYaw lo hi)) (fun a ha => (harcs a ha).1)
  have hbounds : times.Pairwise (· ≤ ·) → ∀ row ∈ rows, row.start ≤ row.time ∧ row.time ≤ row.end_ := by
    intro hp row hrow
    obtain ⟨i, hil, rfl⟩ := List.getElem_of_mem hrow
    have hl := hreports.length_eq
    have hrep := (List.forall₂_iff_get.mp hreports).2 i (by omega) hil
    simp only [List.get_eq_getElem] at hrep
    set arc := (transmitters.flatMap (collectSeries geo rx w times maxYaw lo hi))[i]'(by omega) with harc
    obtain ⟨hne, hsorted⟩ := harcs arc (List.getElem_mem _)
    have hsorted := hsorted hp
    obtain ⟨p, hpm, htime, -⟩ := hrep.sample
    obtain ⟨q, hq, hstart⟩ := hrep.first
    obtain ⟨q', hq', hend⟩ := hrep.last
    rw [htime, hstart, hend]
    obtain ⟨k, hk, rfl⟩ := List.getElem_of_mem hpm
    have hq0 : q = arc.points[0]'(by omega) := by
      rw [List.head?_eq_getElem?, List.getElem?_eq_getElem (by omega)] at hq
      exact (Option.some.inj hq).symm
    have hql : q' = arc.points[arc.points.length - 1]'(by omega) := by
      rw [List.getLast?_eq_getElem?, List.getElem?_eq_getElem (by omega)] at hq'
      exact (Option.some.inj hq').symm
    rw [hq0, hql]
    constructor
    · rcases Nat.eq_zero_or_pos k with rfl | h
      · exact le_rfl
      · exact List.pairwise_iff_getElem.mp hsorted 0 k (by omega) hk h
    · rcases Nat.lt_or_ge k (arc.points.length - 1) with h | h
      · exact List.pairwise_iff_getElem.mp hsorted k _ hk (by omega) h
      · have : k = arc.points.length - 1 := by omega
        subst this
        exact le_rfl
  unfold collectRo
  simp only
  split_ifs with hzero
  · have hnil := List.length_eq_zero_iff.mp hzero
    rw [hnil] at hreports ⊢
    cases hreports
    exact ⟨[], [], rfl, List.Perm.refl _, List.Forall₂.nil, List.Pairwise.nil, by simp⟩
  · rw [hrows]
    refine ⟨sort.run rows, rows, rfl, sort.perm rows, hreports, sort.sorted rows, ?_⟩
    intro hp row hrow
    exact hbounds hp row ((sort.perm rows).mem_iff.mp hrow)

end Tatc.Props
