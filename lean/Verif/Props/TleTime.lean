import Verif.Model.TleTime
import Verif.Lemmas.Round
import Verif.Lemmas.Pandas
import Mathlib.Tactic.Linarith
import Mathlib.Data.List.TakeWhile

/-!
# C16, C17, C24, C25, C26: which element set and which time is propagated
-/

namespace Tatc.Props
open Tatc.Pandas Tatc.Coverage Tatc.TleTime

/-- Element set `i` is nearest to `t`: the index is valid and no epoch is closer. -/
def Nearest (epochs : List Int) (t : Int) (i : Nat) : Prop :=
  ∃ h : i < epochs.length, ∀ e ∈ epochs, |t - epochs[i]| ≤ |t - e|

theorem getD_get {α : Type} {l : List α} {i : Nat} {d : α} (h : i < l.length) : l.getD i d = l[i] := by
  rw [List.getD_eq_getElem?_getD, List.getElem?_eq_getElem h]; rfl

theorem searchsorted_split (epochs : List Int) (t : Int) (hs : epochs.Pairwise (· ≤ ·)) :
    ∃ l r, epochs = l ++ r ∧ l.length = searchsortedLeft epochs t ∧ (∀ e ∈ l, e < t) ∧
      ∀ e ∈ r, t ≤ e := by
  refine ⟨epochs.takeWhile fun e => decide (e < t), epochs.dropWhile fun e => decide (e < t),
    (List.takeWhile_append_dropWhile).symm, rfl, ?_, ?_⟩
  · intro e he
    simpa using List.mem_takeWhile_imp he
  · intro e he
    cases hd : epochs.dropWhile fun e => decide (e < t) with
    | nil => rw [hd] at he; simp at he
    | cons a r =>
      have ha : ¬ a < t := by
        have := List.head_dropWhile_not (fun e => decide (e < t)) (l := epochs) (by rw [hd]; simp)
        simpa [hd] using this
      have hsub : (a :: r).Pairwise (· ≤ ·) := by
        rw [← hd]; exact hs.sublist (List.dropWhile_sublist _)
      rw [hd] at he
      rcases List.mem_cons.mp he with rfl | he
      · omega
      · have := (List.pairwise_cons.mp hsub).1 e he
        omega

/-- **C16.** The chosen element set is nearest to the time. -/
theorem C16_closest (epochs : List Int) (hs : epochs.Pairwise (· ≤ ·)) (hne : epochs ≠ []) (t : Int) :
    Nearest epochs t (closestIndex epochs t) := by
  obtain ⟨l, r, he, hl, hlt, hge⟩ := searchsorted_split epochs t hs
  have hlen : epochs.length = l.length + r.length := by rw [he, List.length_append]
  have hpw := hs
  rw [he, List.pairwise_append] at hpw
  unfold closestIndex
  simp only
  rw [← hl]
  -- the last epoch before t and the first at or after t
  have hlast : ∀ (h : 0 < l.length) (hh : l.length - 1 < epochs.length), epochs[l.length - 1] ∈ l ∧
      ∀ e ∈ l, e ≤ epochs[l.length - 1] := by
    intro h hh
    have e1 : epochs[l.length - 1] = l[l.length - 1] := by
      simp only [he]
      rw [List.getElem_append_left]
    rw [e1]
    refine ⟨List.getElem_mem _, ?_⟩
    intro e hel
    obtain ⟨i, hi, rfl⟩ := List.getElem_of_mem hel
    rcases Nat.lt_or_ge i (l.length - 1) with h' | h'
    · exact List.pairwise_iff_getElem.mp hpw.1 i (l.length - 1) hi (by omega) h'
    · have : i = l.length - 1 := by omega
      subst this; exact le_refl _
  have hfirst : ∀ (hh : l.length < epochs.length), epochs[l.length] ∈ r ∧
      ∀ e ∈ r, epochs[l.length] ≤ e := by
    intro hh
    have hr0 : 0 < r.length := by omega
    have e1 : epochs[l.length] = r[0] := by
      simp only [he]
      rw [List.getElem_append_right (le_refl _)]
      simp
    rw [e1]
    refine ⟨List.getElem_mem _, ?_⟩
    intro e hel
    obtain ⟨i, hi, rfl⟩ := List.getElem_of_mem hel
    rcases Nat.eq_zero_or_pos i with h' | h'
    · subst h'; exact le_refl _
    · exact List.pairwise_iff_getElem.mp hpw.2.1 0 i hr0 hi h'
  split_ifs with hc
  · obtain ⟨h0, hc⟩ := hc
    have hh : l.length - 1 < epochs.length := by omega
    obtain ⟨hm, hmax⟩ := hlast h0 hh
    refine ⟨hh, ?_⟩
    intro e hem
    rw [he] at hem
    have hlt' := hlt _ hm
    rcases List.mem_append.mp hem with hel | her
    · have := hmax e hel
      have := hlt e hel
      rw [abs_of_pos (by omega), abs_of_pos (by omega)]
      omega
    · rcases hc with hc | hc
      · have : r.length = 0 := by omega
        rw [List.length_eq_zero_iff] at this
        subst this; simp at her
      · have hh2 : l.length < epochs.length := by
          have := List.length_pos_of_mem her
          omega
        obtain ⟨hfm, hmin⟩ := hfirst hh2
        rw [getD_get hh, getD_get hh2] at hc
        have h1 := hmin e her
        have h2 := hge _ hfm
        rw [abs_of_nonpos (a := t - e) (by omega)]
        rw [abs_of_nonpos (a := t - epochs[l.length]) (by omega)] at hc
        omega
  · have hh : l.length < epochs.length := by
      by_contra hcon
      apply hc
      have hpos : 0 < epochs.length := List.length_pos_iff.mpr hne
      exact ⟨by omega, Or.inl (by omega)⟩
    obtain ⟨hfm, hmin⟩ := hfirst hh
    refine ⟨hh, ?_⟩
    have h2 := hge _ hfm
    intro e hem
    rw [he] at hem
    rcases List.mem_append.mp hem with hel | her
    · have h0 : 0 < l.length := List.length_pos_of_mem hel
      have hh1 : l.length - 1 < epochs.length := by omega
      obtain ⟨hm, hmax⟩ := hlast h0 hh1
      have hc' : ¬ |t - epochs.getD (l.length - 1) 0| < |t - epochs.getD l.length 0| := by
        intro h; exact hc ⟨h0, Or.inr h⟩
      rw [getD_get hh, getD_get hh1] at hc'
      have h3 := hmax e hel
      have h4 := hlt e hel
      have h5 := hlt _ hm
      rw [abs_of_pos (a := t - e) (by omega)]
      rw [abs_of_pos (a := t - epochs[l.length - 1]) (by omega)] at hc'
      omega
    · have h3 := hmin e her
      have h4 := hge e her
      rw [abs_of_nonpos (by omega), abs_of_nonpos (by omega)]
      omega

/-- **C16.** A list of times gives the list of answers. -/
theorem C16_closest_list (epochs ts : List Int) :
    closestIndices epochs ts = ts.map (closestIndex epochs) := by
  apply List.ext_getElem
  · simp [closestIndices]
  · intro i h1 h2
    simp only [closestIndices, List.length_map, List.length_zipIdx] at h1
    simp [closestIndices, closestIndex, List.getElem?_eq_getElem h1]

example : closestIndex [0, 10, 20] 16 = 2 ∧ closestIndex [0, 10, 20] 14 = 1 ∧
    closestIndex [0, 10, 20] 99 = 2 := by decide

example := C16_closest [0, 10, 20] (by decide) (by simp) 16

/-- **C17, full statement**: every part is served by an element set nearest to every time strictly
inside it. -/
def PartitionNearest (epochs : List Int) (ts : List Int) (is : List Nat) : Prop :=
  ∀ (j : Nat) (h : j + 1 < ts.length), ∀ t, ts[j] < t → t < ts[j + 1] →
    Nearest epochs t (is.getD j 0)

/-- **C17 is false**: with element sets at 0 and 10 and the window [0, 10], the second part (5, 10)
is given to element set 0 although element set 1 is nearer. -/
theorem C17_partition_false :
    ¬ ∀ (argsort : List Nat) (epochs : List Int) (start end_ : Int), epochs.Pairwise (· < ·) →
      argsort = List.range epochs.length → start ≤ end_ →
      PartitionNearest epochs (partitionByTle argsort epochs start end_).1
        (partitionByTle argsort epochs start end_).2 := by
  intro h
  have h1 := h [0, 1] [0, 10] 0 10 (by simp) rfl (by decide)
  have e : partitionByTle [0, 1] [0, 10] 0 10 = ([0, 5, 10], [0, 0, 1]) := by decide +kernel
  rw [e] at h1
  obtain ⟨hl, hn⟩ := h1 1 (by simp) 9 (by simp) (by simp)
  have := hn 10 (by simp)
  simp at this

theorem midpoints_length (epochs : List Int) : (midpoints epochs).length = epochs.length - 1 := by
  simp [midpoints]

theorem midpoints_getElem (epochs : List Int) (k : Nat) (h : k < (midpoints epochs).length) :
    (midpoints epochs)[k] =
      epochs[k + 1]'(by rw [midpoints_length] at h; omega) +
        halfDelta (epochs[k]'(by rw [midpoints_length] at h; omega) -
          epochs[k + 1]'(by rw [midpoints_length] at h; omega)) := by
  simp [midpoints]

theorem halfDelta_close (d : Int) : d - 1 ≤ 2 * halfDelta d ∧ 2 * halfDelta d ≤ d + 1 := by
  have h := abs_roundHalfEven_sub_le ((d : ℚ) / 2)
  rw [abs_le] at h
  unfold halfDelta
  constructor
  · have : (d - 1 : ℚ) ≤ 2 * roundHalfEven ((d : ℚ) / 2) := by linarith [h.1]
    exact_mod_cast this
  · have : (2 * roundHalfEven ((d : ℚ) / 2) : ℚ) ≤ d + 1 := by linarith [h.2]
    exact_mod_cast this

theorem halfDelta_bounds (d : Int) (hd : d ≤ 0) : d ≤ halfDelta d ∧ halfDelta d ≤ 0 := by
  unfold halfDelta
  have : (d : ℚ) ≤ 0 := by exact_mod_cast hd
  exact ⟨le_roundHalfEven (by linarith), roundHalfEven_le (by push_cast; linarith)⟩

/-- A midpoint lies between its two epochs and is within half a microsecond of their middle. -/
theorem midpoint_spec (epochs : List Int) (hs : epochs.Pairwise (· ≤ ·)) (k : Nat)
    (h : k < (midpoints epochs).length) (h0 : k < epochs.length) (h1 : k + 1 < epochs.length) :
    epochs[k] ≤ (midpoints epochs)[k] ∧ (midpoints epochs)[k] ≤ epochs[k + 1] ∧
      |2 * (midpoints epochs)[k] - (epochs[k] + epochs[k + 1])| ≤ 1 := by
  rw [midpoints_getElem]
  have hle := List.pairwise_iff_getElem.mp hs k (k + 1) h0 h1 (by omega)
  have hb := halfDelta_bounds (epochs[k] - epochs[k + 1]) (by omega)
  have hc := halfDelta_close (epochs[k] - epochs[k + 1])
  refine ⟨by omega, by omega, ?_⟩
  rw [abs_le]
  constructor <;> omega

theorem midpoints_sorted (epochs : List Int) (hs : epochs.Pairwise (· ≤ ·)) :
    (midpoints epochs).Pairwise (· ≤ ·) := by
  rw [List.pairwise_iff_getElem]
  intro i j hi hj hij
  rw [midpoints_length] at hi hj
  have h1 := midpoint_spec epochs hs i (by rw [midpoints_length]; exact hi) (by omega) (by omega)
  have h2 := midpoint_spec epochs hs j (by rw [midpoints_length]; exact hj) (by omega) (by omega)
  have h3 : epochs[i + 1] ≤ epochs[j] := by
    rcases Nat.lt_or_ge (i + 1) j with h | h
    · exact List.pairwise_iff_getElem.mp hs _ _ (by omega) (by omega) h
    · have : j = i + 1 := by omega
      subst this; exact le_refl _
  omega

/-- **C17, the times** (partial).  The partition begins with `start`, ends with `end`, never
decreases, names one index per time, and all inner times are midpoints of consecutive epochs. -/
theorem C17_times_partial (argsort : List Nat) (epochs : List Int) (hs : epochs.Pairwise (· ≤ ·))
    (start end_ : Int) (hse : start ≤ end_) :
    let p := partitionByTle argsort epochs start end_
    p.1.head? = some start ∧ p.1.getLast? = some end_ ∧ p.1.Pairwise (· ≤ ·) ∧
      p.1.length = p.2.length ∧ ∀ t ∈ p.1, start ≤ t ∧ t ≤ end_ := by
  unfold partitionByTle
  split_ifs with h
  · simp [hse]
  · simp only
    set sel := (midpoints epochs).zipIdx.filter fun p => decide (start < p.1) && decide (p.1 < end_)
      with hsel
    have hin : ∀ t ∈ sel.map Prod.fst, start < t ∧ t < end_ := by
      intro t ht
      obtain ⟨p, hp, rfl⟩ := List.mem_map.mp ht
      have := (List.mem_filter.mp hp).2
      simpa using this
    have hpw : (sel.map Prod.fst).Pairwise (· ≤ ·) := by
      rw [List.pairwise_map]
      apply List.Pairwise.filter
      have := midpoints_sorted epochs hs
      rw [← List.zipIdx_map_fst 0 (midpoints epochs), List.pairwise_map] at this
      exact this
    refine ⟨by simp, by rw [List.getLast?_append]; simp, ?_, by simp, ?_⟩
    · rw [List.pairwise_append, List.pairwise_append]
      refine ⟨⟨by simp, hpw, ?_⟩, by simp, ?_⟩
      · intro a ha b hb
        rw [List.mem_singleton] at ha; subst ha
        exact (hin b hb).1.le
      · intro a ha b hb
        rw [List.mem_singleton] at hb; subst hb
        rcases List.mem_append.mp ha with ha | ha
        · rw [List.mem_singleton] at ha; subst ha; exact hse
        · exact (hin a ha).2.le
    · intro t ht
      rcases List.mem_append.mp ht with ht | ht
      · rcases List.mem_append.mp ht with ht | ht
        · rw [List.mem_singleton] at ht; subst ht; exact ⟨le_refl _, hse⟩
        · exact ⟨(hin t ht).1.le, (hin t ht).2.le⟩
      · rw [List.mem_singleton] at ht; subst ht; exact ⟨hse, le_refl _⟩

/-- Between two consecutive midpoints the element set in between is nearest. -/
theorem nearest_of_between (epochs : List Int) (hs : epochs.Pairwise (· ≤ ·)) (k : Nat)
    (hk : k < epochs.length) (t : Int)
    (hlo : ∀ (h : k - 1 < (midpoints epochs).length), 0 < k → (midpoints epochs)[k - 1] < t)
    (hhi : ∀ (h : k < (midpoints epochs).length), t < (midpoints epochs)[k]) :
    Nearest epochs t k := by
  refine ⟨hk, ?_⟩
  have mono : ∀ i j (hi : i < epochs.length) (hj : j < epochs.length), i ≤ j → epochs[i] ≤ epochs[j] := by
    intro i j hi hj hij
    rcases Nat.lt_or_ge i j with h | h
    · exact List.pairwise_iff_getElem.mp hs _ _ hi hj h
    · have : i = j := by omega
      subst this; exact le_refl _
  have hlen := midpoints_length epochs
  intro e he
  obtain ⟨i, hi, rfl⟩ := List.getElem_of_mem he
  rcases Nat.lt_trichotomy i k with h | h | h
  · -- an earlier epoch: use the midpoint below
    have h1 := hlo (by omega) (by omega)
    have h2 := midpoint_spec epochs hs (k - 1) (by omega) (by omega) (by omega)
    have h3 := mono i (k - 1) hi (by omega) (by omega)
    have hkk : k - 1 + 1 = k := by omega
    simp only [hkk] at h2
    have h4 := mono (k - 1) k (by omega) hk (by omega)
    rw [abs_le] at h2
    rw [abs_le]
    have hpos : epochs[i] ≤ t := by omega
    rw [abs_of_nonneg (a := t - epochs[i]) (by omega)]
    constructor <;> omega
  · subst h; exact le_refl _
  · have h1 := hhi (by omega)
    have h2 := midpoint_spec epochs hs k (by omega) (by omega) (by omega)
    have h3 := mono (k + 1) i (by omega) hi (by omega)
    have h4 := mono k (k + 1) hk (by omega) (by omega)
    rw [abs_le] at h2
    rw [abs_le]
    rw [abs_of_nonpos (a := t - epochs[i]) (by omega)]
    constructor <;> omega

theorem sel_pairwise (epochs : List Int) (f : Int × Nat → Bool) :
    ((midpoints epochs).zipIdx.filter f).Pairwise (fun a b => a.2 < b.2) := by
  apply List.Pairwise.filter
  rw [List.pairwise_iff_getElem]
  intro i j hi hj hij
  simpa using hij

theorem mem_zipIdx_mid {epochs : List Int} {p : Int × Nat} (h : p ∈ (midpoints epochs).zipIdx) :
    ∃ hk : p.2 < (midpoints epochs).length, (midpoints epochs)[p.2] = p.1 := by
  obtain ⟨a, k⟩ := p
  have := List.mem_zipIdx_iff_getElem?.mp h
  obtain ⟨hk, e⟩ := List.getElem?_eq_some_iff.mp this
  exact ⟨hk, e⟩

theorem abs_le_abs_iff_of_lt {t a b : Int} (h : a < b) : |t - b| ≤ |t - a| ↔ a + b ≤ 2 * t := by
  rcases abs_cases (t - b) with h1 | h1 <;> rcases abs_cases (t - a) with h2 | h2 <;> omega

theorem abs_le_abs_iff_of_gt {t a b : Int} (h : a < b) : |t - a| ≤ |t - b| ↔ 2 * t ≤ a + b := by
  rcases abs_cases (t - b) with h1 | h1 <;> rcases abs_cases (t - a) with h2 | h2 <;> omega

theorem strict_le {l : List Int} (h : l.Pairwise (· < ·)) : l.Pairwise (· ≤ ·) := h.imp le_of_lt

/-- **C17, the first part** (partial: epochs distinct, `start` not exactly a midpoint).  The
element set named for the first part is nearest to every time strictly inside that part; in
particular a window without a midpoint is served right throughout. -/
theorem C17_first_part_partial (argsort : List Nat) (epochs : List Int) (hs : epochs.Pairwise (· < ·))
    (hne : epochs ≠ []) (start end_ : Int) (hmid : start ∉ midpoints epochs)
    (t : Int) (hst : start < t)
    (ht : ∀ x ∈ (partitionByTle argsort epochs start end_).1.tail, t < x) :
    Nearest epochs t ((partitionByTle argsort epochs start end_).2.getD 0 0) := by
  have hle := strict_le hs
  unfold partitionByTle at ht ⊢
  split_ifs at ht ⊢ with h
  · -- a single element set
    have h1 : epochs.length = 1 := by
      have := List.length_pos_iff.mpr hne
      omega
    obtain ⟨e, rfl⟩ := List.length_eq_one_iff.mp h1
    exact ⟨by simp, by simp⟩
  · simp only at ht ⊢
    set sel := (midpoints epochs).zipIdx.filter fun p => decide (start < p.1) && decide (p.1 < end_)
      with hsel
    have hi0 : ([closestIndex epochs start] ++ sel.map (fun p => argsort.getD p.2 0) ++
        [closestIndex epochs end_]).getD 0 0 = closestIndex epochs start := by simp
    rw [hi0]
    have htail : ([start] ++ sel.map Prod.fst ++ [end_]).tail = sel.map Prod.fst ++ [end_] := by simp
    rw [htail] at ht
    obtain ⟨hi, hn⟩ := C16_closest epochs hle hne start
    set i := closestIndex epochs start with hidef
    have hlen := midpoints_length epochs
    apply nearest_of_between epochs hle i hi t
    · intro hk h0
      have hsp := midpoint_spec epochs hle (i - 1) hk (by omega) (by omega)
      have hlt := List.pairwise_iff_getElem.mp hs (i - 1) i (by omega) hi (by omega)
      have h1 := hn epochs[i - 1] (List.getElem_mem _)
      have hkk : i - 1 + 1 = i := by omega
      simp only [hkk] at hsp
      rw [abs_le] at hsp
      rw [abs_le_abs_iff_of_lt hlt] at h1
      omega
    · intro hk
      have hsp := midpoint_spec epochs hle i hk (by omega) (by omega)
      have hlt := List.pairwise_iff_getElem.mp hs i (i + 1) hi (by omega) (by omega)
      have h1 := hn epochs[i + 1] (List.getElem_mem _)
      rw [abs_le] at hsp
      rw [abs_le_abs_iff_of_gt hlt] at h1
      have hne' : start ≠ (midpoints epochs)[i] := by
        rintro h'
        exact hmid (h' ▸ List.getElem_mem _)
      by_cases hm : (midpoints epochs)[i] < end_
      · apply ht
        apply List.mem_append_left
        refine List.mem_map.mpr ⟨((midpoints epochs)[i], i), ?_, rfl⟩
        rw [hsel, List.mem_filter]
        refine ⟨List.mem_zipIdx_iff_getElem?.mpr (by simp [List.getElem?_eq_getElem hk]), ?_⟩
        simp only [Bool.and_eq_true, decide_eq_true_eq]
        omega
      · have := ht end_ (by simp)
        omega

/-- **C17, later parts**: with distinct epochs the element set nearest throughout a later part is
the *successor* of the one the partition names (the source of `C17_partition_false`). -/
theorem C17_later_parts_off_by_one (epochs : List Int) (hs : epochs.Pairwise (· < ·))
    (start end_ : Int) (p : List Int × List Nat)
    (hp : partitionByTle (List.range epochs.length) epochs start end_ = p) :
    ∀ (j : Nat) (h : j + 1 < p.1.length), 0 < j → ∀ t, p.1[j] < t → t < p.1[j + 1] →
      Nearest epochs t (p.2.getD j 0 + 1) := by
  have hle := strict_le hs
  have hlen := midpoints_length epochs
  unfold partitionByTle at hp
  split_ifs at hp with h
  · subst hp
    intro j hj h0
    simp at hj
    omega
  · simp only at hp
    set sel := (midpoints epochs).zipIdx.filter fun p => decide (start < p.1) && decide (p.1 < end_)
      with hsel
    subst hp
    simp only
    intro j hj h0 t hlo hhi
    have hlen1 : ([start] ++ sel.map Prod.fst ++ [end_]).length = sel.length + 2 := by simp
    rw [hlen1] at hj
    obtain ⟨i, rfl⟩ : ∃ i, j = i + 1 := ⟨j - 1, by omega⟩
    have hi : i < sel.length := by omega
    have e1 : ([start] ++ sel.map Prod.fst ++ [end_])[i + 1]'(by rw [hlen1]; omega) = sel[i].1 := by
      simp [hi]
    rw [e1] at hlo
    have hmem : sel[i] ∈ sel := List.getElem_mem _
    obtain ⟨hz, hcond⟩ := List.mem_filter.mp hmem
    obtain ⟨hk, hke⟩ := mem_zipIdx_mid hz
    have e2 : ([closestIndex epochs start] ++ sel.map (fun p => (List.range epochs.length).getD p.2 0) ++
        [closestIndex epochs end_]).getD (i + 1) 0 = sel[i].2 := by
      rw [getD_get (by simp; omega)]
      have : sel[i].2 < epochs.length := by omega
      simp [hi, List.getElem?_range this]
    rw [e2]
    apply nearest_of_between epochs hle (sel[i].2 + 1) (by omega) t
    · intro _ _
      simp only [Nat.add_sub_cancel]
      rw [hke]; exact hlo
    · intro hk1
      simp only [Bool.and_eq_true, decide_eq_true_eq] at hcond
      have hmono : (midpoints epochs)[sel[i].2] ≤ (midpoints epochs)[sel[i].2 + 1] :=
        List.pairwise_iff_getElem.mp (midpoints_sorted epochs hle) _ _ hk hk1 (by omega)
      by_cases hm : (midpoints epochs)[sel[i].2 + 1] < end_
      · have hin : ((midpoints epochs)[sel[i].2 + 1], sel[i].2 + 1) ∈ sel := by
          refine List.mem_filter.mpr ⟨List.mem_zipIdx_iff_getElem?.mpr (by simp [List.getElem?_eq_getElem hk1]), ?_⟩
          simp only [Bool.and_eq_true, decide_eq_true_eq]
          omega
        obtain ⟨q, hq, hqe⟩ := List.getElem_of_mem hin
        have hpw := sel_pairwise epochs (fun p => decide (start < p.1) && decide (p.1 < end_))
        rw [← hsel] at hpw
        have hqi : i < q := by
          rcases Nat.lt_trichotomy q i with hlt | heq | hgt
          · have := List.pairwise_iff_getElem.mp hpw q i hq hi hlt
            rw [hqe] at this
            simp only at this
            omega
          · subst heq
            have := congrArg Prod.snd hqe
            simp only at this
            omega
          · exact hgt
        have hi1 : i + 1 < sel.length := by omega
        have e3 : ([start] ++ sel.map Prod.fst ++ [end_])[i + 1 + 1]'(by rw [hlen1]; omega) = sel[i + 1].1 := by
          simp [hi1]
        rw [e3] at hhi
        have : sel[i + 1].1 ≤ sel[q].1 := by
          rcases Nat.lt_or_ge (i + 1) q with h' | h'
          · obtain ⟨ha, hae⟩ := mem_zipIdx_mid (List.mem_filter.mp (List.getElem_mem hi1)).1
            obtain ⟨hb, hbe⟩ := mem_zipIdx_mid (List.mem_filter.mp (List.getElem_mem hq)).1
            rw [← hae, ← hbe]
            exact List.pairwise_iff_getElem.mp (midpoints_sorted epochs hle) _ _ ha hb
              (List.pairwise_iff_getElem.mp hpw _ _ hi1 hq h')
          · have : q = i + 1 := by omega
            subst this; exact le_refl _
        rw [hqe] at this
        simp only at this
        omega
      · have : t < end_ := by
          rcases Nat.lt_or_ge (i + 1) sel.length with hi1 | hi1
          · have e3 : ([start] ++ sel.map Prod.fst ++ [end_])[i + 1 + 1]'(by rw [hlen1]; omega) = sel[i + 1].1 := by
              simp [hi1]
            rw [e3] at hhi
            have := (List.mem_filter.mp (List.getElem_mem hi1)).2
            simp only [Bool.and_eq_true, decide_eq_true_eq] at this
            omega
          · have e3 : ([start] ++ sel.map Prod.fst ++ [end_])[i + 1 + 1]'(by rw [hlen1]; omega) = end_ := by
              have : i + 1 = sel.length := by omega
              simp [this]
            rwa [e3] at hhi
        omega

example : partitionByTle [0, 1, 2] [0, 10, 30] 2 100 = ([2, 5, 20, 100], [0, 0, 1, 2]) := by
  decide +kernel

/-- The hypotheses of the partial theorems are met by these epochs and this window. -/
example := C17_times_partial [0, 1, 2] [0, 10, 30] (by decide) 2 100 (by decide)
example : Nearest [0, 10, 30] 4 0 :=
  C17_first_part_partial [0, 1, 2] [0, 10, 30] (by decide) (by simp) 2 100 (by decide +kernel) 4
    (by decide) (by decide +kernel)
example : Nearest [0, 10, 30] 15 (0 + 1) :=
  C17_later_parts_off_by_one [0, 10, 30] (by decide) 2 100 ([2, 5, 20, 100], [0, 0, 1, 2])
    (by decide +kernel) 1 (by simp) (by simp) 15 (by simp) (by simp)

/-- **C24.** The propagated time is a whole number of cycles from the requested time, less than a
cycle from the epoch and on the same side of it; without repeat tracking it is the requested
time. -/
theorem C24_repeat_time (epoch cycle t : Int) (hc : 0 < cycle) :
    (∃ k : Int, propagatedTime true epoch (some cycle) t = t + k * cycle) ∧
    |propagatedTime true epoch (some cycle) t - epoch| < cycle ∧
    (epoch ≤ t → epoch ≤ propagatedTime true epoch (some cycle) t ∧
      propagatedTime true epoch (some cycle) t ≤ t) ∧
    (t ≤ epoch → propagatedTime true epoch (some cycle) t ≤ epoch ∧
      t ≤ propagatedTime true epoch (some cycle) t) ∧
    propagatedTime true epoch none t = t ∧
    ∀ c, propagatedTime false epoch c t = t := by
  have e : propagatedTime true epoch (some cycle) t = repeatTime epoch cycle t := rfl
  rw [e]
  refine ⟨?_, ?_, ?_, ?_, rfl, fun _ => rfl⟩
  all_goals unfold repeatTime
  all_goals have h1 := Int.emod_nonneg |t - epoch| hc.ne'
  all_goals have h2 := Int.emod_lt_of_pos |t - epoch| hc
  all_goals have h3 := Int.emod_add_mul_ediv |t - epoch| cycle
  all_goals have h4 : 0 ≤ |t - epoch| / cycle := Int.ediv_nonneg (abs_nonneg _) hc.le
  all_goals have h5 : 0 ≤ cycle * (|t - epoch| / cycle) := mul_nonneg hc.le h4
  all_goals rcases lt_trichotomy (t - epoch) 0 with hlt | heq | hgt
  · rw [Int.sign_eq_neg_one_of_neg hlt]
    rw [abs_of_neg hlt] at *
    exact ⟨-(t - epoch) / cycle, by linarith [mul_comm cycle (-(t - epoch) / cycle)]⟩
  · exact ⟨0, by rw [heq]; simp; omega⟩
  · rw [Int.sign_eq_one_of_pos hgt]
    rw [abs_of_pos hgt] at *
    exact ⟨-((t - epoch) / cycle), by linarith [mul_comm cycle ((t - epoch) / cycle)]⟩
  · rw [Int.sign_eq_neg_one_of_neg hlt, abs_lt]; constructor <;> linarith
  · rw [heq]; simpa using hc
  · rw [Int.sign_eq_one_of_pos hgt, abs_lt]; constructor <;> linarith
  · intro h; omega
  · intro h; rw [heq]; simp; omega
  · intro h
    rw [Int.sign_eq_one_of_pos hgt]
    rw [abs_of_pos hgt] at *
    constructor <;> linarith
  · intro h
    rw [Int.sign_eq_neg_one_of_neg hlt]
    rw [abs_of_neg hlt] at *
    constructor <;> linarith
  · intro h; rw [heq]; simp; omega
  · intro h; omega

example : propagatedTime true 100 (some 30) 175 = 115 ∧ propagatedTime true 100 (some 30) 25 = 85 := by
  decide

/-- **C25.** When a repeat cycle shorter than the window is used and the events found in the first
cycle lie in `(start, start + cycle]` in time order, the events are exactly all whole-cycle
translates (by any number of cycles) that fall in the window, in time order, inside the window,
none repeated (strictly in time order when the first cycle's events are).
Otherwise they are the events found in the window. -/
theorem C25_repeat_events (start end_ cycle : Int) (hc : 0 < cycle)
    (find : Int → Int → List (Int × EventKind))
    (hin : ∀ e ∈ find start (start + cycle), start < e.1 ∧ e.1 ≤ start + cycle)
    (hsorted : (find start (start + cycle)).Pairwise fun a b => a.1 ≤ b.1) :
    (cycle < end_ - start →
      (∀ t k, (t, k) ∈ observationEvents true (some cycle) find start end_ ↔
        t ≤ end_ ∧ ∃ n : Nat, (t - n * cycle, k) ∈ find start (start + cycle)) ∧
      (observationEvents true (some cycle) find start end_).Pairwise (fun a b => a.1 ≤ b.1) ∧
      ((find start (start + cycle)).Pairwise (fun a b => a.1 < b.1) →
        (observationEvents true (some cycle) find start end_).Pairwise (fun a b => a.1 < b.1)) ∧
      ∀ e ∈ observationEvents true (some cycle) find start end_, start < e.1 ∧ e.1 ≤ end_) ∧
    (end_ - start ≤ cycle →
      observationEvents true (some cycle) find start end_ = find start end_) ∧
    observationEvents true none find start end_ = find start end_ ∧
    ∀ c, observationEvents false c find start end_ = find start end_ := by
  refine ⟨?_, ?_, rfl, fun _ => rfl⟩
  · intro hlt
    have e : observationEvents true (some cycle) find start end_ =
        repeatEvents start end_ cycle (find start (start + cycle)) := by
      simp [observationEvents, hlt]
    rw [e]
    generalize find start (start + cycle) = base at hin hsorted
    unfold repeatEvents
    split_ifs with hb
    · rw [List.isEmpty_iff] at hb
      subst hb
      simp
    · simp only
      set n := ⌈((end_ - start : Int) : ℚ) / (cycle : ℚ)⌉.toNat with hn
      have hcq : (0 : ℚ) < cycle := by exact_mod_cast hc
      have hcover : end_ - start ≤ n * cycle := by
        have h1 := Int.le_ceil (((end_ - start : Int) : ℚ) / (cycle : ℚ))
        have h2 : ⌈((end_ - start : Int) : ℚ) / (cycle : ℚ)⌉ ≤ (n : Int) := Int.self_le_toNat _
        have h3 : ((end_ - start : Int) : ℚ) / (cycle : ℚ) ≤ (n : ℚ) :=
          h1.trans (by exact_mod_cast h2)
        rw [div_le_iff₀ hcq] at h3
        exact_mod_cast h3
      have hmem : ∀ t k, (t, k) ∈ ((List.range n).flatMap fun i : Nat =>
          base.map fun e => (e.1 + (i : Int) * cycle, e.2)).filter (fun e => decide (e.1 ≤ end_)) ↔
          t ≤ end_ ∧ ∃ m : Nat, (t - m * cycle, k) ∈ base := by
        intro t k
        rw [List.mem_filter, List.mem_flatMap, decide_eq_true_eq]
        constructor
        · rintro ⟨⟨i, hi, hm⟩, hle⟩
          refine ⟨hle, i, ?_⟩
          obtain ⟨b, hbm, hbe⟩ := List.mem_map.mp hm
          obtain ⟨b1, b2⟩ := b
          simp only [Prod.mk.injEq] at hbe
          rw [← hbe.1, ← hbe.2]
          simpa using hbm
        · rintro ⟨hle, m, hm⟩
          refine ⟨⟨m, ?_, ?_⟩, hle⟩
          · rw [List.mem_range]
            by_contra hcon
            have h1 := (hin _ hm).1
            simp only at h1
            have h2 : (n : Int) * cycle ≤ m * cycle :=
              mul_le_mul_of_nonneg_right (by exact_mod_cast (not_lt.mp hcon)) hc.le
            linarith
          · exact List.mem_map.mpr ⟨_, hm, by simp⟩
      refine ⟨hmem, ?_, ?_, ?_⟩
      · apply List.Pairwise.filter
        rw [List.pairwise_flatMap]
        refine ⟨?_, ?_⟩
        · intro i _
          rw [List.pairwise_map]
          refine hsorted.imp ?_
          intro a b hab
          simp only
          linarith
        · refine List.pairwise_lt_range.imp ?_
          intro i j hij x hx y hy
          obtain ⟨a, ha, rfl⟩ := List.mem_map.mp hx
          obtain ⟨b, hb', rfl⟩ := List.mem_map.mp hy
          have h1 := hin a ha
          have h2 := hin b hb'
          have h3 : ((i : Int) + 1) * cycle ≤ j * cycle :=
            mul_le_mul_of_nonneg_right (by exact_mod_cast hij) hc.le
          simp only
          linarith
      · intro hsorted
        apply List.Pairwise.filter
        rw [List.pairwise_flatMap]
        refine ⟨?_, ?_⟩
        · intro i _
          rw [List.pairwise_map]
          refine hsorted.imp ?_
          intro a b hab
          simp only
          linarith
        · refine List.pairwise_lt_range.imp ?_
          intro i j hij x hx y hy
          obtain ⟨a, ha, rfl⟩ := List.mem_map.mp hx
          obtain ⟨b, hb', rfl⟩ := List.mem_map.mp hy
          have h1 := hin a ha
          have h2 := hin b hb'
          have h3 : ((i : Int) + 1) * cycle ≤ j * cycle :=
            mul_le_mul_of_nonneg_right (by exact_mod_cast hij) hc.le
          simp only
          linarith
      · rintro ⟨t, k⟩ he
        obtain ⟨hle, m, hm⟩ := (hmem t k).mp he
        have h1 := (hin _ hm).1
        simp only at h1
        have h2 : 0 ≤ (m : Int) * cycle := mul_nonneg (by positivity) hc.le
        exact ⟨by simp only; linarith, hle⟩
  · intro h
    have : ¬ cycle < end_ - start := by omega
    simp [observationEvents, this]

example : observationEvents true (some 10) (fun _ _ => [(2, .rise), (4, .set)]) 0 25 =
    [(2, .rise), (4, .set), (12, .rise), (14, .set), (22, .rise), (24, .set)] := by decide +kernel

/-- The hypotheses are met by that search. -/
example := C25_repeat_events 0 25 10 (by decide)
  (fun a b => [(2, .rise), (4, .set)].filter fun e => decide (a < e.1) && decide (e.1 ≤ b))
  (by decide) (by decide)

/-- **C26.** With several element sets, if each search returns events in time order within its
part, the combined events are in time order within the window, and they are exactly the events
found in some part with the element set named for that part. -/
theorem C26_multi_events (argsort : List Nat) (epochs : List Int) (hs : epochs.Pairwise (· ≤ ·))
    (start end_ : Int) (hse : start ≤ end_) (find : Nat → Int → Int → List (Int × EventKind))
    (hfind : ∀ i a b, a ≤ b → (find i a b).Pairwise (fun x y => x.1 ≤ y.1) ∧
      ∀ e ∈ find i a b, a ≤ e.1 ∧ e.1 ≤ b) :
    let p := partitionByTle argsort epochs start end_
    (multiEvents argsort epochs find start end_).Pairwise (fun x y => x.1 ≤ y.1) ∧
    (∀ e ∈ multiEvents argsort epochs find start end_, start ≤ e.1 ∧ e.1 ≤ end_) ∧
    ∀ e, e ∈ multiEvents argsort epochs find start end_ ↔
      ∃ (j : Nat) (h : j + 1 < p.1.length), e ∈ find (p.2.getD j 0) p.1[j] p.1[j + 1] := by
  intro p
  have hpl : p.1.length = (partitionByTle argsort epochs start end_).1.length := rfl
  obtain ⟨-, -, hpw, -, hbd⟩ := C17_times_partial argsort epochs hs start end_ hse
  have hmem : ∀ e, e ∈ multiEvents argsort epochs find start end_ ↔
      ∃ (j : Nat) (h : j + 1 < p.1.length), e ∈ find (p.2.getD j 0) p.1[j] p.1[j + 1] := by
    intro e
    unfold multiEvents
    simp only
    rw [List.mem_flatMap]
    constructor
    · rintro ⟨j, hj, he⟩
      rw [List.mem_range] at hj
      have hj' : j + 1 < p.1.length := by omega
      refine ⟨j, hj', ?_⟩
      rw [getD_get (l := (partitionByTle argsort epochs start end_).1) (by omega),
        getD_get (l := (partitionByTle argsort epochs start end_).1) hj'] at he
      exact he
    · rintro ⟨j, hj', he⟩
      refine ⟨j, by rw [List.mem_range]; omega, ?_⟩
      rw [getD_get (l := (partitionByTle argsort epochs start end_).1) (by omega),
        getD_get (l := (partitionByTle argsort epochs start end_).1) hj']
      exact he
  have hmono : ∀ (i j : Nat) (hi : i < p.1.length) (hj : j < p.1.length), i ≤ j → p.1[i] ≤ p.1[j] := by
    intro i j hi hj hij
    rcases Nat.lt_or_ge i j with h | h
    · exact List.pairwise_iff_getElem.mp hpw _ _ hi hj h
    · have : i = j := by omega
      subst this; exact le_refl _
  refine ⟨?_, ?_, hmem⟩
  · unfold multiEvents
    simp only
    rw [List.pairwise_flatMap]
    constructor
    · intro j hj
      rw [List.mem_range] at hj
      have hj' : j + 1 < p.1.length := by omega
      rw [getD_get (l := (partitionByTle argsort epochs start end_).1) (by omega),
        getD_get (l := (partitionByTle argsort epochs start end_).1) hj']
      exact (hfind _ _ _ (hmono j (j + 1) (by omega) hj' (by omega))).1
    · rw [List.pairwise_iff_getElem]
      intro i j hi hj hij x hx y hy
      simp only [List.getElem_range, List.length_range] at hi hj hx hy
      have hi' : i + 1 < p.1.length := by omega
      have hj' : j + 1 < p.1.length := by omega
      rw [getD_get (l := (partitionByTle argsort epochs start end_).1) (by omega),
        getD_get (l := (partitionByTle argsort epochs start end_).1) hi'] at hx
      rw [getD_get (l := (partitionByTle argsort epochs start end_).1) (by omega),
        getD_get (l := (partitionByTle argsort epochs start end_).1) hj'] at hy
      have h1 := ((hfind _ _ _ (hmono i (i + 1) (by omega) hi' (by omega))).2 x hx).2
      have h2 := ((hfind _ _ _ (hmono j (j + 1) (by omega) hj' (by omega))).2 y hy).1
      have h3 := hmono (i + 1) j hi' (by omega) (by omega)
      exact h1.trans (h3.trans h2)
  · intro e he
    obtain ⟨j, hj, hm⟩ := (hmem e).mp he
    have h1 := (hfind _ _ _ (hmono j (j + 1) (by omega) hj (by omega))).2 e hm
    have h2 := hbd p.1[j] (List.getElem_mem _)
    have h3 := hbd p.1[j + 1] (List.getElem_mem _)
    omega

example : multiEvents [0, 1] [0, 100] (fun i a b => [(a, .rise), (a + i, .culminate), (b, .set)]) 10 90 =
    [(10, .rise), (10, .culminate), (50, .set), (50, .rise), (50, .culminate), (90, .set)] := by
  decide +kernel

/-- The hypotheses are met by three element sets and a search that finds a rise and a set. -/
example := C26_multi_events [0, 1, 2] [0, 100, 200] (by decide) 10 190 (by decide)
  (fun _ a b => [(a, .rise), (b, .set)]) (by intro i a b h; simp [h])

end Tatc.Props
