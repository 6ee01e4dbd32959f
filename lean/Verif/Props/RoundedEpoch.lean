import Verif.Lemmas.IeeeSum
import Verif.Props.Aggregate

/-!
# C159: the epochs of merged observations as they are computed
-/

namespace Tatc.Props
open Tatc.Pandas Tatc.Spec Tatc.Coverage

/-- Two rows that agree but for their epochs, which are at most `d` apart. -/
structure SameBut (d : ℚ) (r e : AggRow) : Prop where
  pointId : r.pointId = e.pointId
  satellite : r.satellite = e.satellite
  instrument : r.instrument = e.instrument
  start : r.start = e.start
  end_ : r.end_ = e.end_
  access : r.access = e.access
  revisit : r.revisit = e.revisit
  epoch : |r.epoch - e.epoch| ≤ d

theorem forall₂_flatMap {α β : Type*} {R : β → β → Prop} {f g : α → List β} (l : List α)
    (h : ∀ x ∈ l, List.Forall₂ R (f x) (g x)) : List.Forall₂ R (l.flatMap f) (l.flatMap g) := by
  induction l with
  | nil => exact .nil
  | cons x l ih =>
    rw [List.flatMap_cons, List.flatMap_cons]
    exact List.rel_append (h x List.mem_cons_self) (ih fun y hy => h y (List.mem_cons_of_mem _ hy))

theorem withMetrics_alike {d : ℚ} {f g : List Obs → Obs} (l : List (List Obs))
    (h : ∀ x ∈ l, (f x).pointId = (g x).pointId ∧ (f x).satellite = (g x).satellite ∧
      (f x).instrument = (g x).instrument ∧ (f x).start = (g x).start ∧ (f x).end_ = (g x).end_ ∧
      |(f x).epoch - (g x).epoch| ≤ d) :
    List.Forall₂ (SameBut d) (withMetrics (l.map f)) (withMetrics (l.map g)) := by
  have hends : (l.map f).map (·.end_) = (l.map g).map (·.end_) := by
    rw [List.map_map, List.map_map]
    exact List.map_congr_left fun x hx => (h x hx).2.2.2.2.1
  unfold withMetrics
  rw [hends]
  generalize shift ((l.map g).map (·.end_)) = prev
  clear hends
  induction l generalizing prev with
  | nil => exact .nil
  | cons x l ih =>
    cases prev with
    | nil => exact .nil
    | cons p prev =>
      obtain ⟨h1, h2, h3, h4, h5, h6⟩ := h x List.mem_cons_self
      refine .cons ⟨h1, h2, h3, h4, h5, ?_, ?_, h6⟩ (ih (fun y hy => h y (List.mem_cons_of_mem _ hy)) prev)
      · show (f x).end_ - (f x).start = (g x).end_ - (g x).start
        rw [h4, h5]
      · show p.map (fun e => (f x).start - e) = p.map (fun e => (g x).start - e)
        rw [h4]

/-- **C159 (epochs).** The rows that `aggregate_observations` gives with the arithmetic of the machine are those with
exact means, and no epoch is off by more than 2.5 microseconds, for time stamps until 2043. -/
theorem C159_epoch (sort : SortValues Obs.start) (obs : List Obs) (hn : obs.length ≤ 2 ^ 48)
    (hbig : ∀ o ∈ obs, |o.epoch| ≤ 2 ^ 61) :
    List.Forall₂ (SameBut 2500) (Ieee.aggregateObservations sort obs) (aggregateObservations sort obs) := by
  unfold Ieee.aggregateObservations aggregateObservations
  split_ifs with h
  · exact .nil
  apply forall₂_flatMap
  intro kg hkg
  unfold Ieee.aggregatePoint aggregatePoint
  apply withMetrics_alike
  intro g hg
  refine ⟨rfl, rfl, rfl, rfl, rfl, ?_⟩
  have hall : g ∈ allGroups sort obs := List.mem_flatMap.2 ⟨kg, hkg, hg⟩
  have ok := allGroups_ok sort obs g hall
  have hlen : g.length ≤ 2 ^ 48 := by
    have h1 := (allGroups_perm sort obs).length_eq
    have h2 : g.length ≤ (allGroups sort obs).flatten.length :=
      (List.sublist_flatten_of_mem hall).length_le
    omega
  have hc := Ieee.meanEpoch_close (g.map fun o => (o.epoch : ℝ)) (by simpa using ok.ne) (by simpa using hlen) (by
    intro t ht
    obtain ⟨o, ho, rfl⟩ := List.mem_map.1 ht
    have := hbig o (ok.sub o ho)
    show |((o.epoch : ℚ) : ℝ)| ≤ 2 ^ 61
    exact_mod_cast this)
  show |((Ieee.meanEpoch (g.map fun o => (o.epoch : ℝ)) : ℤ) : ℚ) - mean (g.map (·.epoch))| ≤ 2500
  generalize Ieee.meanEpoch (g.map fun o => (o.epoch : ℝ)) = v at *
  have e : ((((v : ℤ) : ℚ) - mean (g.map (·.epoch)) : ℚ) : ℝ) =
      (v : ℝ) - (g.map fun o => (o.epoch : ℝ)).sum / (g.map fun o => (o.epoch : ℝ)).length := by
    unfold mean
    push_cast
    rw [List.map_map]
    simp [Function.comp_def]
  rw [← e] at hc
  exact_mod_cast hc

/-- **C159 (epoch within the row).** If the epoch of every observation is at least 2.5 microseconds after its start and
before its end, the epoch of every row is within the row, as it is computed. -/
theorem C159_within (sort : SortValues Obs.start) (obs : List Obs) (hn : obs.length ≤ 2 ^ 48)
    (hbig : ∀ o ∈ obs, |o.epoch| ≤ 2 ^ 61)
    (hin : ∀ o ∈ obs, (o.start : ℚ) + 2500 ≤ o.epoch ∧ o.epoch ≤ o.end_ - 2500) :
    ∀ r ∈ Ieee.aggregateObservations sort obs, (r.start : ℚ) ≤ r.epoch ∧ r.epoch ≤ r.end_ := by
  intro r hr
  obtain ⟨i, hi, rfl⟩ := List.mem_iff_getElem.1 hr
  have h2 := C159_epoch sort obs hn hbig
  have hlen := h2.length_eq
  have hi' : i < (aggregateObservations sort obs).length := by omega
  have hs := List.forall₂_iff_get.1 h2 |>.2 i hi hi'
  simp only [List.get_eq_getElem] at hs
  have hmem := List.getElem_mem hi'
  generalize (aggregateObservations sort obs)[i] = e at *
  generalize (Ieee.aggregateObservations sort obs)[i] = r at *
  have hwf : ∀ o ∈ obs, o.start ≤ o.end_ := by
    intro o ho
    have := hin o ho
    have : (o.start : ℚ) ≤ o.end_ := by linarith [this.1, this.2]
    exact_mod_cast this
  have hr' : e.toObs ∈ (allGroups sort obs).map dissolveRow := by
    rw [← aggregate_toObs]; exact List.mem_map_of_mem hmem
  obtain ⟨g, hg, he⟩ := List.mem_map.mp hr'
  have ok := allGroups_ok sort obs g hg
  have hb : (e.start : ℚ) + 2500 ≤ e.epoch ∧ e.epoch ≤ e.end_ - 2500 := by
    rw [← he]
    have hne : g.map (·.epoch) ≠ [] := by simpa using ok.ne
    apply mean_bounds hne
    · intro x hx
      obtain ⟨o, ho, rfl⟩ := List.mem_map.mp hx
      have h1 : ((dissolveRow g).start : ℚ) ≤ o.start := by exact_mod_cast dissolveRow_start_le ho
      linarith [(hin o (ok.sub o ho)).1]
    · intro x hx
      obtain ⟨o, ho, rfl⟩ := List.mem_map.mp hx
      have h1 : (o.end_ : ℚ) ≤ (dissolveRow g).end_ := by exact_mod_cast le_dissolveRow_end ho
      linarith [(hin o (ok.sub o ho)).2]
  have hep := abs_le.1 hs.epoch
  rw [hs.start, hs.end_]
  constructor <;> linarith [hb.1, hb.2, hep.1, hep.2]

/-- An observation in July 2006 whose start, epoch and end are the same instant. -/
def instantRow : Obs := ⟨7, "A", "I", 2 ^ 60 + 1, 2 ^ 60 + 1, 2 ^ 60 + 1⟩

theorem meanEpoch_instant : Ieee.meanEpoch [((2 ^ 60 + 1 : ℚ) : ℝ)] = 2 ^ 60 := by
  have h1 : Ieee.fl (((2 ^ 60 + 1 : ℚ) : ℝ)) = 2 ^ 60 := by
    have := Ieee.fl_eq_of (x := ((2 ^ 60 + 1 : ℚ) : ℝ)) (n := 2 ^ 52) (e := 8) (by norm_num) (by norm_num [abs_of_nonneg])
      (by norm_num [abs_of_nonneg]) (by norm_num [abs_of_nonneg])
    rw [this]; norm_num
  have hd : Ieee.IsDouble ((2 : ℝ) ^ 60) := by rw [← h1]; exact Ieee.fl_double _
  have h2 : Ieee.fl ((2 : ℝ) ^ 60) = 2 ^ 60 := Ieee.fl_of_double hd
  have h3 : Ieee.groupMean ([((2 ^ 60 + 1 : ℚ) : ℝ)].map Ieee.fl) = 2 ^ 60 := by
    rw [List.map_cons, List.map_nil, h1]
    show Ieee.fl (Ieee.kahanSum [2 ^ 60] / (1 : ℕ)) = 2 ^ 60
    have : Ieee.kahanSum [2 ^ 60] = 2 ^ 60 := by
      show Ieee.fl (0 + Ieee.fl (2 ^ 60 - 0)) = 2 ^ 60
      rw [sub_zero, h2, zero_add, h2]
    rw [this, Nat.cast_one, div_one, h2]
  unfold Ieee.meanEpoch
  rw [h3]
  unfold Ieee.wholePart
  rw [if_pos (by positivity)]
  have : ((2 : ℝ) ^ 60) = ((2 ^ 60 : ℤ) : ℝ) := by norm_num
  rw [this, Int.floor_intCast]

/-- **C159 (refuted without the margin).** Observations whose epochs are within them can give a row whose epoch is not:
time stamps of today are multiples of 256 nanoseconds once they are double precision numbers. -/
theorem C159_within_false : ¬ ∀ (sort : SortValues Obs.start) (obs : List Obs), obs.length ≤ 2 ^ 48 →
    (∀ o ∈ obs, |o.epoch| ≤ 2 ^ 61) → (∀ o ∈ obs, (o.start : ℚ) ≤ o.epoch ∧ o.epoch ≤ o.end_) →
    ∀ r ∈ Ieee.aggregateObservations sort obs, (r.start : ℚ) ≤ r.epoch ∧ r.epoch ≤ r.end_ := by
  intro hall
  have h := hall (SortValues.insertion _) [instantRow] (by norm_num) (by
    intro o ho
    rw [List.mem_singleton] at ho
    subst ho
    norm_num [instantRow, abs_of_nonneg]) (by
    intro o ho
    rw [List.mem_singleton] at ho
    subst ho
    norm_num [instantRow])
  have e : Ieee.aggregateObservations (SortValues.insertion _) [instantRow] =
      withMetrics [Ieee.dissolveRow [instantRow]] := by
    unfold Ieee.aggregateObservations Ieee.aggregatePoint
    have h1 : groupBy Obs.pointId [instantRow] = [(7, [instantRow])] := by decide +kernel
    have h2 : overlapGroups ((SortValues.insertion Obs.start).run [instantRow]) = [[instantRow]] := by decide +kernel
    rw [h1]
    simp [h2]
  rw [e] at h
  obtain ⟨h1, -⟩ := h ⟨Ieee.dissolveRow [instantRow], 0, none⟩ (by
    show _ ∈ [_]
    rw [List.mem_singleton]
    rfl)
  have h2 : (2 ^ 60 + 1 : ℚ) ≤ ((Ieee.meanEpoch [((2 ^ 60 + 1 : ℚ) : ℝ)] : ℤ) : ℚ) := by
    have h3 : ((2 ^ 60 + 1 : ℤ) : ℚ) ≤ ((Ieee.meanEpoch [((2 ^ 60 + 1 : ℚ) : ℝ)] : ℤ) : ℚ) := h1
    exact_mod_cast h3
  rw [meanEpoch_instant] at h2
  norm_num at h2

/-- Two observations that overlap, of a few seconds in November 2023. -/
def twoRows : List Obs :=
  [⟨7, "A", "I", 1700000000 * 10 ^ 9, 1700000001 * 10 ^ 9, 1700000002 * 10 ^ 9⟩,
    ⟨7, "B", "I", 1700000001 * 10 ^ 9, 1700000003 * 10 ^ 9, 1700000005 * 10 ^ 9⟩]

example : ∀ r ∈ Ieee.aggregateObservations (SortValues.insertion _) twoRows, (r.start : ℚ) ≤ r.epoch ∧ r.epoch ≤ r.end_ :=
  C159_within _ twoRows (by norm_num [twoRows]) (by
    intro o ho
    simp only [twoRows, List.mem_cons, List.not_mem_nil, or_false] at ho
    rcases ho with rfl | rfl <;> norm_num [abs_of_nonneg]) (by
    intro o ho
    simp only [twoRows, List.mem_cons, List.not_mem_nil, or_false] at ho
    rcases ho with rfl | rfl <;> norm_num)

end Tatc.Props
