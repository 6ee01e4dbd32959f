import Verif.Model.Coverage
import Verif.Lemmas.Round
import Verif.Lemmas.Pandas
import Mathlib.Tactic.IntervalCases

/-!
# C10, C11: collected observations
-/

namespace Tatc.Props
open Tatc.Pandas Tatc.Coverage

/-- The periods that qualify: long enough for the minimum access time (microseconds; periods are
in nanoseconds) and valid. -/
def qualifies (ins : AccessSpec) (valid : Interval → Bool) (p : Interval) : Bool :=
  decide (1000 * ins.minAccess ≤ p.right - p.left) && valid p

/-- What a row says about the period it was made from, whatever the access mode. -/
def RowOf (pointId : Int) (satellite : String) (ins : AccessSpec) (p : Interval) (o : Obs) : Prop :=
  o.pointId = pointId ∧ o.satellite = satellite ∧ o.instrument = ins.name ∧
  -- the epoch is the middle of the period, to the nanosecond
  (2 * o.epoch = p.left + p.right ∨ 2 * o.epoch + 1 = p.left + p.right) ∧
  o.start ≤ o.epoch ∧ o.epoch ≤ o.end_ ∧
  (ins.fixed = false → o.start = p.left ∧ o.end_ = p.right)

/-- With fixed access time the row is centred on the epoch. -/
def CentredOn (o : Obs) : Prop := o.epoch - o.start = o.end_ - o.epoch

theorem halfAccess_nonneg {m : Int} (hm : 0 ≤ m) : 0 ≤ halfAccess m :=
  le_roundHalfEven (by push_cast; have : (0 : ℚ) ≤ m := by exact_mod_cast hm
                       linarith)

theorem halfAccess_even (k : Int) : halfAccess (2 * k) = k := by
  unfold halfAccess
  have : ((2 * k : Int) : ℚ) / 2 = (k : ℚ) := by push_cast; ring
  rw [this, roundHalfEven_intCast]

theorem halfAccess_close (m : Int) : 2 * halfAccess m ≤ m + 1 ∧ m - 1 ≤ 2 * halfAccess m := by
  have h := abs_roundHalfEven_sub_le ((m : ℚ) / 2)
  rw [abs_le] at h
  unfold halfAccess
  constructor
  · have : (2 * roundHalfEven ((m : ℚ) / 2) : ℚ) ≤ m + 1 := by linarith [h.2]
    exact_mod_cast this
  · have : (m - 1 : ℚ) ≤ 2 * roundHalfEven ((m : ℚ) / 2) := by linarith [h.1]
    exact_mod_cast this

theorem forall₂_map_self {α β : Type} {R : α → β → Prop} (f : α → β) (l : List α)
    (h : ∀ a ∈ l, R a (f a)) : List.Forall₂ R l (l.map f) := by
  induction l with
  | nil => exact List.Forall₂.nil
  | cons a t ih =>
    exact List.Forall₂.cons (h a List.mem_cons_self) (ih fun b hb => h b (List.mem_cons_of_mem _ hb))

theorem mid_spec (p : Interval) : 2 * p.mid = p.left + p.right ∨ 2 * p.mid + 1 = p.left + p.right := by
  unfold Interval.mid; omega

/-- **C10.** One row per qualifying period, in order.  With variable access time the row has the
period's ends; with fixed access time it is centred and its duration is within one microsecond of
the minimum access time. -/
theorem C10_collect (pointId : Int) (satellite : String) (ins : AccessSpec)
    (valid : Interval → Bool) (periods : List Interval) (hm : 0 ≤ ins.minAccess)
    (hp : ∀ p ∈ periods, p.left ≤ p.right) :
    List.Forall₂ (fun p o => RowOf pointId satellite ins p o ∧
        (ins.fixed = true → CentredOn o ∧ |(o.end_ - o.start) - 1000 * ins.minAccess| ≤ 1000))
      (periods.filter (qualifies ins valid))
      (collectObservations pointId satellite ins valid periods) := by
  unfold collectObservations
  apply forall₂_map_self
  intro p hpm
  have hlr := hp p (List.mem_filter.mp hpm).1
  have hh := halfAccess_nonneg hm
  have hc := halfAccess_close ins.minAccess
  have hmid := mid_spec p
  have hb : p.left ≤ p.mid ∧ p.mid ≤ p.right := by omega
  have hbq : (p.left : ℚ) ≤ p.mid ∧ (p.mid : ℚ) ≤ p.right := by exact_mod_cast hb
  have hhq : (0 : ℚ) ≤ halfAccess ins.minAccess := by exact_mod_cast hh
  refine ⟨⟨rfl, rfl, rfl, ?_, ?_, ?_, ?_⟩, ?_⟩
  · show 2 * (p.mid : ℚ) = _ ∨ 2 * (p.mid : ℚ) + 1 = _
    exact_mod_cast hmid
  · simp only [observationRecord]
    split_ifs
    · push_cast; linarith
    · exact hbq.1
  · simp only [observationRecord]
    split_ifs
    · push_cast; linarith
    · exact hbq.2
  · intro hf
    simp [observationRecord, hf]
  · intro hf
    simp only [CentredOn, observationRecord, hf, if_true]
    refine ⟨by push_cast; ring, ?_⟩
    rw [abs_le]
    constructor <;> omega

/-- **C10, fixed access time** (partial: the minimum access time is an even number of
microseconds).  Then the row lasts exactly the minimum access time and lies inside its period. -/
theorem C10_fixed_access_partial (pointId : Int) (satellite : String) (ins : AccessSpec)
    (valid : Interval → Bool) (periods : List Interval)
    (heven : 2 ∣ ins.minAccess) (hf : ins.fixed = true) :
    List.Forall₂ (fun p o => o.end_ - o.start = 1000 * ins.minAccess ∧ CentredOn o ∧
        p.left ≤ o.start ∧ o.end_ ≤ p.right)
      (periods.filter (qualifies ins valid))
      (collectObservations pointId satellite ins valid periods) := by
  obtain ⟨k, hk⟩ := heven
  unfold collectObservations
  apply forall₂_map_self
  intro p hpm
  have hq : 1000 * ins.minAccess ≤ p.right - p.left := by
    have := (List.mem_filter.mp hpm).2
    unfold qualifies at this
    simpa using (Bool.and_eq_true_iff.mp this).1
  simp only [CentredOn, observationRecord, hf, if_true, hk, halfAccess_even]
  rw [hk] at hq
  have := mid_spec p
  refine ⟨by ring, by push_cast; ring, ?_, ?_⟩ <;> omega

/-- Half of a number of microseconds is rounded to an even number. -/
theorem halfAccess_exact (m : Int) : 2 * halfAccess m = m + (if m % 4 = 1 then -1 else if m % 4 = 3 then 1 else 0) := by
  have hq : ((m : ℚ) / 2) = ((m / 2 : Int) : ℚ) + ((m % 2 : Int) : ℚ) / 2 := by
    have : (2 * (m / 2 : Int) + (m % 2 : Int) : Int) = m := Int.mul_ediv_add_emod m 2
    have : (2 * ((m / 2 : Int) : ℚ) + ((m % 2 : Int) : ℚ)) = m := by exact_mod_cast this
    linarith
  have hf : ⌊(m : ℚ) / 2⌋ = m / 2 := by
    rw [hq, Int.floor_intCast_add]
    rcases Int.emod_two_eq_zero_or_one m with h | h <;> rw [h] <;> norm_num
  unfold halfAccess roundHalfEven
  simp only [hf]
  rw [hq, add_sub_cancel_left]
  rcases Int.emod_two_eq_zero_or_one m with h | h
  · rw [h]
    norm_num
    split_ifs <;> omega
  · rw [h]
    norm_num
    split_ifs <;> omega

/-- **C10, fixed access time, exactly.** For an odd number of microseconds the row is one microsecond shorter or longer,
whichever gives a multiple of four. -/
theorem C10_fixed_access_exact (pointId : Int) (satellite : String) (ins : AccessSpec)
    (valid : Interval → Bool) (periods : List Interval) (hf : ins.fixed = true) :
    ∀ o ∈ collectObservations pointId satellite ins valid periods, o.end_ - o.start =
      1000 * (ins.minAccess + if ins.minAccess % 4 = 1 then -1 else if ins.minAccess % 4 = 3 then 1 else 0) := by
  intro o ho
  obtain ⟨p, -, rfl⟩ := List.mem_map.mp ho
  rw [← halfAccess_exact]
  simp only [observationRecord, hf, if_true]
  ring

/-- **C10 is false in general**: with a fixed minimum access time of 3 µs and a visible period of
exactly 3 µs, the row lasts 4 µs and sticks out of the period on both sides. -/
theorem C10_fixed_access_false :
    ¬ ∀ (pointId : Int) (satellite : String) (ins : AccessSpec) (valid : Interval → Bool)
      (periods : List Interval), 0 ≤ ins.minAccess → (∀ p ∈ periods, p.left ≤ p.right) →
      ins.fixed = true →
      List.Forall₂ (fun p o => o.end_ - o.start = 1000 * ins.minAccess ∧
          p.left ≤ o.start ∧ o.end_ ≤ p.right)
        (periods.filter (qualifies ins valid))
        (collectObservations pointId satellite ins valid periods) := by
  intro h
  have := h 0 "s" ⟨"i", 3, true⟩ (fun _ => true) [⟨0, 3000⟩] (by decide) (by decide) rfl
  have e : collectObservations 0 "s" ⟨"i", 3, true⟩ (fun _ => true) [⟨0, 3000⟩] =
      [⟨0, "s", "i", -500, 1500, 3500⟩] := by decide +kernel
  rw [e] at this
  have e2 : [(⟨0, 3000⟩ : Interval)].filter (qualifies ⟨"i", 3, true⟩ (fun _ => true)) = [⟨0, 3000⟩] := by
    decide
  rw [e2] at this
  cases this with
  | cons h1 _ => simp at h1

/-- Two periods, one too short; fixed 10 µs access. -/
example : collectObservations 7 "s" ⟨"i", 10, true⟩ (fun _ => true) [⟨0, 9999⟩, ⟨20000, 30001⟩] =
    [⟨7, "s", "i", 20000, 25000, 30000⟩] := by decide +kernel

/-- **C11, partial.** Missing: the empty list (see `C11_multi_false`).  For a list of satellites with
at least one member and instrument, the rows are
exactly those of `collect_observations` over every member and instrument, with multiplicity, and
they are ordered by start. -/
theorem C11_multi_partial (sort : SortValues Obs.start) (pointId : Int) (satellites : List (List Member))
    (hne : ∃ c ∈ satellites, ∃ m ∈ c, m.instruments ≠ []) :
    ∃ rows, collectMultiObservations sort pointId satellites = .ok rows ∧
      rows.Pairwise (fun a b => a.start ≤ b.start) ∧
      ∀ o : Obs, rows.count o =
        (satellites.map fun c => (c.map fun m => (m.instruments.map fun i =>
          (collectObservations pointId m.name i.spec i.valid i.periods).count o).sum).sum).sum := by
  unfold collectMultiObservations
  simp only
  have hg : (satellites.flatMap fun constellation => constellation.flatMap fun satellite =>
      satellite.instruments.map fun ins =>
        collectObservations pointId satellite.name ins.spec ins.valid ins.periods) ≠ [] := by
    obtain ⟨c, hc, m, hm, hi⟩ := hne
    cases hI : m.instruments with
    | nil => exact absurd hI hi
    | cons i t =>
      apply List.ne_nil_of_mem (a := collectObservations pointId m.name i.spec i.valid i.periods)
      refine List.mem_flatMap.mpr ⟨c, hc, List.mem_flatMap.mpr ⟨m, hm, ?_⟩⟩
      rw [hI]; simp
  rw [if_neg (by simpa [List.isEmpty_iff] using hg)]
  refine ⟨_, rfl, sort.sorted _, ?_⟩
  intro o
  rw [(sort.perm _).count_eq, List.count_flatten]
  clear hg hne
  induction satellites with
  | nil => rfl
  | cons c cs ih =>
    rw [List.flatMap_cons, List.map_append, List.sum_append, ih, List.map_cons, List.sum_cons]
    congr 1
    clear ih
    induction c with
    | nil => rfl
    | cons m ms ih =>
      rw [List.flatMap_cons, List.map_append, List.sum_append, ih, List.map_cons, List.sum_cons,
        List.map_map]
      rfl

/-- With no frame at all (an empty list of satellites), `ValueError`. -/
theorem C11_empty_list_raises (sort : SortValues Obs.start) (pointId : Int) :
    collectMultiObservations sort pointId [] = .error .valueError := rfl

/-- **C11, refuted for every list**: "an empty frame when there are none" fails for the empty list,
which raises instead of giving an empty frame. -/
theorem C11_multi_false (sort : SortValues Obs.start) (pointId : Int) :
    ¬ ∀ satellites : List (List Member),
      ∃ rows, collectMultiObservations sort pointId satellites = .ok rows := by
  intro h
  obtain ⟨rows, hr⟩ := h []
  rw [C11_empty_list_raises] at hr
  cases hr

/-- Two satellites, one with two instruments. -/
example : collectMultiObservations (SortValues.insertion _) 1
    [[⟨"a", [⟨⟨"x", 0, false⟩, fun _ => true, [⟨50, 60⟩]⟩, ⟨⟨"y", 0, false⟩, fun _ => true, [⟨0, 10⟩]⟩]⟩],
     [⟨"b", [⟨⟨"x", 0, false⟩, fun _ => true, [⟨20, 30⟩]⟩]⟩]] =
    .ok [⟨1, "a", "y", 0, 5, 10⟩, ⟨1, "b", "x", 20, 25, 30⟩, ⟨1, "a", "x", 50, 55, 60⟩] := by
  decide +kernel

end Tatc.Props
