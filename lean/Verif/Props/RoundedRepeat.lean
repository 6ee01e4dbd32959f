import Verif.Model.IeeeRepeat
import Verif.Props.Rounded
import Verif.Props.TleTime

/-!
# C25, with a rounded quotient for the number of repeat cycles
-/

namespace Tatc.Props
open Tatc.Num Tatc.Ieee Tatc.Coverage

/-- C25: rounding the quotient changes no event, for windows shorter than 2^53 microseconds (285 years). -/
theorem C25_rounded_events (tryRepeat : Bool) (cycle : Option Int) (hc : ∀ c, cycle = some c → 0 < c)
    (find : Int → Int → List (Int × EventKind)) (start end_ : Int) (hw : end_ - start < 2 ^ 53) :
    Ieee.observationEvents tryRepeat cycle find start end_ = TleTime.observationEvents tryRepeat cycle find start end_ := by
  unfold Ieee.observationEvents TleTime.observationEvents
  cases tryRepeat with
  | false => rfl
  | true =>
    cases cycle with
    | none => rfl
    | some c =>
      have hc0 := hc c rfl
      simp only [if_true]
      by_cases h : c < end_ - start
      · rw [if_pos h, if_pos h]
        unfold Ieee.repeatEvents TleTime.repeatEvents
        have hn : numberCycles start end_ c = ⌈((end_ - start : Int) : ℚ) / (c : ℚ)⌉ := by
          unfold numberCycles
          obtain ⟨b, rfl⟩ := Int.eq_ofNat_of_zero_le hc0.le
          obtain ⟨a, ha⟩ := Int.eq_ofNat_of_zero_le (show 0 ≤ end_ - start by omega)
          rw [ha] at h hw ⊢
          have hb1 : 1 ≤ b := by omega
          have ha2 : a < 2 ^ 53 := by exact_mod_cast hw
          have hb2 : b < 2 ^ 53 := by omega
          have := ceil_fl_div hb1 hb2 ha2
          simp only [Int.cast_natCast] at *
          rw [this]
          have e : ((a : ℝ) / b) = (((a : ℚ) / b : ℚ) : ℝ) := by push_cast; rfl
          rw [e, Rat.ceil_cast]
        rw [hn]
      · rw [if_neg h, if_neg h]

/-- Beyond, an event can be lost: a window of two cycles of 2^53 microseconds and one more, with an event at the first
microsecond of a cycle. -/
theorem C25_rounded_events_false : ∃ (find : Int → Int → List (Int × EventKind)) (start end_ cycle : Int) (t : Int),
    0 < cycle ∧ cycle < end_ - start ∧
    (t, EventKind.rise) ∈ TleTime.observationEvents true (some cycle) find start end_ ∧
    (t, EventKind.rise) ∉ Ieee.observationEvents true (some cycle) find start end_ := by
  refine ⟨fun _ _ => [(1, .rise)], 0, 2 ^ 54 + 1, 2 ^ 53, 2 ^ 54 + 1, by norm_num, by norm_num, ?_, ?_⟩
  · unfold TleTime.observationEvents TleTime.repeatEvents
    have h : ⌈(((2 : Int) ^ 54 + 1 - 0 : Int) : ℚ) / (((2 : Int) ^ 53 : Int) : ℚ)⌉ = 3 := by
      rw [Int.ceil_eq_iff]; norm_num
    rw [if_pos rfl]
    simp only [h]
    norm_num [List.range_succ]
    exact ⟨2, by norm_num, by norm_num⟩
  · unfold Ieee.observationEvents Ieee.repeatEvents
    have h : numberCycles 0 (2 ^ 54 + 1) (2 ^ 53) = 2 := by
      unfold numberCycles
      have h1 : fl (((2 ^ 54 + 1 - 0 : Int) : ℝ) / ((2 ^ 53 : Int) : ℝ)) = (4503599627370496 : ℤ) * 2 ^ (-51 : ℤ) := by
        apply fl_eq_of (by norm_num)
        · rw [abs_of_pos (by norm_num)]; norm_num
        · rw [abs_of_pos (by norm_num)]; norm_num
        · rw [abs_lt]; norm_num
      rw [h1]
      norm_num
    rw [if_pos rfl]
    simp only [h]
    norm_num [List.range_succ]
    intro x hx h
    omega

/-- Witness: a window of three days and a half, a cycle of a day. -/
example : (∀ c, some (86400000000 : Int) = some c → 0 < c) ∧ (302400000000 : Int) - 0 < 2 ^ 53 := by
  refine ⟨?_, by norm_num⟩
  intro c h
  cases h
  norm_num

end Tatc.Props
