import Verif.Model.Real
import Mathlib.Tactic.Linarith
import Mathlib.Tactic.FieldSimp
import Mathlib.Tactic.Ring

/-! Lemmas about `np.mod` and the angle units. -/

namespace Tatc.Num

theorem npMod_nonneg (a : ℝ) {m : ℝ} (hm : 0 < m) : 0 ≤ npMod a m := by
  have h := Int.floor_le (a / m)
  rw [le_div_iff₀ hm] at h
  unfold npMod; linarith

theorem npMod_lt (a : ℝ) {m : ℝ} (hm : 0 < m) : npMod a m < m := by
  have h := Int.lt_floor_add_one (a / m)
  rw [div_lt_iff₀ hm] at h
  unfold npMod; linarith

theorem npMod_eq_of_add (a : ℝ) {m : ℝ} (hm : 0 < m) (k : ℤ) : npMod (a + m * k) m = npMod a m := by
  unfold npMod
  have : (a + m * k) / m = a / m + k := by field_simp
  rw [this, Int.floor_add_intCast]
  push_cast; ring

theorem npMod_self_of_range {a m : ℝ} (h0 : 0 ≤ a) (h1 : a < m) : npMod a m = a := by
  have hm : 0 < m := lt_of_le_of_lt h0 h1
  have : ⌊a / m⌋ = 0 := by
    rw [Int.floor_eq_iff]
    constructor
    · simpa using div_nonneg h0 hm.le
    · simpa using (div_lt_one hm).mpr h1
  unfold npMod; rw [this]; simp

theorem npMod_spec (a : ℝ) (m : ℝ) : ∃ k : ℤ, npMod a m = a + m * k :=
  ⟨-⌊a / m⌋, by unfold npMod; push_cast; ring⟩

theorem npMod_eq_iff (a b : ℝ) {m : ℝ} (hm : 0 < m) : npMod a m = npMod b m ↔ ∃ k : ℤ, a = b + m * k := by
  constructor
  · intro h
    obtain ⟨k, hk⟩ := npMod_spec a m
    obtain ⟨l, hl⟩ := npMod_spec b m
    refine ⟨l - k, ?_⟩
    push_cast
    linarith
  · rintro ⟨k, rfl⟩
    exact npMod_eq_of_add b hm k

theorem npMod_add_npMod (a b : ℝ) {m : ℝ} (hm : 0 < m) : npMod (npMod a m + b) m = npMod (a + b) m := by
  obtain ⟨k, hk⟩ := npMod_spec a m
  rw [npMod_eq_iff _ _ hm]
  exact ⟨k, by rw [hk]; ring⟩

theorem degrees_radians (x : ℝ) : degrees (radians x) = x := by
  unfold degrees radians
  field_simp

theorem radians_degrees (x : ℝ) : radians (degrees x) = x := by
  unfold degrees radians
  field_simp

theorem meanRadius_pos : 0 < meanRadius := by
  unfold meanRadius equatorialRadius polarRadius; norm_num

theorem meanRadius_lt : meanRadius < 6371009 := by
  unfold meanRadius equatorialRadius polarRadius; norm_num

end Tatc.Num
