import Verif.Lemmas.Pandas
import Mathlib.Tactic.Ring

/-! Rounding lemmas. -/

namespace Tatc.Pandas

theorem le_roundHalfEven {n : Int} {x : ℚ} (h : (n : ℚ) ≤ x) : n ≤ roundHalfEven x := by
  have h1 : n ≤ ⌊x⌋ := Int.le_floor.mpr h
  unfold roundHalfEven
  simp only
  split_ifs <;> omega

theorem roundHalfEven_le {n : Int} {x : ℚ} (h : x ≤ (n : ℚ)) : roundHalfEven x ≤ n := by
  rcases h.lt_or_eq with h | h
  · have h1 : ⌊x⌋ < n := Int.floor_lt.mpr h
    unfold roundHalfEven
    simp only
    split_ifs <;> omega
  · subst h
    unfold roundHalfEven
    simp

theorem roundHalfEven_intCast (n : Int) : roundHalfEven (n : ℚ) = n :=
  le_antisymm (roundHalfEven_le le_rfl) (le_roundHalfEven le_rfl)

theorem roundHalfEven_mono {x y : ℚ} (h : x ≤ y) : roundHalfEven x ≤ roundHalfEven y := by
  have a1 : (⌊x⌋ : ℚ) ≤ x := Int.floor_le x
  have a2 : x < ⌊x⌋ + 1 := Int.lt_floor_add_one x
  have b1 : (⌊y⌋ : ℚ) ≤ y := Int.floor_le y
  have b2 : y < ⌊y⌋ + 1 := Int.lt_floor_add_one y
  have hf : ⌊x⌋ ≤ ⌊y⌋ := Int.floor_le_floor h
  rcases hf.lt_or_eq with hf | hf
  · unfold roundHalfEven
    simp only
    split_ifs <;> omega
  · unfold roundHalfEven
    simp only
    rw [hf]
    rw [hf] at a1 a2
    split_ifs <;> first | omega | (exfalso; linarith)

end Tatc.Pandas
