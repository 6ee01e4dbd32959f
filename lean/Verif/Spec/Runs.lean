import Mathlib.Order.Basic

/-!
# Maximal runs of consecutive positions
-/

namespace Tatc.Spec

/-- Positions `s` to `e - 1` are a maximal run among the first `n` positions at which `ok` holds. -/
def MaximalRun (ok : Nat → Prop) (n s e : Nat) : Prop :=
  s < e ∧ e ≤ n ∧ (∀ i, s ≤ i → i < e → ok i) ∧ (s = 0 ∨ ¬ ok (s - 1)) ∧ (e = n ∨ ¬ ok e)

/-- Two maximal runs that share a position are the same. -/
theorem MaximalRun.unique {ok : Nat → Prop} {n s e s' e' i : Nat} (h : MaximalRun ok n s e)
    (h' : MaximalRun ok n s' e') (hi : s ≤ i ∧ i < e) (hi' : s' ≤ i ∧ i < e') : s = s' ∧ e = e' := by
  obtain ⟨a1, a2, a3, a4, a5⟩ := h
  obtain ⟨b1, b2, b3, b4, b5⟩ := h'
  constructor
  · rcases Nat.lt_trichotomy s s' with hlt | heq | hgt
    · rcases b4 with h0 | hn
      · omega
      · exact absurd (a3 (s' - 1) (by omega) (by omega)) hn
    · exact heq
    · rcases a4 with h0 | hn
      · omega
      · exact absurd (b3 (s - 1) (by omega) (by omega)) hn
  · rcases Nat.lt_trichotomy e e' with hlt | heq | hgt
    · rcases a5 with h0 | hn
      · omega
      · exact absurd (b3 e (by omega) (by omega)) hn
    · exact heq
    · rcases b5 with h0 | hn
      · omega
      · exact absurd (a3 e' (by omega) (by omega)) hn

end Tatc.Spec
