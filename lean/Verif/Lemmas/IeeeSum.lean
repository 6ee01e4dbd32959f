import Verif.Lemmas.Ieee
import Verif.Model.IeeeMean

/-!
# Sums of double precision numbers
-/

namespace Tatc.Ieee
open Tatc.Num

/-- The sum of two double precision numbers is rounded by at most one part in 2⁵³, however small it is. -/
theorem fl_add_close {a b : ℝ} (ha : IsDouble a) (hb : IsDouble b) : |fl (a + b) - (a + b)| ≤ |a + b| / 2 ^ 53 := by
  by_cases hx : a + b = 0
  · rw [hx, fl_zero]; simp
  by_cases hp : -1074 < lastPlace (a + b)
  · have h := fl_error (a + b)
    have h1 := place_le hx hp
    rw [two_zpow_add] at h1
    norm_num at h1
    have : (2 : ℝ) ^ lastPlace (a + b) / 2 ≤ |a + b| / 2 ^ 53 := by
      rw [le_div_iff₀ (by positivity)]
      norm_num
      linarith
    exact h.trans this
  · have e : lastPlace (a + b) = -1074 := le_antisymm (by omega) (lastPlace_ge _)
    have hlt := lt_place (a + b)
    rw [e] at hlt
    have whole : ∀ {z : ℝ}, IsDouble z → ∃ n : ℤ, z = n * 2 ^ (-1074 : ℤ) := by
      rintro z ⟨m, k, -, hk, rfl⟩
      refine ⟨m * 2 ^ (k + 1074).toNat, ?_⟩
      push_cast
      rw [mul_assoc, ← zpow_natCast, Int.toNat_of_nonneg (by omega), ← two_zpow_add]
      congr 2; ring
    obtain ⟨n, hn⟩ := whole ha
    obtain ⟨m, hm⟩ := whole hb
    have hd : IsDouble (a + b) := by
      refine ⟨n + m, -1074, ?_, le_rfl, by rw [hn, hm]; push_cast; ring⟩
      have hab : a + b = ((n + m : ℤ) : ℝ) * 2 ^ (-1074 : ℤ) := by rw [hn, hm]; push_cast; ring
      rw [hab, abs_mul, abs_of_pos (two_zpow_pos _), show (-1074 : ℤ) + 53 = 53 + (-1074) by norm_num, two_zpow_add] at hlt
      have := lt_of_mul_lt_mul_right hlt (two_zpow_pos _).le
      rw [← Int.cast_abs] at this
      have h2 : ((|n + m| : ℤ) : ℝ) < ((2 ^ 53 : ℤ) : ℝ) := by
        refine this.trans_le (le_of_eq ?_)
        norm_num
      exact_mod_cast h2
    rw [fl_of_double hd, sub_self, abs_zero]
    positivity

theorem fl_sub_close {a b : ℝ} (ha : IsDouble a) (hb : IsDouble b) : |fl (a - b) - (a - b)| ≤ |a - b| / 2 ^ 53 := by
  have := fl_add_close ha (double_neg hb)
  rwa [← sub_eq_add_neg] at this

/-- The bounds of one step of the compensated sum; `A` is the sum of the absolute values so far. -/
theorem kahan_bounds {u s c x A y t z c' : ℝ} (hu : u = 1 / 2 ^ 53) (hA : 0 ≤ A) (hs : |s| ≤ 5 / 4 * A)
    (hc : |c| ≤ 4 * u * A) (h1 : |y - (x - c)| ≤ u * |x - c|) (h2 : |t - (s + y)| ≤ u * |s + y|)
    (h3 : |z - (t - s)| ≤ u * |t - s|) (h4 : |c' - (z - y)| ≤ u * |z - y|) :
    |c'| ≤ 4 * u * (A + |x|) ∧ |(t - c') - ((s - c) + x)| ≤ 2 * u * |x| + 18 * u ^ 2 * (A + |x|) := by
  have hu0 : 0 < u := by rw [hu]; positivity
  have hu1 : u ≤ 1 / 1000 := by rw [hu]; norm_num
  have hx0 := abs_nonneg x
  have a1 : |x - c| ≤ |x| + |c| := abs_sub _ _
  have a2 : |y| ≤ |y - (x - c)| + |x - c| := by
    calc |y| = |(y - (x - c)) + (x - c)| := by congr 1; ring
      _ ≤ _ := abs_add_le _ _
  have a3 : |s + y| ≤ |s| + |y| := abs_add_le _ _
  have a4 : |t - s| ≤ |t - (s + y)| + |y| := by
    calc |t - s| = |(t - (s + y)) + y| := by congr 1; ring
      _ ≤ _ := abs_add_le _ _
  have a5 : |z - y| ≤ |z - (t - s)| + |t - (s + y)| := by
    calc |z - y| = |(z - (t - s)) + (t - (s + y))| := by congr 1; ring
      _ ≤ _ := abs_add_le _ _
  have a6 : |c'| ≤ |c' - (z - y)| + |z - y| := by
    calc |c'| = |(c' - (z - y)) + (z - y)| := by congr 1; ring
      _ ≤ _ := abs_add_le _ _
  have a7 : |(t - c') - ((s - c) + x)| ≤ |y - (x - c)| + |z - (t - s)| + |c' - (z - y)| := by
    calc |(t - c') - ((s - c) + x)| = |(y - (x - c)) + (-(z - (t - s)) + -(c' - (z - y)))| := by congr 1; ring
      _ ≤ |y - (x - c)| + |-(z - (t - s)) + -(c' - (z - y))| := abs_add_le _ _
      _ ≤ |y - (x - c)| + (|-(z - (t - s))| + |-(c' - (z - y))|) := by
        have := abs_add_le (-(z - (t - s))) (-(c' - (z - y)))
        linarith
      _ = _ := by rw [abs_neg, abs_neg]; ring
  generalize |x| = X at *
  generalize |c| = C at *
  generalize |s| = S at *
  generalize |x - c| = d1 at *
  generalize |y - (x - c)| = d2 at *
  generalize |y| = Y at *
  generalize |s + y| = d3 at *
  generalize |t - (s + y)| = d4 at *
  generalize |t - s| = d5 at *
  generalize |z - (t - s)| = d6 at *
  generalize |z - y| = d7 at *
  generalize |c' - (z - y)| = d8 at *
  have q1 : 0 ≤ u * X := by positivity
  have q2 : 0 ≤ u * A := by positivity
  have p1 : u * X ≤ 1 / 1000 * X := mul_le_mul_of_nonneg_right hu1 hx0
  have p2 : u * A ≤ 1 / 1000 * A := mul_le_mul_of_nonneg_right hu1 hA
  have q3 : 0 ≤ u * (u * A) := by positivity
  have q4 : 0 ≤ u * (u * X) := by positivity
  have p3 : u * (u * A) ≤ 1 / 1000 * (u * A) := mul_le_mul_of_nonneg_right hu1 q2
  have p4 : u * (u * X) ≤ 1 / 1000 * (u * X) := mul_le_mul_of_nonneg_right hu1 q1
  have hcu : C ≤ 4 * (u * A) := by linarith
  have b0 : d1 ≤ X + 4 * (u * A) := by linarith
  have b1 : d2 ≤ u * X + 4 * (u * (u * A)) := by
    have := mul_le_mul_of_nonneg_left b0 hu0.le
    have e : u * (X + 4 * (u * A)) = u * X + 4 * (u * (u * A)) := by ring
    linarith
  have b2 : Y ≤ X + u * X + 5 * (u * A) := by linarith
  have b3 : d4 ≤ 13 / 10 * (u * A) + 11 / 10 * (u * X) := by
    have h : d3 ≤ 126 / 100 * A + 101 / 100 * X := by linarith
    have := mul_le_mul_of_nonneg_left h hu0.le
    have e : u * (126 / 100 * A + 101 / 100 * X) = 126 / 100 * (u * A) + 101 / 100 * (u * X) := by ring
    linarith
  have b4 : d5 ≤ X + 7 * (u * A) + 3 * (u * X) := by linarith
  have b5 : d6 ≤ u * X + 7 * (u * (u * A)) + 3 * (u * (u * X)) := by
    have := mul_le_mul_of_nonneg_left b4 hu0.le
    have e : u * (X + 7 * (u * A) + 3 * (u * X)) = u * X + 7 * (u * (u * A)) + 3 * (u * (u * X)) := by ring
    linarith
  have b6 : d7 ≤ 14 / 10 * (u * A) + 22 / 10 * (u * X) := by linarith
  have b7 : d8 ≤ 14 / 10 * (u * (u * A)) + 22 / 10 * (u * (u * X)) := by
    have := mul_le_mul_of_nonneg_left b6 hu0.le
    have e : u * (14 / 10 * (u * A) + 22 / 10 * (u * X)) = 14 / 10 * (u * (u * A)) + 22 / 10 * (u * (u * X)) := by ring
    linarith
  constructor
  · have e : 4 * u * (A + X) = 4 * (u * A) + 4 * (u * X) := by ring
    linarith
  · have e : 2 * u * X + 18 * u ^ 2 * (A + X) = 2 * (u * X) + 18 * (u * (u * A)) + 18 * (u * (u * X)) := by ring
    linarith

/-- The compensated sum, from any step on. -/
theorem kahan_fold (l : List ℝ) : ∀ (s c total A : ℝ) (k : ℕ), (∀ x ∈ l, IsDouble x) → IsDouble s → IsDouble c → 0 ≤ A →
    |total| ≤ A → |c| ≤ 4 * (1 / 2 ^ 53) * A →
    |(s - c) - total| ≤ 2 * (1 / 2 ^ 53) * A + 18 * (1 / 2 ^ 53) ^ 2 * k * A → k + l.length ≤ 2 ^ 48 →
    |(l.foldl kahanStep (s, c)).1 - (total + l.sum)| ≤ 7 / 2 ^ 53 * (A + (l.map abs).sum) ∧
      IsDouble (l.foldl kahanStep (s, c)).1 := by
  induction l with
  | nil =>
    intro s c total A k _ hs _ hA _ hc hD hk
    simp only [List.foldl_nil, List.sum_nil, List.map_nil, add_zero]
    refine ⟨?_, hs⟩
    have hk' : (k : ℝ) ≤ 2 ^ 48 := by exact_mod_cast (by simpa using hk : k ≤ 2 ^ 48)
    have h1 : 18 * (1 / 2 ^ 53 : ℝ) ^ 2 * k ≤ 1 / 2 ^ 53 := by
      have : 18 * (1 / 2 ^ 53 : ℝ) ^ 2 * k ≤ 18 * (1 / 2 ^ 53 : ℝ) ^ 2 * 2 ^ 48 :=
        mul_le_mul_of_nonneg_left hk' (by positivity)
      refine this.trans ?_
      norm_num
    have h2 := mul_le_mul_of_nonneg_right h1 hA
    have h3 : |s - total| ≤ |(s - c) - total| + |c| := by
      calc |s - total| = |((s - c) - total) + c| := by congr 1; ring
        _ ≤ _ := abs_add_le _ _
    have e : 7 / 2 ^ 53 * A = 4 * (1 / 2 ^ 53) * A + 2 * (1 / 2 ^ 53) * A + 1 / 2 ^ 53 * A := by ring
    rw [e]
    linarith
  | cons x l ih =>
    intro s c total A k hl hs hc hA htot hcA hD hk
    rw [List.foldl_cons, List.sum_cons, List.map_cons, List.sum_cons]
    have hx := hl x List.mem_cons_self
    rw [List.length_cons] at hk
    have hk' : (k : ℝ) ≤ 2 ^ 48 := by exact_mod_cast (by omega : k ≤ 2 ^ 48)
    have hsA : |s| ≤ 5 / 4 * A := by
      have h1 : 18 * (1 / 2 ^ 53 : ℝ) ^ 2 * k ≤ 1 / 2 ^ 53 := by
        have : 18 * (1 / 2 ^ 53 : ℝ) ^ 2 * k ≤ 18 * (1 / 2 ^ 53 : ℝ) ^ 2 * 2 ^ 48 :=
          mul_le_mul_of_nonneg_left hk' (by positivity)
        refine this.trans ?_
        norm_num
      have h2 := mul_le_mul_of_nonneg_right h1 hA
      have h3 : |s| ≤ |(s - c) - total| + |c| + |total| := by
        calc |s| = |(((s - c) - total) + c) + total| := by congr 1; ring
          _ ≤ |((s - c) - total) + c| + |total| := abs_add_le _ _
          _ ≤ _ := by
            have := abs_add_le ((s - c) - total) c
            linarith
      have e : 5 / 4 * A = A + 1 / 4 * A := by ring
      have h4 : 7 / 2 ^ 53 * A ≤ 1 / 4 * A := mul_le_mul_of_nonneg_right (by norm_num) hA
      have e' : 7 / 2 ^ 53 * A = 4 * (1 / 2 ^ 53) * A + 2 * (1 / 2 ^ 53) * A + 1 / 2 ^ 53 * A := by ring
      linarith
    have hsub : ∀ a b : ℝ, IsDouble a → IsDouble b → |fl (a - b) - (a - b)| ≤ 1 / 2 ^ 53 * |a - b| := by
      intro a b ha hb
      have := fl_sub_close ha hb
      rwa [div_eq_inv_mul, ← one_div] at this
    have hadd : ∀ a b : ℝ, IsDouble a → IsDouble b → |fl (a + b) - (a + b)| ≤ 1 / 2 ^ 53 * |a + b| := by
      intro a b ha hb
      have := fl_add_close ha hb
      rwa [div_eq_inv_mul, ← one_div] at this
    obtain ⟨hc', hstep⟩ := kahan_bounds (x := x) rfl hA hsA hcA (hsub x c hx hc) (hadd s _ hs (fl_double (x - c)))
      (hsub _ s (fl_double (s + fl (x - c))) hs) (hsub _ _ (fl_double (fl (s + fl (x - c)) - s)) (fl_double (x - c)))
    have hstepDef : kahanStep (s, c) x = (fl (s + fl (x - c)), fl (fl (fl (s + fl (x - c)) - s) - fl (x - c))) := rfl
    rw [hstepDef]
    have hx0 := abs_nonneg x
    have := ih _ _ (total + x) (A + |x|) (k + 1) (fun y hy => hl y (List.mem_cons_of_mem _ hy)) (fl_double _)
      (fl_double _) (by positivity) (by
        have := abs_add_le total x
        linarith) hc' (by
        have h3 : |(fl (s + fl (x - c)) - fl (fl (fl (s + fl (x - c)) - s) - fl (x - c))) - (total + x)| ≤
            |(fl (s + fl (x - c)) - fl (fl (fl (s + fl (x - c)) - s) - fl (x - c))) - ((s - c) + x)| +
              |(s - c) - total| := by
          calc _ = |((fl (s + fl (x - c)) - fl (fl (fl (s + fl (x - c)) - s) - fl (x - c))) - ((s - c) + x)) +
                ((s - c) - total)| := by congr 1; ring
            _ ≤ _ := abs_add_le _ _
        refine h3.trans ?_
        have h4 : 18 * (1 / 2 ^ 53 : ℝ) ^ 2 * k * A ≤ 18 * (1 / 2 ^ 53 : ℝ) ^ 2 * k * (A + |x|) :=
          mul_le_mul_of_nonneg_left (by linarith) (by positivity)
        push_cast
        have e : 2 * (1 / 2 ^ 53) * (A + |x|) + 18 * (1 / 2 ^ 53) ^ 2 * ((k : ℝ) + 1) * (A + |x|) =
          (2 * (1 / 2 ^ 53) * |x| + 18 * (1 / 2 ^ 53) ^ 2 * (A + |x|)) + (2 * (1 / 2 ^ 53) * A +
            18 * (1 / 2 ^ 53) ^ 2 * k * (A + |x|)) := by ring
        rw [e]
        linarith) (by omega)
    rw [← add_assoc, ← add_assoc]
    exact this

/-- The compensated sum of up to 2⁴⁸ double precision numbers is off by at most 7 parts in 2⁵³ of the sum of their
absolute values, however many there are. -/
theorem kahanSum_close (l : List ℝ) (hl : ∀ x ∈ l, IsDouble x) (hn : l.length ≤ 2 ^ 48) :
    |kahanSum l - l.sum| ≤ 7 / 2 ^ 53 * (l.map abs).sum ∧ IsDouble (kahanSum l) := by
  have := kahan_fold l 0 0 0 0 0 hl double_zero double_zero le_rfl (by simp) (by simp) (by simp) (by omega)
  simpa [kahanSum] using this

theorem tiny_le : (2 : ℝ) ^ (-1075 : ℤ) ≤ 1 / 10 ^ 20 := by
  have h : (2 : ℝ) ^ (-1075 : ℤ) ≤ 2 ^ (-100 : ℤ) := zpow_le_zpow_right₀ (by norm_num) (by norm_num)
  refine h.trans ?_
  norm_num [zpow_neg]

/-- A duration in seconds. -/
theorem secondsOf_close (x : ℝ) : |secondsOf x - x / 10 ^ 9| ≤ 3 / 2 ^ 53 * (|x| / 10 ^ 9) + 2 / 10 ^ 20 := by
  have h1 := fl_close x
  have h2 := fl_close (fl x / 10 ^ 9)
  have h3 : |fl x| ≤ |x| + |fl x - x| := by
    calc |fl x| = |x + (fl x - x)| := by congr 1; ring
      _ ≤ _ := abs_add_le _ _
  rw [abs_div, abs_of_pos (by norm_num : (0 : ℝ) < 10 ^ 9)] at h2
  have h4 : |secondsOf x - x / 10 ^ 9| ≤ |fl (fl x / 10 ^ 9) - fl x / 10 ^ 9| + |fl x - x| / 10 ^ 9 := by
    have e : |fl x - x| / 10 ^ 9 = |(fl x - x) / 10 ^ 9| := by
      rw [abs_div, abs_of_pos (by norm_num : (0 : ℝ) < 10 ^ 9)]
    rw [e]
    calc |secondsOf x - x / 10 ^ 9| = |(fl (fl x / 10 ^ 9) - fl x / 10 ^ 9) + (fl x - x) / 10 ^ 9| := by
          congr 1; unfold secondsOf; ring
      _ ≤ _ := abs_add_le _ _
  have ht := tiny_le
  have ht0 : (0 : ℝ) < 2 ^ (-1075 : ℤ) := two_zpow_pos _
  have hx := abs_nonneg x
  generalize (2 : ℝ) ^ (-1075 : ℤ) = η at *
  generalize |fl (fl x / 10 ^ 9) - fl x / 10 ^ 9| = E at *
  generalize |fl x - x| = D at *
  generalize |fl x| = F at *
  generalize |x| = X at *
  generalize |secondsOf x - x / 10 ^ 9| = R at *
  norm_num at *
  linarith

/-- Twice the same sum. -/
theorem sum_close (l : List ℝ) (f : ℝ → ℝ) (a b : ℝ) (h : ∀ x ∈ l, |f x - x / 10 ^ 9| ≤ a * (|x| / 10 ^ 9) + b) :
    |(l.map f).sum - l.sum / 10 ^ 9| ≤ a * ((l.map abs).sum / 10 ^ 9) + b * l.length ∧
      ((l.map f).map abs).sum ≤ (1 + a) * ((l.map abs).sum / 10 ^ 9) + b * l.length := by
  induction l with
  | nil => simp
  | cons x l ih =>
    obtain ⟨h1, h2⟩ := ih fun y hy => h y (List.mem_cons_of_mem _ hy)
    have hx := h x List.mem_cons_self
    simp only [List.map_cons, List.sum_cons, List.length_cons]
    push_cast
    constructor
    · have e : f x + (l.map f).sum - (x + l.sum) / 10 ^ 9 =
        (f x - x / 10 ^ 9) + ((l.map f).sum - l.sum / 10 ^ 9) := by ring
      rw [e]
      have := abs_add_le (f x - x / 10 ^ 9) ((l.map f).sum - l.sum / 10 ^ 9)
      have e2 : a * ((|x| + (l.map abs).sum) / 10 ^ 9) + b * ((l.length : ℝ) + 1) =
        (a * (|x| / 10 ^ 9) + b) + (a * ((l.map abs).sum / 10 ^ 9) + b * l.length) := by ring
      rw [e2]
      linarith
    · have h3 : |f x| ≤ |f x - x / 10 ^ 9| + |x| / 10 ^ 9 := by
        have e : |x| / 10 ^ 9 = |x / 10 ^ 9| := by
          rw [abs_div, abs_of_pos (by norm_num : (0 : ℝ) < 10 ^ 9)]
        rw [e]
        calc |f x| = |(f x - x / 10 ^ 9) + x / 10 ^ 9| := by congr 1; ring
          _ ≤ _ := abs_add_le _ _
      have e2 : (1 + a) * ((|x| + (l.map abs).sum) / 10 ^ 9) + b * ((l.length : ℝ) + 1) =
        (|x| / 10 ^ 9 + (a * (|x| / 10 ^ 9) + b)) + ((1 + a) * ((l.map abs).sum / 10 ^ 9) + b * l.length) := by ring
      rw [e2]
      linarith

theorem abs_list_sum (l : List ℝ) : |l.sum| ≤ (l.map abs).sum := by
  induction l with
  | nil => simp
  | cons x l ih =>
    rw [List.sum_cons, List.map_cons, List.sum_cons]
    have := abs_add_le x l.sum
    linarith

/-- The mean of a group of durations, in seconds. -/
theorem groupMean_close (l : List ℝ) (hl : l ≠ []) (hn : l.length ≤ 2 ^ 48) :
    |groupMean (l.map secondsOf) - l.sum / l.length / 10 ^ 9| ≤
      12 / 2 ^ 53 * ((l.map abs).sum / l.length / 10 ^ 9) + 5 / 10 ^ 20 := by
  obtain ⟨h1, h2⟩ := sum_close l secondsOf (3 / 2 ^ 53) (2 / 10 ^ 20) fun x _ => secondsOf_close x
  obtain ⟨h3, _⟩ := kahanSum_close (l.map secondsOf) (by
    intro y hy
    obtain ⟨x, _, rfl⟩ := List.mem_map.1 hy
    exact fl_double _) (by simpa using hn)
  have hlen : (0 : ℝ) < l.length := by exact_mod_cast List.length_pos_iff.2 hl
  have h4 := fl_close (kahanSum (l.map secondsOf) / l.length)
  have hB : 0 ≤ (l.map abs).sum / l.length / 10 ^ 9 := by
    have : 0 ≤ (l.map abs).sum := List.sum_nonneg (by
      intro y hy
      obtain ⟨x, _, rfl⟩ := List.mem_map.1 hy
      exact abs_nonneg x)
    positivity
  have habs : |l.sum / l.length / 10 ^ 9| ≤ (l.map abs).sum / l.length / 10 ^ 9 := by
    rw [abs_div, abs_div, abs_of_pos hlen, abs_of_pos (by norm_num : (0 : ℝ) < 10 ^ 9)]
    have := abs_list_sum l
    gcongr
  -- the quotient
  have h5 : |kahanSum (l.map secondsOf) / l.length - l.sum / l.length / 10 ^ 9| ≤
      7 / 2 ^ 53 * ((1 + 3 / 2 ^ 53) * ((l.map abs).sum / l.length / 10 ^ 9) + 2 / 10 ^ 20) +
        (3 / 2 ^ 53 * ((l.map abs).sum / l.length / 10 ^ 9) + 2 / 10 ^ 20) := by
    have e : kahanSum (l.map secondsOf) / l.length - l.sum / l.length / 10 ^ 9 =
      ((kahanSum (l.map secondsOf) - (l.map secondsOf).sum) + ((l.map secondsOf).sum - l.sum / 10 ^ 9)) / l.length := by
      ring
    rw [e, abs_div, abs_of_pos hlen, div_le_iff₀ hlen]
    refine (abs_add_le _ _).trans ?_
    have h6 : |kahanSum (l.map secondsOf) - (l.map secondsOf).sum| ≤
        7 / 2 ^ 53 * ((1 + 3 / 2 ^ 53) * ((l.map abs).sum / 10 ^ 9) + 2 / 10 ^ 20 * l.length) :=
      h3.trans (mul_le_mul_of_nonneg_left h2 (by positivity))
    have e2 : (7 / 2 ^ 53 * ((1 + 3 / 2 ^ 53) * ((l.map abs).sum / l.length / 10 ^ 9) + 2 / 10 ^ 20) +
        (3 / 2 ^ 53 * ((l.map abs).sum / l.length / 10 ^ 9) + 2 / 10 ^ 20)) * l.length =
      7 / 2 ^ 53 * ((1 + 3 / 2 ^ 53) * ((l.map abs).sum / 10 ^ 9) + 2 / 10 ^ 20 * l.length) +
        (3 / 2 ^ 53 * ((l.map abs).sum / 10 ^ 9) + 2 / 10 ^ 20 * l.length) := by
      field_simp
    rw [e2]
    linarith
  have h7 : |kahanSum (l.map secondsOf) / l.length| ≤
      |kahanSum (l.map secondsOf) / l.length - l.sum / l.length / 10 ^ 9| + |l.sum / l.length / 10 ^ 9| := by
    calc _ = |(kahanSum (l.map secondsOf) / l.length - l.sum / l.length / 10 ^ 9) + l.sum / l.length / 10 ^ 9| := by
          congr 1; ring
      _ ≤ _ := abs_add_le _ _
  have h8 : |groupMean (l.map secondsOf) - l.sum / l.length / 10 ^ 9| ≤
      |fl (kahanSum (l.map secondsOf) / l.length) - kahanSum (l.map secondsOf) / l.length| +
        |kahanSum (l.map secondsOf) / l.length - l.sum / l.length / 10 ^ 9| := by
    have e : groupMean (l.map secondsOf) = fl (kahanSum (l.map secondsOf) / l.length) := by
      unfold groupMean; rw [List.length_map]
    rw [e]
    calc _ = |(fl (kahanSum (l.map secondsOf) / l.length) - kahanSum (l.map secondsOf) / l.length) +
          (kahanSum (l.map secondsOf) / l.length - l.sum / l.length / 10 ^ 9)| := by congr 1; ring
      _ ≤ _ := abs_add_le _ _
  have ht := tiny_le
  clear h1 h2 h3
  generalize (2 : ℝ) ^ (-1075 : ℤ) = η at *
  generalize |fl (kahanSum (l.map secondsOf) / l.length) - kahanSum (l.map secondsOf) / l.length| = E at *
  generalize |kahanSum (l.map secondsOf) / l.length - l.sum / l.length / 10 ^ 9| = D at *
  generalize |kahanSum (l.map secondsOf) / l.length| = K at *
  generalize |groupMean (l.map secondsOf) - l.sum / l.length / 10 ^ 9| = R at *
  generalize |l.sum / l.length / 10 ^ 9| = M at *
  generalize (l.map abs).sum / l.length / 10 ^ 9 = B at *
  norm_num at *
  linarith

/-- `timedelta(seconds=t)`. -/
theorem timedeltaOf_close (t : ℝ) : |(timedeltaOf t : ℝ) - 10 ^ 6 * t| ≤ 1 / 2 + 2 / 10 ^ 10 := by
  have hw : |t - wholePart t| ≤ 1 := by
    unfold wholePart
    split_ifs with h
    · rw [abs_le]; constructor <;> linarith [Int.floor_le t, Int.lt_floor_add_one t]
    · rw [abs_le]; constructor <;> linarith [Int.le_ceil t, Int.ceil_lt_add_one t]
  have h1 := rhe_error (fl (10 ^ 6 * (t - wholePart t)))
  have h2 := fl_close (10 ^ 6 * (t - wholePart t))
  rw [abs_mul, abs_of_pos (by norm_num : (0 : ℝ) < 10 ^ 6)] at h2
  have h3 : |(timedeltaOf t : ℝ) - 10 ^ 6 * t| ≤
      |(Num.roundHalfEven (fl (10 ^ 6 * (t - wholePart t))) : ℝ) - fl (10 ^ 6 * (t - wholePart t))| +
        |fl (10 ^ 6 * (t - wholePart t)) - 10 ^ 6 * (t - wholePart t)| := by
    calc _ = |((Num.roundHalfEven (fl (10 ^ 6 * (t - wholePart t))) : ℝ) - fl (10 ^ 6 * (t - wholePart t))) +
          (fl (10 ^ 6 * (t - wholePart t)) - 10 ^ 6 * (t - wholePart t))| := by
          congr 1; unfold timedeltaOf; push_cast; ring
      _ ≤ _ := abs_add_le _ _
  have ht := tiny_le
  generalize (2 : ℝ) ^ (-1075 : ℤ) = η at *
  norm_num at *
  linarith

/-- The mean of durations, in nanoseconds, as a `timedelta` in microseconds. -/
theorem meanDuration_close (l : List ℝ) (hl : l ≠ []) (hn : l.length ≤ 2 ^ 48) :
    |1000 * (timedeltaOf (groupMean (l.map secondsOf)) : ℝ) - l.sum / l.length| ≤
      500 + 12 / 2 ^ 53 * ((l.map abs).sum / l.length) + 1 / 10 ^ 6 := by
  have h1 := groupMean_close l hl hn
  have h2 := timedeltaOf_close (groupMean (l.map secondsOf))
  generalize groupMean (l.map secondsOf) = m at *
  have h3 : |1000 * (timedeltaOf m : ℝ) - l.sum / l.length| ≤
      1000 * |(timedeltaOf m : ℝ) - 10 ^ 6 * m| + 10 ^ 9 * |m - l.sum / l.length / 10 ^ 9| := by
    have e1 : 1000 * |(timedeltaOf m : ℝ) - 10 ^ 6 * m| = |1000 * ((timedeltaOf m : ℝ) - 10 ^ 6 * m)| := by
      rw [abs_mul, abs_of_pos (by norm_num : (0 : ℝ) < 1000)]
    have e2 : 10 ^ 9 * |m - l.sum / l.length / 10 ^ 9| = |10 ^ 9 * (m - l.sum / l.length / 10 ^ 9)| := by
      rw [abs_mul, abs_of_pos (by norm_num : (0 : ℝ) < 10 ^ 9)]
    rw [e1, e2]
    calc _ = |1000 * ((timedeltaOf m : ℝ) - 10 ^ 6 * m) + 10 ^ 9 * (m - l.sum / l.length / 10 ^ 9)| := by
          congr 1; ring
      _ ≤ _ := abs_add_le _ _
  generalize |m - l.sum / l.length / 10 ^ 9| = X at *
  generalize |(timedeltaOf m : ℝ) - 10 ^ 6 * m| = Y at *
  generalize |1000 * (timedeltaOf m : ℝ) - l.sum / l.length| = Z at *
  generalize (l.map abs).sum / l.length = B at *
  norm_num at *
  linarith

/-- The mean of time stamps, as a time stamp. -/
theorem meanEpoch_close (l : List ℝ) (hl : l ≠ []) (hn : l.length ≤ 2 ^ 48) (hbig : ∀ t ∈ l, |t| ≤ 2 ^ 61) :
    |(meanEpoch l : ℝ) - l.sum / l.length| ≤ 2500 := by
  have hlen : (0 : ℝ) < l.length := by exact_mod_cast List.length_pos_iff.2 hl
  -- the numbers that are summed
  have hy : ∀ t ∈ l, |fl t - t| ≤ 257 ∧ |fl t| ≤ 2 ^ 61 := by
    intro t ht
    have h1 := fl_close t
    have h2 : |t| ≤ 2 ^ 61 := hbig t ht
    have ht := tiny_le
    refine ⟨?_, ?_⟩
    · refine h1.trans ?_
      have h3 : |t| / 2 ^ 53 ≤ 2 ^ 61 / 2 ^ 53 := by gcongr
      clear h1
      generalize (2 : ℝ) ^ (-1075 : ℤ) = η at *
      norm_num at *
      linarith
    · have hd : IsDouble ((2 : ℝ) ^ 61) := by
        have := double_zpow (k := 61) (by norm_num)
        norm_cast at this ⊢
      rw [abs_le] at h2 ⊢
      refine ⟨?_, fl_le hd h2.2⟩
      exact le_fl (double_neg hd) h2.1
  have hs : |(l.map fl).sum - l.sum| ≤ 257 * l.length ∧
      ((l.map fl).map abs).sum ≤ 2 ^ 61 * l.length := by
    clear hl hn hlen hbig
    induction l with
    | nil => simp
    | cons t l ih =>
      obtain ⟨h1, h2⟩ := ih fun y h => hy y (List.mem_cons_of_mem _ h)
      obtain ⟨h3, h4⟩ := hy t List.mem_cons_self
      simp only [List.map_cons, List.sum_cons, List.length_cons]
      push_cast
      constructor
      · have e : fl t + (l.map fl).sum - (t + l.sum) =
          (fl t - t) + ((l.map fl).sum - l.sum) := by ring
        rw [e]
        have := abs_add_le (fl t - t)
          ((l.map fl).sum - l.sum)
        linarith
      · linarith
  obtain ⟨h1, h2⟩ := hs
  obtain ⟨h3, _⟩ := kahanSum_close (l.map fl) (by
    intro y hy
    obtain ⟨x, _, rfl⟩ := List.mem_map.1 hy
    exact fl_double _) (by simpa using hn)
  unfold meanEpoch groupMean
  rw [List.length_map]
  have habs := abs_list_sum (l.map fl)
  generalize kahanSum (l.map fl) = K at *
  generalize (l.map fl).sum = S at *
  generalize ((l.map fl).map abs).sum = B at *
  generalize hT : l.sum = T at *
  have h4 : |K - S| ≤ 1792 * l.length := by
    refine h3.trans ?_
    have : 7 / 2 ^ 53 * B ≤ 7 / 2 ^ 53 * (2 ^ 61 * l.length) := mul_le_mul_of_nonneg_left h2 (by positivity)
    norm_num at this ⊢
    linarith
  have h5 : |K / l.length - T / l.length| ≤ 2049 := by
    rw [← sub_div, abs_div, abs_of_pos hlen, div_le_iff₀ hlen]
    have : |K - T| ≤ |K - S| + |S - T| := by
      calc |K - T| = |(K - S) + (S - T)| := by congr 1; ring
        _ ≤ _ := abs_add_le _ _
    linarith
  have h6 : |K / l.length| ≤ 2 ^ 61 + 1792 := by
    rw [abs_div, abs_of_pos hlen, div_le_iff₀ hlen]
    have : |K| ≤ |K - S| + |S| := by
      calc |K| = |(K - S) + S| := by congr 1; ring
        _ ≤ _ := abs_add_le _ _
    linarith
  have h7 := fl_close (K / l.length)
  have ht := tiny_le
  have h8 : |(wholePart (fl (K / l.length)) : ℝ) - fl (K / l.length)| ≤ 1 := by
    generalize fl (K / l.length) = t
    unfold wholePart
    split_ifs with h
    · rw [abs_le]; constructor <;> linarith [Int.floor_le t, Int.lt_floor_add_one t]
    · rw [abs_le]; constructor <;> linarith [Int.le_ceil t, Int.ceil_lt_add_one t]
  have h9 : |(wholePart (fl (K / l.length)) : ℝ) - T / l.length| ≤
      |(wholePart (fl (K / l.length)) : ℝ) - fl (K / l.length)| + |fl (K / l.length) - K / l.length| +
        |K / l.length - T / l.length| := by
    have e : (wholePart (fl (K / l.length)) : ℝ) - T / l.length =
      ((wholePart (fl (K / l.length)) : ℝ) - fl (K / l.length) + (fl (K / l.length) - K / l.length)) +
        (K / l.length - T / l.length) := by ring
    rw [e]
    refine (abs_add_le _ _).trans ?_
    have := abs_add_le ((wholePart (fl (K / l.length)) : ℝ) - fl (K / l.length)) (fl (K / l.length) - K / l.length)
    linarith
  generalize (2 : ℝ) ^ (-1075 : ℤ) = η at *
  norm_num at *
  linarith

end Tatc.Ieee
