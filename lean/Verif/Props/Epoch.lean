import Verif.Model.Epoch
import Verif.Spec.Calendar
import Verif.Props.TleFields
import Verif.Lemmas.Pandas
import Mathlib.Algebra.BigOperators.Intervals

/-!
# C138: the epoch of an orbit survives its conversion to two line elements
-/

namespace Tatc.Props
open Tatc.Epoch Tatc.Spec Tatc.Text Tatc.Tle Tatc.Pandas Tatc.Orbit

/-! ### The calendar -/

theorem sum_daysIn (y : Nat) : ∑ k ∈ Finset.range (y + 1), daysIn k =
    365 * (y : Int) + (y : Int) / 4 - (y : Int) / 100 + (y : Int) / 400 + 366 := by
  induction y with
  | zero => decide
  | succ n ih =>
    rw [Finset.sum_range_succ, ih]
    unfold daysIn LeapYear
    split_ifs with h
    · push_cast
      omega
    · push_cast
      omega

/-- Python's count of the days before a year is that of the calendar. -/
theorem newYear_eq (y : Nat) (hy : 1 ≤ y) : newYear y = firstOf y := by
  obtain ⟨n, rfl⟩ : ∃ n, y = n + 1 := ⟨y - 1, by omega⟩
  unfold newYear firstOf day
  rw [sum_daysIn, show (1970 : Nat) = 1969 + 1 from rfl, sum_daysIn]
  push_cast
  omega

/-- Between 1901 and 2099 every fourth year is a leap year. -/
theorem newYear_near (y : Int) (h1 : 1901 ≤ y) (h2 : y ≤ 2100) :
    newYear y = (365 * (y - 1) + (y - 1) / 4 - 719177) * 86400000000 := by
  unfold newYear day
  congr 1
  omega

/-- The year found for a number of days is the one in which they end, and the day is counted from its first. -/
theorem yearOf_spec (whole : Int) (h1 : 0 < whole) (h2 : whole < 54788) :
    1950 ≤ yearOf whole ∧ yearOf whole ≤ 2099 ∧ newYear (yearOf whole) ≤ (whole - 7306) * 86400000000 ∧
    (whole - 7306) * 86400000000 < newYear (yearOf whole + 1) ∧
    newYear (yearOf whole) + (dayOfYear whole - 1) * 86400000000 = (whole - 7306) * 86400000000 ∧
    1 ≤ dayOfYear whole ∧ dayOfYear whole ≤ 366 := by
  have hy : ∃ y, y = yearOf whole := ⟨_, rfl⟩
  obtain ⟨y, hy⟩ := hy
  have hb : 1950 ≤ y ∧ y ≤ 2099 ∧ 365 * (y - 1) + (y - 1) / 4 - 719177 ≤ whole - 7306 ∧
      whole - 7306 < 365 * y + y / 4 - 719177 := by
    rw [hy]
    unfold yearOf
    simp only
    split_ifs with h
    · omega
    · omega
  unfold dayOfYear
  rw [← hy]
  rw [newYear_near y (by omega) (by omega), newYear_near (y + 1) (by omega) (by omega)]
  omega

/-! ### Rounding -/

theorem roundHalfEven_add_even (x : ℚ) (k : Int) : roundHalfEven ((2 * k : Int) + x) = 2 * k + roundHalfEven x := by
  unfold roundHalfEven
  have hf : ⌊((2 * k : Int) : ℚ) + x⌋ = 2 * k + ⌊x⌋ := Int.floor_intCast_add _ _
  simp only [hf]
  have hd : ((2 * k : Int) : ℚ) + x - ((2 * k + ⌊x⌋ : Int) : ℚ) = x - (⌊x⌋ : ℚ) := by push_cast; ring
  rw [hd]
  have hm : (2 * k + ⌊x⌋) % 2 = ⌊x⌋ % 2 := by omega
  rw [hm]
  split_ifs <;> ring

theorem roundHalfEven_int (k : Int) : roundHalfEven (k : ℚ) = k := by
  unfold roundHalfEven
  simp

theorem roundHalfEven_mono {x y : ℚ} (h : x ≤ y) : roundHalfEven x ≤ roundHalfEven y := by
  have hf : ⌊x⌋ ≤ ⌊y⌋ := Int.floor_le_floor h
  have x1 := Int.floor_le x
  have x2 := Int.lt_floor_add_one x
  have y1 := Int.floor_le y
  rcases hf.lt_or_eq with hlt | heq
  · have a : roundHalfEven x ≤ ⌊x⌋ + 1 := by
      unfold roundHalfEven
      simp only
      split_ifs <;> omega
    have b : ⌊y⌋ ≤ roundHalfEven y := by
      unfold roundHalfEven
      simp only
      split_ifs <;> omega
    omega
  · unfold roundHalfEven
    simp only [heq]
    have : x - (⌊y⌋ : ℚ) ≤ y - (⌊y⌋ : ℚ) := by linarith
    split_ifs <;> first | omega | (exfalso; linarith)

/-! ### Reading -/

/-- Reading the year and the day. -/
theorem readEpoch_columns (l1 : Line) (yy n : Nat) (hy : yy < 100) (h : slice 18 20 l1 = field '0' 2 yy)
    (fill : Char) (hfill : fill = ' ' ∨ fill = '0') (h' : slice 20 32 l1 = fixed fill 3 8 n) :
    readEpoch l1 = .ok (newYear (fullYear yy) + 864 * ((n : Int) - 10 ^ 8)) := by
  unfold readEpoch
  rw [h, h', pyInt_field _ (Or.inr rfl), pyFloat_fixed _ hfill _ _ _ (by decide)]
  have e : ((n : ℚ) / 10 ^ 8 - 1) * (day : ℚ) = ((864 * ((n : Int) - 10 ^ 8) : Int) : ℚ) := by
    unfold day; push_cast; ring
  have f : (if ((yy : Nat) : Int) < 57 then 2000 + ((yy : Nat) : Int) else 1900 + ((yy : Nat) : Int)) = (fullYear yy : Int) := by
    unfold fullYear
    split_ifs <;> omega
  simp only [bind, Except.bind, pure, Except.pure, f, e, roundHalfEven_int]

/-- **C138, reading.** The epoch of an element set in the standard layout is the day that it gives, counted from the first
of January of its year, in hundred-millionths of a day. -/
theorem C138_read (x : Fields) (h : x.InRange) :
    getEpoch [x.line1, x.line2] 0 = .ok (firstOf (fullYear x.epochYear) + 864 * ((x.epochDay : Int) - 10 ^ 8)) := by
  have l1 := fun k a b => slice_line x.body1 _ (body1_lengths x h) k a b
  have s1 : slice 18 20 x.line1 = field '0' 2 x.epochYear := l1 8 18 20 (by simp [Fields.body1]) rfl rfl
  have s2 : slice 20 32 x.line1 = fixed x.fill 3 8 x.epochDay := l1 9 20 32 (by simp [Fields.body1]) rfl rfl
  rw [← newYear_eq _ (by unfold fullYear; split_ifs <;> omega)]
  exact readEpoch_columns x.line1 _ _ h.epochYear s1 _ h.fill s2

/-! ### Writing and reading -/

/-- The time that the columns printed for `t` denote: `t` to the nearest hundred-millionth of a day. -/
def printed (t : Int) : Int :=
  epoch1949 + (t - epoch1949) / day * day +
    864 * roundHalfEven ((((t - epoch1949) % day : Int) / (day : ℚ)) * 10 ^ 8)

theorem printed_near (t : Int) : |printed t - t| ≤ 432 := by
  have h := abs_roundHalfEven_sub_le ((((t - epoch1949) % day : Int) / (day : ℚ)) * 10 ^ 8)
  have hs : ((t - epoch1949) / day * day : Int) + (t - epoch1949) % day = t - epoch1949 := by
    have := Int.mul_ediv_add_emod (t - epoch1949) day
    linarith
  have hx : 864 * ((((t - epoch1949) % day : Int) / (day : ℚ)) * 10 ^ 8) = ((t - epoch1949) % day : Int) := by
    unfold day; push_cast; ring
  have : |((printed t - t : Int) : ℚ)| ≤ 432 := by
    have he : ((printed t - t : Int) : ℚ) = 864 * ((roundHalfEven ((((t - epoch1949) % day : Int) / (day : ℚ)) * 10 ^ 8) : ℚ) -
        (((t - epoch1949) % day : Int) / (day : ℚ)) * 10 ^ 8) := by
      rw [mul_sub, hx]
      have hs' : (((t - epoch1949) / day * day : Int) : ℚ) + (((t - epoch1949) % day : Int) : ℚ) = (t : ℚ) - epoch1949 := by
        exact_mod_cast hs
      unfold printed
      push_cast at hs' ⊢
      linarith
    rw [he, abs_mul, abs_of_pos (by norm_num : (0 : ℚ) < 864)]
    linarith
  exact_mod_cast this

theorem printed_mono {s t : Int} (h : s ≤ t) : printed s ≤ printed t := by
  have hd : (0 : Int) < day := by decide
  have hq : (s - epoch1949) / day ≤ (t - epoch1949) / day := Int.ediv_le_ediv hd (by omega)
  have hdq : (0 : ℚ) < (day : ℚ) := by unfold day; norm_num
  unfold printed
  rcases hq.lt_or_eq with hlt | heq
  · have a : roundHalfEven ((((s - epoch1949) % day : Int) / (day : ℚ)) * 10 ^ 8) ≤ 10 ^ 8 := by
      have : ((((s - epoch1949) % day : Int) / (day : ℚ)) * 10 ^ 8) ≤ ((10 ^ 8 : Int) : ℚ) := by
        have h1 : (((s - epoch1949) % day : Int) : ℚ) ≤ day := by exact_mod_cast (Int.emod_lt_of_pos _ hd).le
        have : (((s - epoch1949) % day : Int) : ℚ) / (day : ℚ) ≤ 1 := (div_le_one hdq).mpr h1
        push_cast
        linarith
      have := roundHalfEven_mono this
      rwa [roundHalfEven_int] at this
    have b : 0 ≤ roundHalfEven ((((t - epoch1949) % day : Int) / (day : ℚ)) * 10 ^ 8) := by
      have : ((0 : Int) : ℚ) ≤ ((((t - epoch1949) % day : Int) / (day : ℚ)) * 10 ^ 8) := by
        have h1 : (0 : ℚ) ≤ (((t - epoch1949) % day : Int) : ℚ) := by exact_mod_cast Int.emod_nonneg _ hd.ne'
        push_cast
        positivity
      have := roundHalfEven_mono this
      rwa [roundHalfEven_int] at this
    have c : (s - epoch1949) / day * day + day ≤ (t - epoch1949) / day * day := by nlinarith
    have e : day = 86400000000 := rfl
    omega
  · rw [heq]
    have hm : (s - epoch1949) % day ≤ (t - epoch1949) % day := by
      have h1 := Int.mul_ediv_add_emod (s - epoch1949) day
      have h2 := Int.mul_ediv_add_emod (t - epoch1949) day
      rw [heq] at h1
      omega
    have hm' : (((s - epoch1949) % day : Int) : ℚ) ≤ (((t - epoch1949) % day : Int) : ℚ) := by exact_mod_cast hm
    have : ((((s - epoch1949) % day : Int) / (day : ℚ)) * 10 ^ 8) ≤ ((((t - epoch1949) % day : Int) / (day : ℚ)) * 10 ^ 8) := by
      have := div_le_div_of_nonneg_right hm' hdq.le
      linarith
    have := roundHalfEven_mono this
    omega

/-- What is read in the columns that are printed. -/
theorem read_printed (t : Int) (h1 : newYear 1950 ≤ t) (h2 : t < newYear 2100) (l1 : Line)
    (hl : slice 18 32 l1 = epochColumns t) :
    ∃ y : Int, 1950 ≤ y ∧ y ≤ 2099 ∧ newYear y ≤ t ∧ t < newYear (y + 1) ∧
      readEpoch l1 = .ok (printed t - newYear y + newYear (fullYear (y % 100).toNat)) := by
  have hd : day = 86400000000 := rfl
  have he : epoch1949 = -7306 * 86400000000 := rfl
  rw [newYear_near _ (by norm_num) (by norm_num)] at h1 h2
  obtain ⟨whole, hw⟩ : ∃ w, w = (t - epoch1949) / day := ⟨_, rfl⟩
  have hs := Int.mul_ediv_add_emod (t - epoch1949) day
  have hm1 := Int.emod_nonneg (t - epoch1949) (by decide : day ≠ 0)
  have hm2 := Int.emod_lt_of_pos (t - epoch1949) (by decide : 0 < day)
  rw [← hw] at hs
  have hs' : 86400000000 * whole + (t - epoch1949) % day = t - epoch1949 := hs
  obtain ⟨y1, y2, y3, y4, y5, y6, y7⟩ := yearOf_spec whole (by omega) (by omega)
  set m := roundHalfEven ((((t - epoch1949) % day : Int) / (day : ℚ)) * 10 ^ 8) with hmdef
  have hdq : (0 : ℚ) < (day : ℚ) := by unfold day; norm_num
  have b : 0 ≤ m := by
    have : ((0 : Int) : ℚ) ≤ ((((t - epoch1949) % day : Int) / (day : ℚ)) * 10 ^ 8) := by
      have h1 : (0 : ℚ) ≤ (((t - epoch1949) % day : Int) : ℚ) := by exact_mod_cast hm1
      push_cast
      positivity
    have := roundHalfEven_mono this
    rwa [roundHalfEven_int] at this
  have hn : roundHalfEven (((dayOfYear whole : Int) + (((t - epoch1949) % day : Int) / (day : ℚ))) * 10 ^ 8) =
      dayOfYear whole * 10 ^ 8 + m := by
    have e : ((dayOfYear whole : ℚ) + (((t - epoch1949) % day : Int) / (day : ℚ))) * 10 ^ 8 =
        ((2 * (dayOfYear whole * 50000000) : Int) : ℚ) + (((t - epoch1949) % day : Int) / (day : ℚ)) * 10 ^ 8 := by
      push_cast; ring
    rw [e, roundHalfEven_add_even, ← hmdef]
    ring
  have hyy : (yearOf whole % 100).toNat < 100 := by omega
  have hcols : epochColumns t = field '0' 2 (yearOf whole % 100).toNat ++
      fixed '0' 3 8 (dayOfYear whole * 10 ^ 8 + m).toNat := by
    unfold epochColumns
    simp only [← hw]
    rw [hn]
    rfl
  have s1 : slice 18 20 l1 = field '0' 2 (yearOf whole % 100).toNat := by
    have : slice 18 20 l1 = (slice 18 32 l1).take 2 := by
      unfold slice; rw [List.take_take]; rfl
    rw [this, hl, hcols, List.take_left' (field_length _ _ _ (by decide) (by simpa using hyy))]
  have s2 : slice 20 32 l1 = fixed '0' 3 8 (dayOfYear whole * 10 ^ 8 + m).toNat := by
    have : slice 20 32 l1 = (slice 18 32 l1).drop 2 := by
      unfold slice; rw [List.drop_take, List.drop_drop]
    rw [this, hl, hcols, List.drop_left' (field_length _ _ _ (by decide) (by simpa using hyy))]
  refine ⟨yearOf whole, y1, y2, by omega, ?_, ?_⟩
  · rw [newYear_near _ (by omega) (by omega)] at y4 ⊢
    omega
  · rw [readEpoch_columns l1 _ _ hyy s1 '0' (Or.inr rfl) s2]
    congr 1
    have hp : printed t = epoch1949 + whole * 86400000000 + 864 * m := by rw [hw]; rfl
    rw [hp, Int.toNat_of_nonneg (by omega)]
    omega

/-- **C138.** Full statement: whatever the epoch of an orbit, its element set has that epoch, to half of a hundred-millionth
of a day.  Proved for the years 1957 to 2056. -/
theorem C138_written_partial (t : Int) (h1 : firstOf 1957 ≤ t) (h2 : t < firstOf 2057) (l1 l2 : Line)
    (hl : slice 18 32 l1 = epochColumns t) : ∃ e, getEpoch [l1, l2] 0 = .ok e ∧ |e - t| ≤ 432 := by
  rw [← newYear_eq _ (by decide)] at h1 h2
  have a1 : newYear 1950 ≤ newYear 1957 := by decide
  have a2 : newYear 2057 ≤ newYear 2100 := by decide
  push_cast at h1 h2
  obtain ⟨y, b1, b2, b3, b4, b5⟩ := read_printed t (by omega) (by omega) l1 hl
  have hy : (fullYear (y % 100).toNat : Int) = y := by
    rw [newYear_near _ (by omega) (by omega)] at h1 h2 b3 b4
    unfold fullYear
    split_ifs <;> push_cast <;> omega
  refine ⟨printed t, ?_, printed_near t⟩
  show readEpoch l1 = _
  rw [b5, hy]
  congr 1
  omega

/-- **C138 is false from 2057 on**: the element set of every epoch from then to the end of the century is a hundred years
(36525 days) earlier. -/
theorem C138_century_false (t : Int) (h1 : firstOf 2057 ≤ t) (h2 : t < firstOf 2100) (l1 l2 : Line)
    (hl : slice 18 32 l1 = epochColumns t) :
    ∃ e, getEpoch [l1, l2] 0 = .ok e ∧ |e - (t - 36525 * 86400000000)| ≤ 432 := by
  rw [← newYear_eq _ (by decide)] at h1 h2
  have a1 : newYear 1950 ≤ newYear 2057 := by decide
  push_cast at h1 h2
  obtain ⟨y, b1, b2, b3, b4, b5⟩ := read_printed t (by omega) (by omega) l1 hl
  have hy : (fullYear (y % 100).toNat : Int) = y - 100 ∧ 2057 ≤ y := by
    rw [newYear_near _ (by omega) (by omega)] at h1 h2 b3 b4
    unfold fullYear
    split_ifs <;> push_cast <;> omega
  refine ⟨printed t - 36525 * 86400000000, ?_, ?_⟩
  · show readEpoch l1 = _
    rw [b5, hy.1]
    congr 1
    rw [newYear_near y (by omega) (by omega), newYear_near (y - 100) (by omega) (by omega)]
    omega
  · have := printed_near t
    rw [show printed t - 36525 * 86400000000 - (t - 36525 * 86400000000) = printed t - t by ring]
    exact this

/-- **C138, order.** Element sets of epochs in order, from 1957 to 2056, are accepted as chronological. -/
theorem C138_order (sets : List (Int × Line × Line))
    (hs : ∀ s ∈ sets, firstOf 1957 ≤ s.1 ∧ s.1 < firstOf 2057 ∧ slice 18 32 s.2.1 = epochColumns s.1)
    (hsorted : sets.Pairwise fun a b => a.1 ≤ b.1) :
    isChronological (fun l1 _ => readEpoch l1) (sets.flatMap fun s => [s.2.1, s.2.2]) = .ok () := by
  have hread : ∀ s ∈ sets, readEpoch s.2.1 = .ok (printed s.1) := by
    intro s hm
    obtain ⟨h1, h2, hl⟩ := hs s hm
    rw [← newYear_eq _ (by decide)] at h1 h2
    have a1 : newYear 1950 ≤ newYear 1957 := by decide
    have a2 : newYear 2057 ≤ newYear 2100 := by decide
    push_cast at h1 h2
    obtain ⟨y, b1, b2, b3, b4, b5⟩ := read_printed s.1 (by omega) (by omega) s.2.1 hl
    have hy : (fullYear (y % 100).toNat : Int) = y := by
      rw [newYear_near _ (by omega) (by omega)] at h1 h2 b3 b4
      unfold fullYear
      split_ifs <;> push_cast <;> omega
    rw [b5, hy]
    congr 1
    omega
  have hes : epochsOf (fun l1 _ => readEpoch l1) (sets.flatMap fun s => [s.2.1, s.2.2]) =
      .ok (sets.map fun s => printed s.1) := by
    clear hs hsorted
    induction sets with
    | nil => rfl
    | cons s rest ih =>
      have := ih fun a ha => hread a (List.mem_cons_of_mem _ ha)
      simp only [List.flatMap_cons, List.cons_append, List.nil_append, epochsOf, hread s List.mem_cons_self, this, bind,
        Except.bind, pure, Except.pure, List.map_cons]
  have hnd : nonDecreasing (sets.map fun s => printed s.1) = true := by
    clear hs hread hes
    unfold nonDecreasing
    induction sets with
    | nil => rfl
    | cons s rest ih =>
      cases rest with
      | nil => rfl
      | cons b rest =>
        have hp := List.pairwise_cons.mp hsorted
        have := ih hp.2
        simp only [List.map_cons, List.dropLast_cons_cons, List.tail_cons, List.zipWith_cons_cons, List.all_cons, id,
          Bool.and_eq_true, decide_eq_true_eq] at this ⊢
        exact ⟨printed_mono (hp.1 b List.mem_cons_self), this⟩
  unfold isChronological
  rw [hes]
  simp only [bind, Except.bind, require, hnd, if_true]

/-- **C138 is false of element sets before and after the end of 2056**: in order, they are refused. -/
theorem C138_order_false (t t' : Int) (h1 : firstOf 2001 ≤ t) (h2 : t < firstOf 2057) (h3 : firstOf 2057 ≤ t')
    (h4 : t' < firstOf 2100) (l1 l2 l1' l2' : Line) (hl : slice 18 32 l1 = epochColumns t)
    (hl' : slice 18 32 l1' = epochColumns t') :
    isChronological (fun l1 _ => readEpoch l1) [l1, l2, l1', l2'] = .error .valueError := by
  have a : firstOf 1957 ≤ firstOf 2001 := by rw [← newYear_eq _ (by decide), ← newYear_eq _ (by decide)]; decide
  have b : firstOf 2100 - 36525 * 86400000000 + 1000 ≤ firstOf 2001 := by
    rw [← newYear_eq _ (by decide), ← newYear_eq _ (by decide)]; decide
  obtain ⟨e, he, hn⟩ := C138_written_partial t (by omega) h2 l1 l2 hl
  obtain ⟨e', he', hn'⟩ := C138_century_false t' h3 h4 l1' l2' hl'
  replace he : readEpoch l1 = .ok e := he
  replace he' : readEpoch l1' = .ok e' := he'
  rw [abs_le] at hn hn'
  have : ¬ e ≤ e' := by omega
  unfold isChronological
  simp only [epochsOf, he, he', bind, Except.bind, pure, Except.pure, require, nonDecreasing, List.dropLast_cons_cons,
    List.dropLast_singleton, List.tail_cons, List.zipWith_cons_cons, List.zipWith_nil_left, List.all_cons, this]
  rfl

/-- The hypotheses can be met: the 26th of February 2020, 12:00, is day 57.5 of 2020, and the same day of 2060 is printed in
the same way but for the year, 60. -/
example : firstOf 1957 ≤ 1582718400000000 ∧ 1582718400000000 < firstOf 2057 ∧
    epochColumns 1582718400000000 = "20057.50000000".toList ∧
    firstOf 2057 ≤ 2845022400000000 ∧ 2845022400000000 < firstOf 2100 ∧
    epochColumns 2845022400000000 = "60057.50000000".toList := by
  refine ⟨?_, ?_, by decide +kernel, ?_, ?_, by decide +kernel⟩ <;> (rw [← newYear_eq _ (by decide)]; decide)

end Tatc.Props
