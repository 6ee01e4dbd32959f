import Verif.Model.Generation
import Verif.Lemmas.Real
import Mathlib.Data.List.NodupEquivFin
import Mathlib.Data.List.Nodup
import Mathlib.Order.Interval.Finset.Nat

/-! Lemmas about grid indices. -/

namespace Tatc.Generation
open Tatc.Num Tatc.Geometry
open scoped Classical

theorem round_le_of_lt {x : ℝ} {i : ℤ} (h : x < i + 1 / 2) : roundHalfEven x ≤ i := by
  have h1 := Int.floor_le x
  have hf : ⌊x⌋ ≤ i := by
    have : (⌊x⌋ : ℝ) < i + 1 := by linarith
    have : ⌊x⌋ < i + 1 := by exact_mod_cast this
    omega
  unfold roundHalfEven
  simp only
  rcases eq_or_lt_of_le hf with he | hlt
  · rw [he] at h1 ⊢
    rw [if_pos (by linarith)]
  · split_ifs <;> omega

theorem le_round_of_lt {x : ℝ} {i : ℤ} (h : (i : ℝ) + 1 / 2 < x) : i + 1 ≤ roundHalfEven x := by
  have h1 := Int.lt_floor_add_one x
  have hf : i ≤ ⌊x⌋ := Int.le_floor.mpr (by linarith)
  unfold roundHalfEven
  simp only
  rcases eq_or_lt_of_le hf with he | hlt
  · rw [← he]
    rw [if_neg (by linarith), if_pos (by linarith)]
  · split_ifs <;> omega

theorem round_close (x : ℝ) : |(roundHalfEven x : ℝ) - x| ≤ 1 / 2 := by
  have h1 := Int.floor_le x
  have h2 := Int.lt_floor_add_one x
  unfold roundHalfEven
  simp only
  rw [abs_le]
  split_ifs <;> push_cast <;> constructor <;> linarith

theorem of_round_le {x : ℝ} {i : ℤ} (h : roundHalfEven x ≤ i) : x ≤ i + 1 / 2 := by
  have := abs_le.mp (round_close x)
  have h2 : (roundHalfEven x : ℝ) ≤ i := by exact_mod_cast h
  linarith [this.1]

theorem of_lt_round {x : ℝ} {i : ℤ} (h : i < roundHalfEven x) : (i : ℝ) + 1 / 2 ≤ x := by
  have := abs_le.mp (round_close x)
  have h2 : (i : ℝ) + 1 ≤ roundHalfEven x := by exact_mod_cast h
  linarith [this.2]

theorem round_mono {x y : ℝ} (h : x ≤ y) : roundHalfEven x ≤ roundHalfEven y := by
  by_contra hlt
  push Not at hlt
  rcases eq_or_lt_of_le h with rfl | hxy
  · exact lt_irrefl _ hlt
  · have h1 := of_lt_round hlt
    have h2 := le_round_of_lt (x := y) (i := roundHalfEven y) (by linarith)
    omega

theorem round_intCast (n : ℤ) : roundHalfEven (n : ℝ) = n := by
  unfold roundHalfEven
  simp

theorem mem_pyRange {a b i : Int} : i ∈ pyRange a b ↔ a ≤ i ∧ i < b := by
  unfold pyRange
  simp only [List.mem_map, List.mem_range]
  constructor
  · rintro ⟨k, hk, rfl⟩; omega
  · rintro ⟨h1, h2⟩; exact ⟨(i - a).toNat, by omega, by omega⟩

theorem nodup_pyRange (a b : Int) : (pyRange a b).Nodup := by
  unfold pyRange
  refine List.Nodup.map_on ?_ List.nodup_range
  intro x _ y _ h
  omega

theorem length_pyRange (a b : Int) : (pyRange a b).length = (b - a).toNat := by simp [pyRange]

theorem sorted_pyRange (a b : Int) : (pyRange a b).Pairwise (· < ·) := by
  unfold pyRange
  rw [List.pairwise_map]
  exact List.pairwise_lt_range.imp (by intro x y h; omega)

/-- A range within a range is the part of it between the two ends. -/
theorem pyRange_filter {a b A B : Int} (hA : A ≤ a) (hB : b ≤ B) :
    (pyRange A B).filter (fun i => decide (a ≤ i ∧ i < b)) = pyRange a b := by
  have h1 : ((pyRange A B).filter (fun i => decide (a ≤ i ∧ i < b))).Pairwise (· < ·) :=
    (sorted_pyRange A B).filter _
  have h2 := sorted_pyRange a b
  refine List.Perm.eq_of_pairwise (le := (· < ·)) ?_ h1 h2 ?_
  · intro x y _ _ h h'
    omega
  · rw [List.perm_ext_iff_of_nodup ((nodup_pyRange A B).filter _) (nodup_pyRange a b)]
    intro i
    simp only [List.mem_filter, mem_pyRange, decide_eq_true_eq]
    omega

/-- The two-dimensional list of indices. -/
def product (rows columns : List Int) : List (Int × Int) := rows.flatMap fun j => columns.map fun i => (i, j)

theorem mem_product {rows columns : List Int} {p : Int × Int} :
    p ∈ product rows columns ↔ p.1 ∈ columns ∧ p.2 ∈ rows := by
  unfold product
  simp only [List.mem_flatMap, List.mem_map]
  constructor
  · rintro ⟨j, hj, i, hi, rfl⟩; exact ⟨hi, hj⟩
  · rintro ⟨h1, h2⟩; exact ⟨p.2, h2, p.1, h1, rfl⟩

theorem nodup_product {rows columns : List Int} (hr : rows.Nodup) (hc : columns.Nodup) :
    (product rows columns).Nodup := by
  unfold product
  rw [List.nodup_flatMap]
  refine ⟨fun j _ => hc.map (by intro a b h; exact (Prod.mk.inj h).1), ?_⟩
  refine hr.imp ?_
  intro a b hab x h1 h2
  simp only [List.mem_map] at h1 h2
  obtain ⟨i, -, rfl⟩ := h1
  obtain ⟨i', -, h⟩ := h2
  exact hab (Prod.mk.inj h).2.symm

theorem filter_product (rows columns : List Int) (p q : Int → Bool) :
    (product rows columns).filter (fun x => p x.1 && q x.2) = product (rows.filter q) (columns.filter p) := by
  unfold product
  rw [List.filter_flatMap]
  induction rows with
  | nil => rfl
  | cons j l ih =>
    simp only [List.flatMap_cons]
    rw [ih]
    by_cases hq : q j = true
    · simp only [List.filter_cons_of_pos hq, List.flatMap_cons]
      congr 1
      rw [List.filter_map]
      congr 1
      apply List.filter_congr
      intro i _
      simp [hq]
    · rw [List.filter_cons_of_neg hq]
      have : (columns.map fun i => (i, j)).filter (fun x => p x.1 && q x.2) = [] := by
        rw [List.filter_eq_nil_iff]
        intro x hx
        simp only [List.mem_map] at hx
        obtain ⟨i, -, rfl⟩ := hx
        simp [hq]
      rw [this, List.nil_append]

end Tatc.Generation
