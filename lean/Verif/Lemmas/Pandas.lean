import Verif.Model.Pandas
import Mathlib.Data.List.Sort
import Mathlib.Tactic.Linarith
import Mathlib.Tactic.Positivity
import Mathlib.Tactic.FieldSimp
import Mathlib.Tactic.Push

/-! Lemmas about the library contracts. -/

namespace Tatc.Pandas

variable {α κ : Type} [LinearOrder κ]

theorem groupKeys_sorted (key : α → κ) (l : List α) :
    (groupKeys key l).Pairwise (· < ·) := by
  have h1 : (groupKeys key l).Pairwise (· ≤ ·) := List.pairwise_insertionSort _ _
  have h2 : (groupKeys key l).Nodup :=
    (List.perm_insertionSort _ _).nodup_iff.mpr (List.nodup_dedup _)
  exact (h1.and h2).imp (fun ⟨a, b⟩ => lt_of_le_of_ne a b)

theorem mem_groupKeys {key : α → κ} {l : List α} {k : κ} :
    k ∈ groupKeys key l ↔ ∃ a ∈ l, key a = k := by
  unfold groupKeys
  rw [(List.perm_insertionSort _ _).mem_iff]
  simp

theorem eq_of_sorted_of_mem_iff {l₁ l₂ : List κ} (h₁ : l₁.Pairwise (· < ·))
    (h₂ : l₂.Pairwise (· < ·)) (h : ∀ a, a ∈ l₁ ↔ a ∈ l₂) : l₁ = l₂ := by
  have n₁ : l₁.Nodup := h₁.imp (fun h => ne_of_lt h)
  have n₂ : l₂.Nodup := h₂.imp (fun h => ne_of_lt h)
  have hp : l₁.Perm l₂ := (List.perm_ext_iff_of_nodup n₁ n₂).mpr h
  exact hp.eq_of_pairwise (fun a b _ _ hab hba => absurd hab (not_lt.mpr hba.le)) h₁ h₂

theorem groupKeys_congr {key : α → κ} {l₁ l₂ : List α} (h : l₁.Perm l₂) :
    groupKeys key l₁ = groupKeys key l₂ := by
  apply eq_of_sorted_of_mem_iff (groupKeys_sorted _ _) (groupKeys_sorted _ _)
  intro a; simp only [mem_groupKeys, h.mem_iff]

theorem groupKeys_nil (key : α → κ) : groupKeys key [] = [] := by
  simp [groupKeys]

theorem groupBy_nil (key : α → κ) : groupBy key [] = [] := by
  simp [groupBy, groupKeys_nil]

theorem groupKeys_append_of_lt {key : α → κ} {l₁ l₂ : List α} {k : κ} (hne : l₁ ≠ [])
    (h₁ : ∀ a ∈ l₁, key a = k) (h₂ : ∀ b ∈ l₂, k < key b) :
    groupKeys key (l₁ ++ l₂) = k :: groupKeys key l₂ := by
  apply eq_of_sorted_of_mem_iff (groupKeys_sorted _ _)
  · rw [List.pairwise_cons]
    refine ⟨?_, groupKeys_sorted _ _⟩
    intro a ha
    obtain ⟨b, hb, rfl⟩ := mem_groupKeys.mp ha
    exact h₂ b hb
  · intro a
    rw [List.mem_cons, mem_groupKeys, mem_groupKeys]
    constructor
    · rintro ⟨b, hb, rfl⟩
      rcases List.mem_append.mp hb with hb | hb
      · exact Or.inl (h₁ b hb)
      · exact Or.inr ⟨b, hb, rfl⟩
    · rintro (rfl | ⟨b, hb, rfl⟩)
      · obtain ⟨b, hb⟩ := List.exists_mem_of_ne_nil _ hne
        exact ⟨b, List.mem_append_left _ hb, h₁ b hb⟩
      · exact ⟨b, List.mem_append_right _ hb, rfl⟩

theorem groupBy_append_of_lt {key : α → κ} {l₁ l₂ : List α} {k : κ} (hne : l₁ ≠ [])
    (h₁ : ∀ a ∈ l₁, key a = k) (h₂ : ∀ b ∈ l₂, k < key b) :
    groupBy key (l₁ ++ l₂) = (k, l₁) :: groupBy key l₂ := by
  unfold groupBy
  rw [groupKeys_append_of_lt hne h₁ h₂, List.map_cons]
  congr 1
  · rw [List.filter_append]
    have e1 : l₁.filter (fun a => decide (key a = k)) = l₁ := by
      rw [List.filter_eq_self]; intro a ha; simp [h₁ a ha]
    have e2 : l₂.filter (fun a => decide (key a = k)) = [] := by
      rw [List.filter_eq_nil_iff]; intro a ha; simpa using (h₂ a ha).ne'
    rw [e1, e2, List.append_nil]
  · apply List.map_congr_left
    intro k' hk'
    obtain ⟨b, hb, rfl⟩ := mem_groupKeys.mp hk'
    rw [List.filter_append]
    have e1 : l₁.filter (fun a => decide (key a = key b)) = [] := by
      rw [List.filter_eq_nil_iff]; intro a ha
      have := h₂ b hb
      rw [h₁ a ha]; simpa using this.ne
    rw [e1, List.nil_append]

/-- Rows of a group are exactly the rows with that key. -/
theorem mem_groupBy {key : α → κ} {l : List α} {k : κ} {g : List α} :
    (k, g) ∈ groupBy key l ↔ (∃ a ∈ l, key a = k) ∧ g = l.filter (fun a => key a = k) := by
  unfold groupBy
  rw [List.mem_map]
  constructor
  · rintro ⟨k', hk', h⟩
    simp only [Prod.mk.injEq] at h
    obtain ⟨rfl, rfl⟩ := h
    exact ⟨mem_groupKeys.mp hk', rfl⟩
  · rintro ⟨h, rfl⟩
    exact ⟨k, mem_groupKeys.mpr h, rfl⟩

theorem groupBy_fst_sorted (key : α → κ) (l : List α) :
    ((groupBy key l).map Prod.fst).Pairwise (· < ·) := by
  have : (groupBy key l).map Prod.fst = groupKeys key l := by
    unfold groupBy; simp [Function.comp_def]
  rw [this]; exact groupKeys_sorted _ _

theorem groupBy_pairwise (key : α → κ) (l : List α) :
    (groupBy key l).Pairwise (fun a b => a.1 < b.1) := by
  have := groupBy_fst_sorted key l
  rwa [List.pairwise_map] at this

/-- Grouping neither loses nor duplicates a row. -/
theorem groupBy_flatMap_perm (key : α → κ) (l : List α) :
    ((groupBy key l).flatMap Prod.snd).Perm l := by
  classical
  have main : ∀ ks : List κ, ks.Nodup →
      (ks.flatMap (fun k => l.filter fun a => key a = k)).Perm
        (l.filter fun a => key a ∈ ks) := by
    intro ks hnd
    induction ks with
    | nil => simp
    | cons k ks ih =>
      rw [List.nodup_cons] at hnd
      rw [List.flatMap_cons]
      have e : ∀ l : List α, ((l.filter fun a => key a = k) ++ (l.filter fun a => key a ∈ ks)).Perm
          (l.filter fun a => key a ∈ k :: ks) := by
        intro l
        induction l with
        | nil => simp
        | cons a t iht =>
          by_cases h1 : key a = k
          · have h2 : key a ∉ ks := h1 ▸ hnd.1
            have h3 : key a ∈ k :: ks := h1 ▸ List.mem_cons_self
            rw [List.filter_cons_of_pos (by simpa using h1), List.filter_cons_of_neg (by simpa using h2),
              List.filter_cons_of_pos (by simpa using h3), List.cons_append]
            exact iht.cons a
          · by_cases h2 : key a ∈ ks
            · have h3 : key a ∈ k :: ks := List.mem_cons_of_mem _ h2
              rw [List.filter_cons_of_neg (by simpa using h1), List.filter_cons_of_pos (by simpa using h2),
                List.filter_cons_of_pos (by simpa using h3)]
              exact List.perm_middle.trans (iht.cons a)
            · have h3 : key a ∉ k :: ks := by simp [h1, h2]
              rw [List.filter_cons_of_neg (by simpa using h1), List.filter_cons_of_neg (by simpa using h2),
                List.filter_cons_of_neg (by simpa using h3)]
              exact iht
      exact ((ih hnd.2).append_left _).trans (e l)
  have h := main (groupKeys key l) ((groupKeys_sorted key l).imp (fun h => ne_of_lt h))
  have hall : l.filter (fun a => decide (key a ∈ groupKeys key l)) = l := by
    rw [List.filter_eq_self]; intro a ha; simpa using mem_groupKeys.mpr ⟨a, ha, rfl⟩
  rw [hall] at h
  unfold groupBy
  rw [List.flatMap_map]
  exact h

/-! ### aggregation functions -/

theorem foldl_min_le (l : List Int) (a : Int) : l.foldl min a ≤ a ∧ ∀ x ∈ l, l.foldl min a ≤ x := by
  induction l generalizing a with
  | nil => simp
  | cons b t ih =>
    rw [List.foldl_cons]
    obtain ⟨h1, h2⟩ := ih (min a b)
    refine ⟨h1.trans (min_le_left _ _), ?_⟩
    intro x hx
    rcases List.mem_cons.mp hx with rfl | hx
    · exact h1.trans (min_le_right _ _)
    · exact h2 x hx

theorem foldl_min_mem (l : List Int) (a : Int) : l.foldl min a = a ∨ l.foldl min a ∈ l := by
  induction l generalizing a with
  | nil => simp
  | cons b t ih =>
    rw [List.foldl_cons]
    rcases ih (min a b) with h | h
    · rcases min_choice a b with h' | h'
      · left; rw [h, h']
      · right; rw [h, h']; exact List.mem_cons_self
    · right; exact List.mem_cons_of_mem _ h

theorem foldl_max_ge (l : List Int) (a : Int) : a ≤ l.foldl max a ∧ ∀ x ∈ l, x ≤ l.foldl max a := by
  induction l generalizing a with
  | nil => simp
  | cons b t ih =>
    rw [List.foldl_cons]
    obtain ⟨h1, h2⟩ := ih (max a b)
    refine ⟨(le_max_left _ _).trans h1, ?_⟩
    intro x hx
    rcases List.mem_cons.mp hx with rfl | hx
    · exact (le_max_right _ _).trans h1
    · exact h2 x hx

theorem foldl_max_mem (l : List Int) (a : Int) : l.foldl max a = a ∨ l.foldl max a ∈ l := by
  induction l generalizing a with
  | nil => simp
  | cons b t ih =>
    rw [List.foldl_cons]
    rcases ih (max a b) with h | h
    · rcases max_choice a b with h' | h'
      · left; rw [h, h']
      · right; rw [h, h']; exact List.mem_cons_self
    · right; exact List.mem_cons_of_mem _ h

theorem colMin_le {l : List Int} {x : Int} (h : x ∈ l) : colMin l ≤ x := by
  match l, h with
  | a :: t, h =>
    rcases List.mem_cons.mp h with rfl | h
    · exact (foldl_min_le t x).1
    · exact (foldl_min_le t a).2 x h

theorem colMin_mem {l : List Int} (h : l ≠ []) : colMin l ∈ l := by
  match l, h with
  | a :: t, _ =>
    rcases foldl_min_mem t a with h | h
    · show t.foldl min a ∈ a :: t
      rw [h]; exact List.mem_cons_self
    · exact List.mem_cons_of_mem _ h

theorem le_colMax {l : List Int} {x : Int} (h : x ∈ l) : x ≤ colMax l := by
  match l, h with
  | a :: t, h =>
    rcases List.mem_cons.mp h with rfl | h
    · exact (foldl_max_ge t x).1
    · exact (foldl_max_ge t a).2 x h

theorem colMax_mem {l : List Int} (h : l ≠ []) : colMax l ∈ l := by
  match l, h with
  | a :: t, _ =>
    rcases foldl_max_mem t a with h | h
    · show t.foldl max a ∈ a :: t
      rw [h]; exact List.mem_cons_self
    · exact List.mem_cons_of_mem _ h

theorem colMin_perm {l₁ l₂ : List Int} (h : l₁.Perm l₂) : colMin l₁ = colMin l₂ := by
  by_cases hn : l₁ = []
  · subst hn; rw [List.nil_perm.mp h]
  · have hn' : l₂ ≠ [] := fun h' => hn (by subst h'; exact List.perm_nil.mp h)
    exact le_antisymm (colMin_le (h.mem_iff.mpr (colMin_mem hn')))
      (colMin_le (h.mem_iff.mp (colMin_mem hn)))

theorem mean_perm {l₁ l₂ : List ℚ} (h : l₁.Perm l₂) : mean l₁ = mean l₂ := by
  unfold mean; rw [h.sum_eq, h.length_eq]

theorem mean_bounds {l : List ℚ} (hne : l ≠ []) {a b : ℚ} (ha : ∀ x ∈ l, a ≤ x) (hb : ∀ x ∈ l, x ≤ b) :
    a ≤ mean l ∧ mean l ≤ b := by
  have hl : (0 : ℚ) < l.length := by
    have := List.length_pos_iff.mpr hne
    exact_mod_cast this
  have h1 : (l.length : ℚ) * a ≤ l.sum := by
    clear hne hb hl
    induction l with
    | nil => simp
    | cons x t ih =>
      have := ih (fun y hy => ha y (List.mem_cons_of_mem _ hy))
      have := ha x List.mem_cons_self
      simp only [List.length_cons, List.sum_cons]
      push_cast
      linarith
  have h2 : l.sum ≤ (l.length : ℚ) * b := by
    clear hne ha hl h1
    induction l with
    | nil => simp
    | cons x t ih =>
      have := ih (fun y hy => hb y (List.mem_cons_of_mem _ hy))
      have := hb x List.mem_cons_self
      simp only [List.length_cons, List.sum_cons]
      push_cast
      linarith
  unfold mean
  constructor
  · rw [le_div_iff₀ hl]; linarith
  · rw [div_le_iff₀ hl]; linarith

/-- Rounding moves a value by at most one half. -/
theorem abs_roundHalfEven_sub_le (x : ℚ) : |(roundHalfEven x : ℚ) - x| ≤ 1 / 2 := by
  have h1 : (⌊x⌋ : ℚ) ≤ x := Int.floor_le x
  have h2 : x < ⌊x⌋ + 1 := Int.lt_floor_add_one x
  unfold roundHalfEven
  simp only
  split_ifs <;> rw [abs_le] <;> push_cast <;> constructor <;> linarith

end Tatc.Pandas
