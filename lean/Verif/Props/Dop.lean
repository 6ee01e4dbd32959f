import Verif.Model.Dop
import Verif.Spec.Dop
import Verif.Lemmas.ExceptList
import Mathlib.LinearAlgebra.Matrix.ToLinearEquiv
import Mathlib.Algebra.BigOperators.Fin
import Mathlib.LinearAlgebra.FiniteDimensional.Lemmas
import Mathlib.LinearAlgebra.Dimension.Constructions

/-!
# C62, C63 and C64: dilution of precision
-/

namespace Tatc.Props
open Tatc.Dop Tatc.Spec Tatc.Num Matrix
open scoped Classical

/-- The normal matrix `Hᵀ H`. -/
noncomputable def dopGram (looks : List Look) : Matrix (Fin 4) (Fin 4) ℝ := (matrixH looks).transpose * matrixH looks

theorem dopGram_apply (looks : List Look) (i j : Fin 4) :
    dopGram looks i j = (looks.map fun l => lookRow l i * lookRow l j).sum := by
  unfold dopGram
  rw [Matrix.mul_apply]
  simp only [Matrix.transpose_apply, matrixH]
  exact Fin.sum_univ_fun_getElem looks (fun l => lookRow l i * lookRow l j)

theorem dopGram_form (looks : List Look) (v w : Fin 4 → ℝ) :
    v ⬝ᵥ (dopGram looks *ᵥ w) = (looks.map fun l => (lookRow l ⬝ᵥ v) * (lookRow l ⬝ᵥ w)).sum := by
  unfold dopGram
  rw [← Matrix.mulVec_mulVec, Matrix.dotProduct_mulVec, Matrix.vecMul_transpose]
  show ∑ i, (matrixH looks *ᵥ v) i * (matrixH looks *ᵥ w) i = _
  simp only [Matrix.mulVec, matrixH]
  exact Fin.sum_univ_fun_getElem looks (fun l => (lookRow l ⬝ᵥ v) * (lookRow l ⬝ᵥ w))

theorem dopGram_perm {a b : List Look} (h : a.Perm b) : dopGram a = dopGram b := by
  ext i j
  rw [dopGram_apply, dopGram_apply]
  exact (h.map _).sum_eq

theorem dopGram_nonneg (looks : List Look) (v : Fin 4 → ℝ) : 0 ≤ v ⬝ᵥ (dopGram looks *ᵥ v) := by
  rw [dopGram_form]
  refine List.sum_nonneg (M := ℝ) ?_
  intro x hx
  obtain ⟨l, -, rfl⟩ := List.mem_map.mp hx
  exact mul_self_nonneg _

theorem dopGram_append (a b : List Look) (v : Fin 4 → ℝ) :
    v ⬝ᵥ (dopGram (a ++ b) *ᵥ v) = v ⬝ᵥ (dopGram a *ᵥ v) + v ⬝ᵥ (dopGram b *ᵥ v) := by
  simp only [dopGram_form, List.map_append, List.sum_append]

theorem dopGram_eq_zero_iff (looks : List Look) (v : Fin 4 → ℝ) :
    dopGram looks *ᵥ v = 0 ↔ ∀ l ∈ looks, lookRow l ⬝ᵥ v = 0 := by
  constructor
  · intro h
    have h0 : (looks.map fun l => (lookRow l ⬝ᵥ v) * (lookRow l ⬝ᵥ v)).sum = 0 := by
      rw [← dopGram_form, h]; simp
    intro l hl
    have hle : (lookRow l ⬝ᵥ v) * (lookRow l ⬝ᵥ v) ≤ (looks.map fun l => (lookRow l ⬝ᵥ v) * (lookRow l ⬝ᵥ v)).sum := by
      apply List.single_le_sum
      · intro x hx
        obtain ⟨l, -, rfl⟩ := List.mem_map.mp hx
        exact mul_self_nonneg _
      · exact List.mem_map_of_mem hl
    have := mul_self_nonneg (lookRow l ⬝ᵥ v)
    exact mul_self_eq_zero.mp (by linarith)
  · intro h
    unfold dopGram
    rw [← Matrix.mulVec_mulVec]
    have : matrixH looks *ᵥ v = 0 := by
      funext i
      exact h _ (List.getElem_mem _)
    rw [this, Matrix.mulVec_zero]

theorem det_dopGram_eq_zero_iff (looks : List Look) :
    (dopGram looks).det = 0 ↔ ∃ v : Fin 4 → ℝ, v ≠ 0 ∧ ∀ l ∈ looks, lookRow l ⬝ᵥ v = 0 := by
  rw [← Matrix.exists_mulVec_eq_zero_iff]
  simp only [dopGram_eq_zero_iff]

theorem dopGram_symm (looks : List Look) (v w : Fin 4 → ℝ) : v ⬝ᵥ (dopGram looks *ᵥ w) = w ⬝ᵥ (dopGram looks *ᵥ v) := by
  rw [dopGram_form, dopGram_form]
  congr 1
  apply List.map_congr_left
  intro l _
  ring

/-- The diagonal of the inverse. -/
theorem inv_diag (A : Matrix (Fin 4) (Fin 4) ℝ) (i : Fin 4) :
    A⁻¹ i i = (Pi.single i (1 : ℝ)) ⬝ᵥ (A⁻¹ *ᵥ Pi.single i (1 : ℝ)) := by
  simp

theorem inv_diag_nonneg (looks : List Look) (h : (dopGram looks).det ≠ 0) (i : Fin 4) : 0 ≤ (dopGram looks)⁻¹ i i := by
  rw [inv_diag]
  set e : Fin 4 → ℝ := Pi.single i 1
  set x := (dopGram looks)⁻¹ *ᵥ e
  have hx : dopGram looks *ᵥ x = e := by
    rw [Matrix.mulVec_mulVec, Matrix.mul_nonsing_inv _ (isUnit_iff_ne_zero.mpr h), Matrix.one_mulVec]
  rw [dotProduct_comm, ← hx]
  exact dopGram_nonneg _ _

/-- More rows make the diagonal of the inverse smaller. -/
theorem inv_diag_le (a b : List Look) (h : (dopGram a).det ≠ 0) (i : Fin 4) :
    (dopGram (a ++ b)).det ≠ 0 ∧ (dopGram (a ++ b))⁻¹ i i ≤ (dopGram a)⁻¹ i i := by
  have h' : (dopGram (a ++ b)).det ≠ 0 := by
    intro hc
    obtain ⟨v, hv, hall⟩ := (det_dopGram_eq_zero_iff _).mp hc
    exact h ((det_dopGram_eq_zero_iff _).mpr ⟨v, hv, fun l hl => hall l (List.mem_append_left _ hl)⟩)
  refine ⟨h', ?_⟩
  rw [inv_diag, inv_diag]
  set e : Fin 4 → ℝ := Pi.single i 1
  set x := (dopGram a)⁻¹ *ᵥ e with hxdef
  set y := (dopGram (a ++ b))⁻¹ *ᵥ e with hydef
  have hx : dopGram a *ᵥ x = e := by
    rw [hxdef, Matrix.mulVec_mulVec, Matrix.mul_nonsing_inv _ (isUnit_iff_ne_zero.mpr h), Matrix.one_mulVec]
  have hy : dopGram (a ++ b) *ᵥ y = e := by
    rw [hydef, Matrix.mulVec_mulVec, Matrix.mul_nonsing_inv _ (isUnit_iff_ne_zero.mpr h'), Matrix.one_mulVec]
  have hpos := dopGram_nonneg a (x - y)
  rw [Matrix.mulVec_sub, dotProduct_sub, sub_dotProduct, sub_dotProduct] at hpos
  have hyx := dopGram_symm a x y
  rw [hx] at hpos hyx
  have hyy : y ⬝ᵥ (dopGram a *ᵥ y) ≤ y ⬝ᵥ e := by
    have := dopGram_append a b y
    rw [hy] at this
    have hb := dopGram_nonneg b y
    linarith
  rw [dotProduct_comm e x, dotProduct_comm e y]
  linarith

/-! ## C62 -/

theorem dopAt_eq_some {looks : List Look} {minElevation : ℝ} {method : Method} {minCount : Nat} {d : ℝ} :
    dopAt looks minElevation method minCount = some d ↔
      minCount < looks.countP (isVisible minElevation) ∧
      (dopGram (looks.filter (isVisible minElevation))).det ≠ 0 ∧
      value method (dopGram (looks.filter (isVisible minElevation)))⁻¹ = d := by
  unfold dopAt solve
  simp only
  split_ifs with h1 h2
  · constructor
    · intro h; exact absurd h (by simp)
    · rintro ⟨h, -⟩; omega
  · constructor
    · intro h; exact absurd h (by simp)
    · rintro ⟨-, h, -⟩; exact absurd h2 h
  · simp only [Option.map_some, Option.some.injEq]
    exact ⟨fun h => ⟨by omega, h2, h⟩, fun h => h.2.2⟩

/-- C62: for all satellites, either no kind of dilution has a value or all have one; the values are not negative and
satisfy GDOP² = PDOP² + TDOP² and PDOP² = HDOP² + VDOP². -/
theorem C62_kinds (looks : List Look) (minElevation : ℝ) (minCount : Nat) :
    (∀ method, dopAt looks minElevation method minCount = none) ∨
      ∃ g p h v t : ℝ, dopAt looks minElevation .gdop minCount = some g ∧
        dopAt looks minElevation .pdop minCount = some p ∧ dopAt looks minElevation .hdop minCount = some h ∧
        dopAt looks minElevation .vdop minCount = some v ∧ dopAt looks minElevation .tdop minCount = some t ∧
        0 ≤ g ∧ 0 ≤ p ∧ 0 ≤ h ∧ 0 ≤ v ∧ 0 ≤ t ∧ g ^ 2 = p ^ 2 + t ^ 2 ∧ p ^ 2 = h ^ 2 + v ^ 2 := by
  by_cases hc : looks.countP (isVisible minElevation) ≤ minCount
  · left; intro method; unfold dopAt; rw [if_pos hc]
  by_cases hd : (dopGram (looks.filter (isVisible minElevation))).det = 0
  · left
    intro method
    unfold dopAt solve
    rw [if_neg hc]
    show Option.map _ (if (dopGram (looks.filter (isVisible minElevation))).det = 0 then none else _) = none
    rw [if_pos hd]; rfl
  right
  set M := (dopGram (looks.filter (isVisible minElevation)))⁻¹ with hM
  have n0 : 0 ≤ M 0 0 := inv_diag_nonneg _ hd 0
  have n1 : 0 ≤ M 1 1 := inv_diag_nonneg _ hd 1
  have n2 : 0 ≤ M 2 2 := inv_diag_nonneg _ hd 2
  have n3 : 0 ≤ M 3 3 := inv_diag_nonneg _ hd 3
  have tr : M.trace = M 0 0 + M 1 1 + M 2 2 + M 3 3 := by
    rw [Matrix.trace, Fin.sum_univ_four]; rfl
  have some_ : ∀ method, dopAt looks minElevation method minCount = some (value method M) :=
    fun method => dopAt_eq_some.mpr ⟨by omega, hd, rfl⟩
  refine ⟨_, _, _, _, _, some_ _, some_ _, some_ _, some_ _, some_ _, Real.sqrt_nonneg _, Real.sqrt_nonneg _,
    Real.sqrt_nonneg _, Real.sqrt_nonneg _, Real.sqrt_nonneg _, ?_, ?_⟩
  · simp only [value]
    rw [Real.sq_sqrt (by rw [tr]; positivity), Real.sq_sqrt (by positivity), Real.sq_sqrt n3, tr]
  · simp only [value]
    rw [Real.sq_sqrt (by positivity), Real.sq_sqrt (by positivity), Real.sq_sqrt n2]

/-- C62: the value does not depend on the order of the satellites. -/
theorem C62_order {a b : List Look} (h : a.Perm b) (minElevation : ℝ) (method : Method) (minCount : Nat) :
    dopAt a minElevation method minCount = dopAt b minElevation method minCount := by
  unfold dopAt
  rw [h.countP_eq]
  split_ifs
  · rfl
  · show Option.map _ (solve (dopGram _)) = Option.map _ (solve (dopGram _))
    rw [dopGram_perm (h.filter _)]

theorem lookRow_eq {l : Look} (h : l.r ≠ 0) :
    lookRow l = ![Real.cos l.el * Real.cos l.az, Real.cos l.el * Real.sin l.az, Real.sin l.el, 1] := by
  unfold lookRow Look.x Look.y Look.z
  congr 1
  · field_simp
  · congr 1
    · field_simp
    · congr 1
      field_simp

/-- C62: the value does not depend on the ranges, only on the directions. -/
theorem C62_scale (looks : List (ℝ × ℝ)) (r r' : ℝ × ℝ → ℝ) (hr : ∀ q, r q ≠ 0) (hr' : ∀ q, r' q ≠ 0)
    (minElevation : ℝ) (method : Method) (minCount : Nat) :
    dopAt (looks.map fun q => ⟨q.1, q.2, r q⟩) minElevation method minCount =
      dopAt (looks.map fun q => ⟨q.1, q.2, r' q⟩) minElevation method minCount := by
  have hcount : ∀ f : ℝ × ℝ → ℝ, (looks.map fun q => (⟨q.1, q.2, f q⟩ : Look)).countP (isVisible minElevation) =
      looks.countP (fun q => decide (q.1 ≥ radians minElevation)) := by
    intro f; rw [List.countP_map]; rfl
  have hfilter : ∀ f : ℝ × ℝ → ℝ, (looks.map fun q => (⟨q.1, q.2, f q⟩ : Look)).filter (isVisible minElevation) =
      (looks.filter (fun q => decide (q.1 ≥ radians minElevation))).map fun q => (⟨q.1, q.2, f q⟩ : Look) := by
    intro f; rw [List.filter_map]; rfl
  unfold dopAt
  rw [hcount, hcount]
  split_ifs
  · rfl
  · show Option.map _ (solve (dopGram _)) = Option.map _ (solve (dopGram _))
    congr 2
    ext i j
    rw [dopGram_apply, dopGram_apply, hfilter, hfilter, List.map_map, List.map_map]
    congr 1
    apply List.map_congr_left
    intro q _
    simp only [Function.comp]
    rw [lookRow_eq (hr q), lookRow_eq (hr' q)]

/-! ## C63 -/

theorem value_mono {M N : Matrix (Fin 4) (Fin 4) ℝ} (h : ∀ i, M i i ≤ N i i) (method : Method) :
    value method M ≤ value method N := by
  have h0 := h 0; have h1 := h 1; have h2 := h 2; have h3 := h 3
  cases method <;> simp only [value, Matrix.trace, Fin.sum_univ_four, Matrix.diag] <;> apply Real.sqrt_le_sqrt <;> linarith

/-- C63: adding any satellites, anywhere in the list, never increases any kind of dilution that has a value. -/
theorem C63_more_satellites {few many : List Look} (h : few.Subperm many) (minElevation : ℝ) (method : Method)
    (minCount : Nat) (d : ℝ) (hd : dopAt few minElevation method minCount = some d) :
    ∃ d', dopAt many minElevation method minCount = some d' ∧ d' ≤ d := by
  obtain ⟨few', hfew, hsub⟩ := h
  obtain ⟨rest, hrest'⟩ := hsub.exists_perm_append
  have hrest : many.Perm (few ++ rest) := hrest'.trans (hfew.append_right rest)
  rw [C62_order hrest]
  obtain ⟨h1, h2, rfl⟩ := dopAt_eq_some.mp hd
  have hle := fun i => inv_diag_le (few.filter (isVisible minElevation)) (rest.filter (isVisible minElevation)) h2 i
  rw [← List.filter_append] at hle
  refine ⟨_, dopAt_eq_some.mpr ⟨?_, (hle 0).1, rfl⟩, value_mono (fun i => (hle i).2) method⟩
  rw [List.countP_append]; omega

/-- C63: the same holds of a lower minimum elevation and of a smaller minimum number of satellites. -/
theorem C63_settings {few many : List Look} (h : few.Subperm many) {e e' : ℝ} (he : e' ≤ e) (method : Method)
    {n n' : Nat} (hn : n' ≤ n) (d : ℝ) (hd : dopAt few e method n = some d) :
    ∃ d', dopAt many e' method n' = some d' ∧ d' ≤ d := by
  obtain ⟨d₁, hd₁, hle₁⟩ := C63_more_satellites h e method n d hd
  obtain ⟨h1, h2, rfl⟩ := dopAt_eq_some.mp hd₁
  have hvis : ∀ l : Look, isVisible e l = true → isVisible e' l = true := by
    intro l hl
    unfold isVisible at *
    rw [decide_eq_true_iff] at *
    have : radians e' ≤ radians e := mul_le_mul_of_nonneg_right he (by positivity)
    linarith
  have hsplit : (many.filter (isVisible e')).Perm
      (many.filter (isVisible e) ++ many.filter fun l => isVisible e' l && !isVisible e l) := by
    have := List.filter_append_perm (isVisible e) (many.filter (isVisible e'))
    rw [List.filter_filter, List.filter_filter] at this
    refine this.symm.trans ?_
    rw [List.filter_congr (p := fun a => isVisible e a && isVisible e' a) (q := isVisible e) (fun l _ => by
      cases hl : isVisible e l
      · rfl
      · rw [hvis l hl]; rfl)]
    rw [List.filter_congr (p := fun a => !isVisible e a && isVisible e' a)
      (q := fun l => isVisible e' l && !isVisible e l) (fun l _ => Bool.and_comm _ _)]
  have hle := fun i => inv_diag_le (many.filter (isVisible e))
    (many.filter fun l => isVisible e' l && !isVisible e l) h2 i
  rw [← dopGram_perm hsplit] at hle
  refine ⟨_, dopAt_eq_some.mpr ⟨?_, (hle 0).1, rfl⟩, (value_mono (fun i => (hle i).2) method).trans hle₁⟩
  have := List.countP_mono_left (l := many) (p := isVisible e) (q := isVisible e') (fun l _ hl => hvis l hl)
  omega

/-- C63, of the function itself: one row per time in both results, and where the first has a value the second has one
that is not larger. -/
theorem C63_rows (times : List Int) (latitude longitude : ℝ) (few many : List (Int → Look)) (h : few.Subperm many)
    {e e' : ℝ} (he : e' ≤ e) (method : Method) {n n' : Nat} (hn : n' ≤ n) (rows rows' : List Row)
    (hr : computeDop times latitude longitude few e method n = .ok rows)
    (hr' : computeDop times latitude longitude many e' method n' = .ok rows') :
    List.Forall₂ (fun r r' => r'.time = r.time ∧ ∀ d, r.dop = some d → ∃ d', r'.dop = some d' ∧ d' ≤ d) rows rows' := by
  unfold computeDop at hr hr'
  simp only [bind_eq_ok, require_eq_ok, pure, Except.pure, Except.ok.injEq] at hr hr'
  obtain ⟨-, -, rfl⟩ := hr
  obtain ⟨-, -, rfl⟩ := hr'
  rw [List.forall₂_map_left_iff, List.forall₂_map_right_iff, List.forall₂_same]
  intro t _
  exact ⟨rfl, fun d hd => C63_settings (by
    obtain ⟨l, hl, hs⟩ := h
    exact ⟨l.map fun s => s t, hl.map _, hs.map _⟩) he method hn d hd⟩

/-! ## C64 -/

theorem dot_four (a b : Fin 4 → ℝ) : a ⬝ᵥ b = a 0 * b 0 + a 1 * b 1 + a 2 * b 2 + a 3 * b 3 := by
  unfold dotProduct; rw [Fin.sum_univ_four]

theorem det_iff_coplanar (looks : List Look) (hr : ∀ l ∈ looks, l.r ≠ 0) :
    (dopGram looks).det = 0 ↔ CoplanarDirections (looks.map fun l => (l.el, l.az)) := by
  rw [det_dopGram_eq_zero_iff]
  unfold CoplanarDirections
  constructor
  · rintro ⟨v, hv, hall⟩
    refine ⟨v 0, v 1, v 2, v 3, ?_, ?_⟩
    · by_contra hc
      push Not at hc
      apply hv
      funext i
      fin_cases i
      · exact hc.1
      · exact hc.2.1
      · exact hc.2.2.1
      · exact hc.2.2.2
    · intro q hq
      obtain ⟨l, hl, rfl⟩ := List.mem_map.mp hq
      have := hall l hl
      rw [dot_four, lookRow_eq (hr l hl)] at this
      simp at this
      linarith
  · rintro ⟨a, b, c, d, hne, hall⟩
    refine ⟨![a, b, c, d], ?_, ?_⟩
    · intro h0
      have e0 := congrFun h0 0
      have e1 := congrFun h0 1
      have e2 := congrFun h0 2
      have e3 := congrFun h0 3
      simp at e0 e1 e2 e3
      rcases hne with h | h | h | h
      · exact h e0
      · exact h e1
      · exact h e2
      · exact h e3
    · intro l hl
      have := hall (l.el, l.az) (List.mem_map.mpr ⟨l, hl, rfl⟩)
      rw [dot_four, lookRow_eq (hr l hl)]
      simp
      simp only at this
      linarith

/-- C64, where it holds: one row per time, in order; the value is present exactly when *more* than the minimum number of
satellites are at or above the minimum elevation and their directions are not all in one plane.  Missing: exactly
the minimum number of satellites, and the geometry (`C64_present_false`, `C64_geometry_false`). -/
theorem C64_present_partial (times : List Int) (latitude longitude : ℝ) (satellites : List (Int → Look))
    (hne : satellites ≠ []) (hr : ∀ s ∈ satellites, ∀ t, (s t).r ≠ 0) (minElevation : ℝ) (method : Method)
    (minCount : Nat) :
    ∃ rows, computeDop times latitude longitude satellites minElevation method minCount = .ok rows ∧
      rows.map (·.time) = times ∧ ∀ row ∈ rows, (row.dop.isSome ↔
        let visible := (satellites.map fun s => s row.time).filter fun l => minElevation * (Real.pi / 180) ≤ l.el
        minCount < visible.length ∧ ¬ CoplanarDirections (visible.map fun l => (l.el, l.az))) := by
  refine ⟨times.map fun t =>
      { time := t
        dop := dopAt (satellites.map fun s => s t) minElevation method minCount
        geometry := (latitude, longitude) }, ?_, ?_, ?_⟩
  · unfold computeDop
    simp only [bind_eq_ok, require_eq_ok, pure, Except.pure]
    exact ⟨(), Or.inl hne, trivial⟩
  · rw [List.map_map]; simp [Function.comp_def]
  · intro row hrow
    obtain ⟨t, ht, rfl⟩ := List.mem_map.mp hrow
    simp only
    have hv : (fun l : Look => decide (minElevation * (Real.pi / 180) ≤ l.el)) = isVisible minElevation := rfl
    rw [hv, Option.isSome_iff_exists]
    rw [← det_iff_coplanar]
    swap
    · intro l hl
      obtain ⟨s, hs, rfl⟩ := List.mem_map.mp (List.mem_of_mem_filter hl)
      exact hr s hs t
    constructor
    · rintro ⟨d, hd⟩
      obtain ⟨h1, h2, -⟩ := dopAt_eq_some.mp hd
      exact ⟨by rw [← List.countP_eq_length_filter]; exact h1, h2⟩
    · rintro ⟨h1, h2⟩
      exact ⟨_, dopAt_eq_some.mpr ⟨by rw [List.countP_eq_length_filter]; exact h1, h2, rfl⟩⟩

/-- Four satellites, one overhead and three on the horizon. -/
noncomputable def fourSatellites : List Look :=
  [⟨Real.pi / 2, 0, 1⟩, ⟨0, 0, 1⟩, ⟨0, Real.pi / 2, 1⟩, ⟨0, Real.pi, 1⟩]

theorem fourSatellites_visible : fourSatellites.filter (isVisible 0) = fourSatellites := by
  have hpi := Real.pi_pos
  have h2 : 0 ≤ Real.pi / 2 := by positivity
  simp [fourSatellites, isVisible, radians, h2]

theorem fourSatellites_space : ¬ CoplanarDirections (fourSatellites.map fun l => (l.el, l.az)) := by
  rintro ⟨a, b, c, d, hne, hall⟩
  simp only [fourSatellites, List.map_cons, List.map_nil, List.mem_cons, List.not_mem_nil, or_false, forall_eq_or_imp,
    forall_eq, Real.cos_pi_div_two, Real.sin_pi_div_two, Real.cos_zero, Real.sin_zero, Real.cos_pi, Real.sin_pi] at hall
  obtain ⟨h1, h2, h3, h4⟩ := hall
  have hd : d = 0 := by linarith
  rcases hne with h | h | h | h <;> apply h <;> linarith

/-- The four satellites have a value when the minimum is three: the hypotheses of the theorems above are met. -/
theorem fourSatellites_value (method : Method) : (dopAt fourSatellites 0 method 3).isSome := by
  rw [Option.isSome_iff_exists]
  refine ⟨_, dopAt_eq_some.mpr ⟨?_, ?_, rfl⟩⟩
  · rw [List.countP_eq_length_filter, fourSatellites_visible]; decide
  · rw [fourSatellites_visible]
    intro h
    rw [det_iff_coplanar] at h
    · exact fourSatellites_space h
    · intro l hl
      simp only [fourSatellites, List.mem_cons, List.not_mem_nil, or_false] at hl
      rcases hl with rfl | rfl | rfl | rfl <;> norm_num

/-- C64 does not hold: for all satellites, with exactly the minimum number visible there is no value, although the value
is well defined: for four satellites in different directions it is there as soon as the minimum asked for is three. -/
theorem C64_present_false :
    (∀ (looks : List Look) (minElevation : ℝ) (method : Method),
      dopAt looks minElevation method (looks.countP (isVisible minElevation)) = none) ∧
    ∀ method, dopAt fourSatellites 0 method 4 = none ∧ (dopAt fourSatellites 0 method 3).isSome := by
  have h : ∀ (looks : List Look) (minElevation : ℝ) (method : Method),
      dopAt looks minElevation method (looks.countP (isVisible minElevation)) = none := by
    intro looks minElevation method
    unfold dopAt
    rw [if_pos le_rfl]
  refine ⟨h, fun method => ⟨?_, fourSatellites_value method⟩⟩
  have := h fourSatellites 0 method
  rw [List.countP_eq_length_filter, fourSatellites_visible] at this
  exact this

/-- C64 does not hold: for all times and satellites the geometry of every row is the point (latitude, longitude), where
geographic coordinates need (longitude, latitude); and without satellites the function raises IndexError. -/
theorem C64_geometry_false :
    (∀ times latitude longitude satellites minElevation method minCount rows,
      computeDop times latitude longitude satellites minElevation method minCount = .ok rows →
      latitude ≠ longitude → ∀ row ∈ rows, row.geometry = (latitude, longitude) ∧ row.geometry ≠ (longitude, latitude)) ∧
    ∀ times latitude longitude minElevation method minCount, times ≠ [] →
      computeDop times latitude longitude [] minElevation method minCount = .error .indexError := by
  constructor
  · intro times latitude longitude satellites minElevation method minCount rows h hne row hrow
    unfold computeDop at h
    simp only [bind_eq_ok, require_eq_ok, pure, Except.pure, Except.ok.injEq] at h
    obtain ⟨-, -, rfl⟩ := h
    obtain ⟨t, -, rfl⟩ := List.mem_map.mp hrow
    refine ⟨rfl, fun hc => hne ?_⟩
    exact congrArg Prod.fst hc
  · intro times latitude longitude minElevation method minCount h
    unfold computeDop require
    rw [if_neg (by simp [h])]
    rfl

/-- With at most three satellites visible there is never a value, whatever the minimum. -/
theorem C64_three (looks : List Look) (minElevation : ℝ) (method : Method) (minCount : Nat)
    (h : looks.countP (isVisible minElevation) ≤ 3) : dopAt looks minElevation method minCount = none := by
  by_contra hc
  obtain ⟨d, hd⟩ := Option.ne_none_iff_exists'.mp hc
  obtain ⟨-, hdet, -⟩ := dopAt_eq_some.mp hd
  apply hdet
  rw [det_dopGram_eq_zero_iff]
  rw [List.countP_eq_length_filter] at h
  set visible := looks.filter (isVisible minElevation)
  have hker : LinearMap.ker (Matrix.mulVecLin (matrixH visible)) ≠ ⊥ := by
    apply LinearMap.ker_ne_bot_of_finrank_lt
    simp only [Module.finrank_fin_fun]
    omega
  obtain ⟨v, hv, hne⟩ := (Submodule.ne_bot_iff _).mp hker
  refine ⟨v, hne, ?_⟩
  intro l hl
  obtain ⟨i, hi, rfl⟩ := List.getElem_of_mem hl
  exact congrFun (LinearMap.mem_ker.mp hv) ⟨i, hi⟩

end Tatc.Props
