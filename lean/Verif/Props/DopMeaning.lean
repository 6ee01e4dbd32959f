import Verif.Props.Dop
import Verif.Spec.Positioning

/-!
# C127, C128, C129: what dilution of precision means
-/

namespace Tatc.Props
open Tatc.Dop Tatc.Spec Tatc.Num Matrix
open scoped Classical

/-- The components (north, east, up, clock) that a kind of dilution is about. -/
def concerned : Method → Finset (Fin 4)
  | .gdop => {0, 1, 2, 3}
  | .pdop => {0, 1, 2}
  | .hdop => {0, 1}
  | .vdop => {2}
  | .tdop => {3}

theorem value_sq (method : Method) (M : Matrix (Fin 4) (Fin 4) ℝ) (h : ∀ i, 0 ≤ M i i) :
    0 ≤ value method M ∧ value method M ^ 2 = ∑ j ∈ concerned method, M j j := by
  have h0 := h 0; have h1 := h 1; have h2 := h 2; have h3 := h 3
  cases method
  · refine ⟨Real.sqrt_nonneg _, ?_⟩
    simp only [value, concerned, Matrix.trace, Matrix.diag, Fin.sum_univ_four]
    rw [Real.sq_sqrt (by linarith)]
    simp [Finset.sum_insert]
    ring
  · refine ⟨Real.sqrt_nonneg _, ?_⟩
    simp only [value, concerned]
    rw [Real.sq_sqrt (by linarith)]
    simp [Finset.sum_insert]
    ring
  · refine ⟨Real.sqrt_nonneg _, ?_⟩
    simp only [value, concerned]
    rw [Real.sq_sqrt (by linarith)]
    simp [Finset.sum_insert]
  · refine ⟨Real.sqrt_nonneg _, ?_⟩
    simp only [value, concerned]
    rw [Real.sq_sqrt (by linarith)]
    simp
  · refine ⟨Real.sqrt_nonneg _, ?_⟩
    simp only [value, concerned]
    rw [Real.sq_sqrt (by linarith)]
    simp

theorem lookRow_dot {l : Look} (h : l.r ≠ 0) (x : Fin 4 → ℝ) : lookRow l ⬝ᵥ x = rangeChange (l.el, l.az) x := by
  unfold lookRow Look.x Look.y Look.z rangeChange
  rw [dotProduct, Fin.sum_univ_four]
  simp
  field_simp

/-- The directions of satellites. -/
def directionOf (looks : List Look) (k : Fin looks.length) : ℝ × ℝ := (looks[k].el, looks[k].az)

theorem rangeChange_eq {looks : List Look} (h : ∀ l ∈ looks, l.r ≠ 0) (x : Fin 4 → ℝ) (k : Fin looks.length) :
    rangeChange (directionOf looks k) x = (matrixH looks *ᵥ x) k :=
  (lookRow_dot (h _ (List.getElem_mem _)) x).symm

/-- The least squares solution. -/
noncomputable def solution (looks : List Look) : Matrix (Fin 4) (Fin looks.length) ℝ :=
  (dopGram looks)⁻¹ * (matrixH looks).transpose

theorem solution_gram {looks : List Look} (hdet : (dopGram looks).det ≠ 0) :
    solution looks * matrixH looks = 1 := by
  unfold solution
  rw [Matrix.mul_assoc]
  exact Matrix.nonsing_inv_mul _ (isUnit_iff_ne_zero.mpr hdet)

theorem solution_normal {looks : List Look} (hdet : (dopGram looks).det ≠ 0) (e : Fin looks.length → ℝ) :
    (matrixH looks).transpose *ᵥ (matrixH looks *ᵥ (solution looks *ᵥ e) - e) = 0 := by
  rw [Matrix.mulVec_sub, Matrix.mulVec_mulVec, Matrix.mulVec_mulVec]
  have : (matrixH looks).transpose * matrixH looks * solution looks = (matrixH looks).transpose := by
    unfold solution
    have hg : (matrixH looks).transpose * matrixH looks = dopGram looks := rfl
    rw [← Matrix.mul_assoc, hg, Matrix.mul_nonsing_inv _ (isUnit_iff_ne_zero.mpr hdet), Matrix.one_mul]
  rw [this, sub_self]

theorem solution_sq {looks : List Look} (hdet : (dopGram looks).det ≠ 0) :
    solution looks * (solution looks).transpose = (dopGram looks)⁻¹ := by
  have hT : (dopGram looks).transpose = dopGram looks := by
    unfold dopGram; rw [Matrix.transpose_mul, Matrix.transpose_transpose]
  conv_lhs => rhs; unfold solution
  rw [Matrix.transpose_mul, Matrix.transpose_transpose, ← Matrix.mul_assoc, solution_gram hdet, Matrix.one_mul,
    Matrix.transpose_nonsing_inv, hT]

theorem misfit_split {looks : List Look} (h : ∀ l ∈ looks, l.r ≠ 0) (hdet : (dopGram looks).det ≠ 0)
    (e : Fin looks.length → ℝ) (y : Fin 4 → ℝ) :
    misfit (directionOf looks) e y = misfit (directionOf looks) e (solution looks *ᵥ e) +
      ∑ k, ((matrixH looks *ᵥ (y - solution looks *ᵥ e)) k) ^ 2 := by
  set x := solution looks *ᵥ e with hx
  have hn := solution_normal hdet e
  rw [← hx] at hn
  have hcross : ∑ k, ((matrixH looks *ᵥ (y - x)) k) * ((matrixH looks *ᵥ x - e) k) = 0 := by
    have : (matrixH looks *ᵥ (y - x)) ⬝ᵥ (matrixH looks *ᵥ x - e) = 0 := by
      rw [dotProduct_comm, Matrix.dotProduct_mulVec, ← Matrix.mulVec_transpose, hn, zero_dotProduct]
    exact this
  have e1 : ∀ k, (rangeChange (directionOf looks k) y - e k) ^ 2 =
      (rangeChange (directionOf looks k) x - e k) ^ 2 + ((matrixH looks *ᵥ (y - x)) k) ^ 2 +
        2 * (((matrixH looks *ᵥ (y - x)) k) * ((matrixH looks *ᵥ x - e) k)) := by
    intro k
    rw [rangeChange_eq h, rangeChange_eq h, Matrix.mulVec_sub, Pi.sub_apply, Pi.sub_apply]
    ring
  unfold misfit
  rw [Finset.sum_congr rfl fun k _ => e1 k, Finset.sum_add_distrib, Finset.sum_add_distrib, ← Finset.mul_sum, hcross]
  ring

theorem leastSquares_iff {looks : List Look} (h : ∀ l ∈ looks, l.r ≠ 0) (hdet : (dopGram looks).det ≠ 0)
    (e : Fin looks.length → ℝ) (x : Fin 4 → ℝ) :
    LeastSquares (directionOf looks) e x ↔ x = solution looks *ᵥ e := by
  constructor
  · intro hx
    have h1 := hx (solution looks *ᵥ e)
    rw [misfit_split h hdet e x] at h1
    have h0 : ∑ k, ((matrixH looks *ᵥ (x - solution looks *ᵥ e)) k) ^ 2 = 0 :=
      le_antisymm (by linarith) (Finset.sum_nonneg fun k _ => sq_nonneg _)
    rw [Finset.sum_eq_zero_iff_of_nonneg fun k _ => sq_nonneg _] at h0
    have hz : matrixH looks *ᵥ (x - solution looks *ᵥ e) = 0 := by
      funext k
      exact pow_eq_zero_iff (by norm_num) |>.mp (h0 k (Finset.mem_univ k))
    have : solution looks *ᵥ (matrixH looks *ᵥ (x - solution looks *ᵥ e)) = x - solution looks *ᵥ e := by
      rw [Matrix.mulVec_mulVec, solution_gram hdet, Matrix.one_mulVec]
    rw [hz, Matrix.mulVec_zero] at this
    exact sub_eq_zero.mp this.symm
  · rintro rfl y
    rw [misfit_split h hdet e y]
    have : 0 ≤ ∑ k, ((matrixH looks *ᵥ (y - solution looks *ᵥ e)) k) ^ 2 := Finset.sum_nonneg fun k _ => sq_nonneg _
    linarith

/-- C127: dilution of precision is how much errors of ranges are amplified.  When there is a value, positioning by least
squares from the visible satellites has exactly one solution for all errors, and the value is the root of the sum of
the squares of the errors, in the components that the kind of dilution is about, that errors of one unit in each of the
ranges lead to. -/
theorem C127_amplification (looks : List Look) (hr : ∀ l ∈ looks, l.r ≠ 0) (minElevation : ℝ) (method : Method)
    (minCount : Nat) (d : ℝ) (hd : dopAt looks minElevation method minCount = some d) :
    let visible := looks.filter fun l => minElevation * (Real.pi / 180) ≤ l.el
    ∃ estimate : (Fin visible.length → ℝ) → Fin 4 → ℝ,
      (∀ errors x, LeastSquares (directionOf visible) errors x ↔ x = estimate errors) ∧
      0 ≤ d ∧ d ^ 2 = ∑ k, ∑ j ∈ concerned method, estimate (Pi.single k 1) j ^ 2 := by
  obtain ⟨-, hdet, hv⟩ := dopAt_eq_some.mp hd
  have hvis : looks.filter (isVisible minElevation) = looks.filter fun l => minElevation * (Real.pi / 180) ≤ l.el := rfl
  rw [hvis] at hdet hv
  intro visible
  have hr' : ∀ l ∈ visible, l.r ≠ 0 := fun l hl => hr l (List.mem_filter.mp hl).1
  refine ⟨fun e => solution visible *ᵥ e, fun e x => leastSquares_iff hr' hdet e x, ?_⟩
  obtain ⟨h0, h1⟩ := value_sq method (dopGram visible)⁻¹ (inv_diag_nonneg _ hdet)
  rw [hv] at h0 h1
  refine ⟨h0, ?_⟩
  rw [h1, Finset.sum_comm]
  refine Finset.sum_congr rfl fun j _ => ?_
  rw [← solution_sq hdet, Matrix.mul_apply]
  refine Finset.sum_congr rfl fun k _ => ?_
  show solution visible j k * solution visible j k = (solution visible *ᵥ Pi.single k 1) j ^ 2
  rw [Matrix.mulVec_single_one, Matrix.col_apply]
  ring

/-- C127: whatever the errors of the ranges, the error of the position is at most the dilution times their size. -/
theorem C127_bound (looks : List Look) (hr : ∀ l ∈ looks, l.r ≠ 0) (minElevation : ℝ) (method : Method)
    (minCount : Nat) (d : ℝ) (hd : dopAt looks minElevation method minCount = some d) :
    let visible := looks.filter fun l => minElevation * (Real.pi / 180) ≤ l.el
    ∀ errors x, LeastSquares (directionOf visible) errors x →
      ∑ j ∈ concerned method, x j ^ 2 ≤ d ^ 2 * ∑ k, errors k ^ 2 := by
  obtain ⟨-, hdet, hv⟩ := dopAt_eq_some.mp hd
  have hvis : looks.filter (isVisible minElevation) = looks.filter fun l => minElevation * (Real.pi / 180) ≤ l.el := rfl
  rw [hvis] at hdet hv
  intro visible errors x hx
  have hr' : ∀ l ∈ visible, l.r ≠ 0 := fun l hl => hr l (List.mem_filter.mp hl).1
  rw [leastSquares_iff hr' hdet] at hx
  obtain ⟨-, h1⟩ := value_sq method (dopGram visible)⁻¹ (inv_diag_nonneg _ hdet)
  rw [hv] at h1
  rw [h1, Finset.sum_mul]
  refine Finset.sum_le_sum fun j _ => ?_
  rw [hx, ← solution_sq hdet, Matrix.mul_apply]
  have := Finset.sum_mul_sq_le_sq_mul_sq Finset.univ (fun k => solution visible j k) errors
  simp only [Matrix.mulVec, dotProduct, Matrix.transpose_apply]
  refine this.trans (le_of_eq ?_)
  congr 1
  exact Finset.sum_congr rfl fun k _ => by ring

/-! ## C128: directions -/

/-- Turning north towards east. -/
noncomputable def turnMatrix (c s : ℝ) : Matrix (Fin 4) (Fin 4) ℝ := !![c, -s, 0, 0; s, c, 0, 0; 0, 0, 1, 0; 0, 0, 0, 1]

theorem turnMatrix_mul {c s : ℝ} (h : s ^ 2 + c ^ 2 = 1) : turnMatrix c s * (turnMatrix c s).transpose = 1 := by
  ext i j
  rw [Matrix.mul_apply, Fin.sum_univ_four]
  fin_cases i <;> fin_cases j <;> simp [turnMatrix] <;> linarith

/-- C128: dilution of precision does not depend on the direction from which azimuths are measured. -/
theorem C128_turn (looks : List Look) (φ minElevation : ℝ) (method : Method) (minCount : Nat) :
    dopAt (looks.map fun l => ⟨l.el, l.az + φ, l.r⟩) minElevation method minCount =
      dopAt looks minElevation method minCount := by
  have hcount : (looks.map fun l => (⟨l.el, l.az + φ, l.r⟩ : Look)).countP (isVisible minElevation) =
      looks.countP (isVisible minElevation) := by rw [List.countP_map]; rfl
  have hfilter : (looks.map fun l => (⟨l.el, l.az + φ, l.r⟩ : Look)).filter (isVisible minElevation) =
      (looks.filter (isVisible minElevation)).map fun l => ⟨l.el, l.az + φ, l.r⟩ := by rw [List.filter_map]; rfl
  unfold dopAt
  rw [hcount]
  split_ifs
  · rfl
  simp only
  change Option.map (value method) (solve (dopGram _)) = Option.map (value method) (solve (dopGram _))
  rw [hfilter]
  set v := looks.filter (isVisible minElevation)
  set R := turnMatrix (Real.cos φ) (Real.sin φ) with hR
  have hRR : R * R.transpose = 1 := turnMatrix_mul (Real.sin_sq_add_cos_sq φ)
  have hRR' : R.transpose * R = 1 := mul_eq_one_comm.mp hRR
  have hrow : ∀ l : Look, lookRow ⟨l.el, l.az + φ, l.r⟩ = R *ᵥ lookRow l := by
    intro l
    funext i
    unfold lookRow Look.x Look.y Look.z
    rw [Matrix.mulVec, dotProduct, Fin.sum_univ_four, hR]
    fin_cases i
    · simp [turnMatrix, Real.cos_add]; ring
    · simp [turnMatrix, Real.sin_add]; ring
    · simp [turnMatrix]
    · simp [turnMatrix]
  have hG : dopGram (v.map fun l => ⟨l.el, l.az + φ, l.r⟩) = R * dopGram v * R.transpose := by
    ext i j
    rw [dopGram_apply, List.map_map]
    have : ∀ l : Look, lookRow ⟨l.el, l.az + φ, l.r⟩ i * lookRow ⟨l.el, l.az + φ, l.r⟩ j =
        (lookRow l ⬝ᵥ R i) * (lookRow l ⬝ᵥ R j) := by
      intro l
      rw [hrow, Matrix.mulVec, Matrix.mulVec, dotProduct_comm (lookRow l), dotProduct_comm (lookRow l)]
    have h2 := dopGram_form v (R i) (R j)
    simp only [Function.comp_def, this]
    rw [← h2]
    rw [Matrix.mul_apply]
    simp only [dotProduct, Matrix.mulVec, Matrix.mul_apply, Matrix.transpose_apply, Finset.mul_sum, Finset.sum_mul]
    rw [Finset.sum_comm]
    exact Finset.sum_congr rfl fun _ _ => Finset.sum_congr rfl fun _ _ => by ring
  rw [hG]
  unfold solve
  have hdetR : R.det * R.transpose.det = 1 := by rw [← Matrix.det_mul, hRR, Matrix.det_one]
  have hdet : (R * dopGram v * R.transpose).det = (dopGram v).det := by
    rw [Matrix.det_mul, Matrix.det_mul]
    linear_combination (dopGram v).det * hdetR
  rw [hdet]
  split_ifs with h0
  · rfl
  simp only [Option.map_some, Option.some.injEq]
  have hinv : (R * dopGram v * R.transpose)⁻¹ = R * (dopGram v)⁻¹ * R.transpose := by
    apply Matrix.inv_eq_right_inv
    have hu := Matrix.mul_nonsing_inv (dopGram v) (isUnit_iff_ne_zero.mpr h0)
    calc R * dopGram v * R.transpose * (R * (dopGram v)⁻¹ * R.transpose)
        = R * dopGram v * (R.transpose * R) * (dopGram v)⁻¹ * R.transpose := by simp only [Matrix.mul_assoc]
      _ = R * (dopGram v * (dopGram v)⁻¹) * R.transpose := by rw [hRR', Matrix.mul_one]; simp only [Matrix.mul_assoc]
      _ = 1 := by rw [hu, Matrix.mul_one, hRR]
  rw [hinv]
  set M := (dopGram v)⁻¹
  have hsc := Real.sin_sq_add_cos_sq φ
  have r00 : R 0 0 = Real.cos φ := rfl
  have r01 : R 0 1 = -Real.sin φ := rfl
  have r02 : R 0 2 = 0 := rfl
  have r03 : R 0 3 = 0 := rfl
  have r10 : R 1 0 = Real.sin φ := rfl
  have r11 : R 1 1 = Real.cos φ := rfl
  have r12 : R 1 2 = 0 := rfl
  have r13 : R 1 3 = 0 := rfl
  have r20 : R 2 0 = 0 := rfl
  have r21 : R 2 1 = 0 := rfl
  have r22 : R 2 2 = 1 := rfl
  have r23 : R 2 3 = 0 := rfl
  have r30 : R 3 0 = 0 := rfl
  have r31 : R 3 1 = 0 := rfl
  have r32 : R 3 2 = 0 := rfl
  have r33 : R 3 3 = 1 := rfl
  have e01 : (R * M * R.transpose) 0 0 + (R * M * R.transpose) 1 1 = M 0 0 + M 1 1 := by
    simp only [Matrix.mul_apply, Fin.sum_univ_four, Matrix.transpose_apply, r00, r01, r02, r03, r10, r11, r12, r13]
    linear_combination (M 0 0 + M 1 1) * hsc
  have e2 : (R * M * R.transpose) 2 2 = M 2 2 := by
    simp only [Matrix.mul_apply, Fin.sum_univ_four, Matrix.transpose_apply, r20, r21, r22, r23]
    ring
  have e3 : (R * M * R.transpose) 3 3 = M 3 3 := by
    simp only [Matrix.mul_apply, Fin.sum_univ_four, Matrix.transpose_apply, r30, r31, r32, r33]
    ring
  cases method <;> simp only [value, Matrix.trace, Matrix.diag, Fin.sum_univ_four, e01, e2, e3]

/-! ## C129: the best that n satellites can do -/

theorem row_sq {l : Look} (h : l.r ≠ 0) :
    lookRow l 0 * lookRow l 0 + lookRow l 1 * lookRow l 1 + lookRow l 2 * lookRow l 2 = 1 ∧ lookRow l 3 * lookRow l 3 = 1 := by
  unfold lookRow Look.x Look.y Look.z
  have h1 := Real.sin_sq_add_cos_sq l.el
  have h2 := Real.sin_sq_add_cos_sq l.az
  refine ⟨?_, by simp⟩
  simp
  field_simp
  linear_combination h1 + Real.cos l.el ^ 2 * h2

theorem diag_sum {looks : List Look} (h : ∀ l ∈ looks, l.r ≠ 0) :
    dopGram looks 0 0 + dopGram looks 1 1 + dopGram looks 2 2 = looks.length ∧ dopGram looks 3 3 = looks.length := by
  simp only [dopGram_apply]
  induction looks with
  | nil => simp
  | cons l t ih =>
    obtain ⟨i1, i2⟩ := ih fun x hx => h x (List.mem_cons_of_mem _ hx)
    obtain ⟨r1, r2⟩ := row_sq (h l List.mem_cons_self)
    simp only [List.map_cons, List.sum_cons, List.length_cons, Nat.cast_add, Nat.cast_one]
    constructor
    · linarith
    · linarith

/-- The product of a diagonal element with that of the inverse is at least one. -/
theorem diag_mul (looks : List Look) (hdet : (dopGram looks).det ≠ 0) (i : Fin 4) :
    1 ≤ dopGram looks i i * (dopGram looks)⁻¹ i i := by
  rw [inv_diag]
  set e : Fin 4 → ℝ := Pi.single i 1 with he
  set x := (dopGram looks)⁻¹ *ᵥ e with hxd
  have hx : dopGram looks *ᵥ x = e := by
    rw [hxd, Matrix.mulVec_mulVec, Matrix.mul_nonsing_inv _ (isUnit_iff_ne_zero.mpr hdet), Matrix.one_mulVec]
  have hee : e ⬝ᵥ e = 1 := by simp [he]
  have hA : dopGram looks i i = e ⬝ᵥ (dopGram looks *ᵥ e) := by simp [he]
  have hxx : x ⬝ᵥ (dopGram looks *ᵥ x) = e ⬝ᵥ x := by rw [hx, dotProduct_comm]
  have hex : e ⬝ᵥ (dopGram looks *ᵥ x) = 1 := by rw [hx, hee]
  rw [hA]
  -- the form is not negative along `x - t e`
  have hp : ∀ t : ℝ, 0 ≤ e ⬝ᵥ x - 2 * t + t ^ 2 * (e ⬝ᵥ (dopGram looks *ᵥ e)) := by
    intro t
    have := dopGram_nonneg looks (x - t • e)
    rw [Matrix.mulVec_sub, Matrix.mulVec_smul, dotProduct_sub, sub_dotProduct, sub_dotProduct, smul_dotProduct,
      smul_dotProduct, dotProduct_smul, dotProduct_smul, hxx, hex, dopGram_symm looks x e, hex] at this
    simp only [smul_eq_mul] at this
    nlinarith
  set A := e ⬝ᵥ (dopGram looks *ᵥ e)
  set X := e ⬝ᵥ x
  have hA0 : 0 ≤ A := dopGram_nonneg looks e
  have hX0 : 0 ≤ X := by have := hp 0; linarith
  rcases eq_or_lt_of_le hA0 with h0 | h0
  · have := hp (X + 1)
    rw [← h0] at this
    linarith
  · have := hp (1 / A)
    have e1 : X - 2 * (1 / A) + (1 / A) ^ 2 * A = X - 1 / A := by field_simp; ring
    rw [e1] at this
    have : 1 / A ≤ X := by linarith
    rw [div_le_iff₀ h0] at this
    linarith

/-- C129: with `n` visible satellites no geometry gives a smaller dilution than this: 1 / √n for time and height, 2 / √n for
horizontal position, 3 / √n for position and √10 / √n for position and time. -/
theorem C129_best (looks : List Look) (hr : ∀ l ∈ looks, l.r ≠ 0) (minElevation : ℝ) (method : Method)
    (minCount : Nat) (d : ℝ) (hd : dopAt looks minElevation method minCount = some d) :
    let n : ℝ := (looks.filter fun l => minElevation * (Real.pi / 180) ≤ l.el).length
    (match method with
      | .gdop => 10
      | .pdop => 9
      | .hdop => 4
      | .vdop => 1
      | .tdop => 1) ≤ d ^ 2 * n := by
  obtain ⟨-, hdet, hv⟩ := dopAt_eq_some.mp hd
  have hvis : looks.filter (isVisible minElevation) = looks.filter fun l => minElevation * (Real.pi / 180) ≤ l.el := rfl
  rw [hvis] at hdet hv
  set visible := looks.filter fun l => minElevation * (Real.pi / 180) ≤ l.el with hvdef
  intro n
  have hr' : ∀ l ∈ visible, l.r ≠ 0 := fun l hl => hr l (List.mem_filter.mp hl).1
  obtain ⟨s1, s2⟩ := diag_sum hr'
  have m0 := diag_mul visible hdet 0
  have m1 := diag_mul visible hdet 1
  have m2 := diag_mul visible hdet 2
  have m3 := diag_mul visible hdet 3
  have p0 := inv_diag_nonneg visible hdet 0
  have p1 := inv_diag_nonneg visible hdet 1
  have p2 := inv_diag_nonneg visible hdet 2
  obtain ⟨-, h1⟩ := value_sq method (dopGram visible)⁻¹ (inv_diag_nonneg _ hdet)
  rw [hv] at h1
  rw [h1]
  change dopGram visible 0 0 + dopGram visible 1 1 + dopGram visible 2 2 = n at s1
  change dopGram visible 3 3 = n at s2
  have q : ∀ i, 0 ≤ dopGram visible i i := by
    intro i
    rw [dopGram_apply]
    exact List.sum_nonneg fun x hx => by obtain ⟨l, -, rfl⟩ := List.mem_map.mp hx; exact mul_self_nonneg _
  have q0 := q 0; have q1 := q 1; have q2 := q 2
  set a := dopGram visible 0 0
  set b := dopGram visible 1 1
  set c := dopGram visible 2 2
  set x := (dopGram visible)⁻¹ 0 0
  set y := (dopGram visible)⁻¹ 1 1
  set z := (dopGram visible)⁻¹ 2 2
  set w := (dopGram visible)⁻¹ 3 3
  rw [s2] at m3
  -- pairs
  have pair : ∀ {a b x y : ℝ}, 0 ≤ a → 0 ≤ b → 0 ≤ x → 0 ≤ y → 1 ≤ a * x → 1 ≤ b * y → 2 ≤ a * y + b * x := by
    intro a b x y ha hb hx hy h1 h2
    have h3 : 1 ≤ (a * y) * (b * x) := by nlinarith
    have hay := mul_nonneg ha hy
    have hbx := mul_nonneg hb hx
    nlinarith [sq_nonneg (a * y - b * x), sq_nonneg (a * y + b * x)]
  have pab := pair q0 q1 p0 p1 m0 m1
  have pac := pair q0 q2 p0 p2 m0 m2
  have pbc := pair q1 q2 p1 p2 m1 m2
  have hn : n = a + b + c := s1.symm
  cases method
  · have : ∑ j ∈ concerned .gdop, (dopGram visible)⁻¹ j j = x + y + z + w := by
      simp [concerned, Finset.sum_insert]; ring
    rw [this]
    have e : (x + y + z + w) * n = (x + y + z) * (a + b + c) + n * w := by rw [hn]; ring
    rw [e]; nlinarith
  · have : ∑ j ∈ concerned .pdop, (dopGram visible)⁻¹ j j = x + y + z := by
      simp [concerned, Finset.sum_insert]; ring
    rw [this, hn]; nlinarith
  · have : ∑ j ∈ concerned .hdop, (dopGram visible)⁻¹ j j = x + y := by
      simp [concerned, Finset.sum_insert]; rfl
    rw [this, hn]
    have : 0 ≤ (x + y) * c := by positivity
    nlinarith
  · have : ∑ j ∈ concerned .vdop, (dopGram visible)⁻¹ j j = z := by simp [concerned]; rfl
    rw [this, hn]
    have : 0 ≤ z * (a + b) := by positivity
    simp only
    nlinarith
  · have : ∑ j ∈ concerned .tdop, (dopGram visible)⁻¹ j j = w := by simp [concerned]; rfl
    rw [this]; simp only; linarith

/-- Four satellites for which there is a value (and which are as far away as satellites are). -/
example : (∀ l ∈ fourSatellites, l.r ≠ 0) ∧ ∃ d, dopAt fourSatellites 0 .gdop 3 = some d := by
  refine ⟨?_, Option.isSome_iff_exists.mp (C64_present_false.2 .gdop).2⟩
  intro l hl
  simp only [fourSatellites, List.mem_cons, List.not_mem_nil, or_false] at hl
  rcases hl with rfl | rfl | rfl | rfl <;> norm_num

end Tatc.Props
