import Verif.Model.Instrument
import Verif.Spec.Ray
import Mathlib.Tactic.Linarith
import Mathlib.Tactic.FieldSimp
import Mathlib.Tactic.Ring
import Mathlib.Tactic.NormNum
import Mathlib.Tactic.Positivity

/-! C65 and C66: validity of observations and the pixels of a detector. -/

namespace Tatc.Props
open Tatc.Instruments Tatc.Num Tatc.Spec
open scoped Classical

/-! ## C65 -/

theorem applyRequirement_length (req : Option Bool) (states isValid : List Bool) (h : states.length = isValid.length) :
    (applyRequirement req states isValid).length = isValid.length := by
  cases req with
  | none => rfl
  | some r => simp [applyRequirement, h]

theorem applyRequirement_get (req : Option Bool) (states isValid : List Bool) (h : states.length = isValid.length)
    (i : Nat) (hi : i < isValid.length) :
    (applyRequirement req states isValid)[i]? = some true ↔ isValid[i] = true ∧ Meets req (states[i]'(h ▸ hi)) := by
  cases req with
  | none => simp [applyRequirement, Meets, hi]
  | some r =>
    simp [applyRequirement, Meets, hi, h]

/-- **C65**, one time: the observation is valid exactly when the satellite's illumination meets its requirement and the
Sun's being above the target's horizon meets the target's. -/
theorem C65_scalar {P : Type} (reqSelf reqTarget : Option Bool) (sunlit : Bool) (subpoint : P) (altitude : P → ℝ)
    (target : Option P) :
    ∃ valid, validObservation reqSelf reqTarget (.scalar sunlit) subpoint (fun p => .scalar (altitude p)) target =
        .ok (.scalar valid) ∧
      (valid = true ↔ Meets reqSelf sunlit ∧ Meets reqTarget (decide (0 < altitude (target.getD subpoint)))) := by
  cases reqSelf <;> cases reqTarget <;> simp [validObservation, PerTime.toList, applyRequirement, Meets]

/-- **C65**, two or more times: there is one verdict per time and each is the verdict of its own time. -/
theorem C65_vector {P : Type} (reqSelf reqTarget : Option Bool) (sunlit : List Bool) (subpoint : P)
    (altitude : P → List ℝ) (target : Option P) (h2 : 2 ≤ sunlit.length)
    (hl : ∀ p, (altitude p).length = sunlit.length) :
    ∃ valid, validObservation reqSelf reqTarget (.vector sunlit) subpoint (fun p => .vector (altitude p)) target =
        .ok (.vector valid) ∧ valid.length = sunlit.length ∧
      ∀ i (hi : i < sunlit.length), valid[i]? = some true ↔
        Meets reqSelf sunlit[i] ∧
          Meets reqTarget (decide (0 < (altitude (target.getD subpoint))[i]'((hl _).symm ▸ hi))) := by
  set p := target.getD subpoint with hp
  have l0 : sunlit.length = (List.replicate sunlit.length true).length := by simp
  have l1 := applyRequirement_length reqSelf sunlit _ l0
  have l2 : ((altitude p).map fun a => decide (a > 0)).length =
      (applyRequirement reqSelf sunlit (List.replicate sunlit.length true)).length := by
    rw [l1]; simp [hl]
  refine ⟨applyRequirement reqTarget ((altitude p).map fun a => decide (a > 0))
    (applyRequirement reqSelf sunlit (List.replicate sunlit.length true)), ?_, ?_, ?_⟩
  · simp only [validObservation, PerTime.toList, ← hp]
    rw [if_pos (by omega)]
  · rw [applyRequirement_length _ _ _ l2, l1]; simp
  · intro i hi
    have hi1 : i < (applyRequirement reqSelf sunlit (List.replicate sunlit.length true)).length := by
      rw [l1]; simpa using hi
    rw [applyRequirement_get _ _ _ l2 i hi1]
    have h1 := applyRequirement_get reqSelf sunlit _ l0 i (by simpa using hi)
    rw [List.getElem?_eq_getElem hi1, Option.some_inj] at h1
    rw [h1]
    simp

/-- Two requirements, three times: neither hypothesis is vacuous. -/
example : 2 ≤ [true, false, true].length ∧ ∀ _ : Unit, [1, -1, (2 : ℝ)].length = [true, false, true].length := by simp

/-- **C65** fails for short arrays: with an array of one time the result is not an array, and with an empty array there
is no result. -/
theorem C65_short_false {P : Type} (reqSelf reqTarget : Option Bool) (subpoint : P) (target : Option P) :
    validObservation reqSelf reqTarget (.vector []) subpoint (fun _ => .vector []) target = .error .indexError ∧
    ∀ (lit : Bool) (altitude : P → ℝ), ∃ valid,
      validObservation reqSelf reqTarget (.vector [lit]) subpoint (fun p => .vector [altitude p]) target =
        .ok (.scalar valid) := by
  constructor
  · cases reqSelf <;> cases reqTarget <;> simp [validObservation, PerTime.toList, applyRequirement]
  · intro lit altitude
    cases reqSelf <;> cases reqTarget <;> simp [validObservation, PerTime.toList, applyRequirement]

/-! ## C66 -/

/-- **C66**: the array of one time has one entry for every pair of indices, along-track index running fastest. -/
theorem C66_array {Geo : Type} (g : Globe Geo) (p : Pointed) (s : State) (elevation : ℝ) :
    (p.pixelArray g s elevation).length = p.crossPixels * p.alongPixels ∧
    ∀ i j, i < p.crossPixels → j < p.alongPixels →
      (p.pixelArray g s elevation)[i * p.alongPixels + j]? = some (p.pixel g s elevation i j) := by
  have key : ∀ (f : Nat → Nat → Geo) (n m : Nat),
      ((List.range n).flatMap fun i => (List.range m).map fun j => f i j).length = n * m ∧
      ∀ i j, i < n → j < m →
        ((List.range n).flatMap fun i => (List.range m).map fun j => f i j)[i * m + j]? = some (f i j) := by
    intro f n m
    induction n with
    | zero => simp
    | succ n ih =>
      rw [List.range_succ, List.flatMap_append]
      constructor
      · rw [List.length_append, ih.1]; simp; ring
      · intro i j hi hj
        rcases Nat.lt_succ_iff_lt_or_eq.mp hi with h | rfl
        · rw [List.getElem?_append_left, ih.2 i j h hj]
          rw [ih.1]
          calc i * m + j < i * m + m := by omega
            _ = (i + 1) * m := by ring
            _ ≤ n * m := Nat.mul_le_mul_right m h
        · rw [List.getElem?_append_right (by rw [ih.1]; omega), ih.1]
          simp [hj]
  exact key _ _ _

/-- **C66**: for an array of two or more times there is one such array for every time. -/
theorem C66_times {Geo : Type} (g : Globe Geo) (p : Pointed) (ss : List State) (elevation : ℝ) (h : 2 ≤ ss.length) :
    ∃ l, p.pixelArrays g (.vector ss) elevation = .ok (.vector l) ∧ l.length = ss.length ∧
      ∀ (i : Nat) s, ss[i]? = some s → l[i]? = some (p.pixelArray g s elevation) := by
  refine ⟨ss.map fun s => p.pixelArray g s elevation, ?_, by simp, ?_⟩
  · exact if_pos (show (PerTime.vector ss).toList.length > 1 from h)
  · intro i s hs
    simp [hs]

/-- **C66**: for one time there is one array. -/
theorem C66_time {Geo : Type} (g : Globe Geo) (p : Pointed) (s : State) (elevation : ℝ) :
    p.pixelArrays g (.scalar s) elevation = .ok (.scalar (p.pixelArray g s elevation)) := by
  simp [Pointed.pixelArrays, PerTime.toList]

/-- An instrument with 5 by 4 pixels. -/
noncomputable def someDetector (o : ℝ) : Pointed :=
  { crossFov := 20, alongFov := 10, roll := 0, pitch := 0, rectangular := true, crossPixels := 5, alongPixels := 4,
    crossOver := o, alongOver := o }

theorem someDetector_valid {o : ℝ} (h : 0 ≤ o) (h1 : o < 1) : (someDetector o).Valid := by
  constructor <;> simp [someDetector, h, h1] <;> norm_num

example : (someDetector 0.2).Valid := someDetector_valid (by norm_num) (by norm_num)

theorem crossPixels_pos {p : Pointed} (h : p.Valid) : (0 : ℝ) < p.crossPixels := by
  have := h.crossPixels; exact_mod_cast this
theorem alongPixels_pos {p : Pointed} (h : p.Valid) : (0 : ℝ) < p.alongPixels := by
  have := h.alongPixels; exact_mod_cast this

/-- **C66**: offsets are symmetric about the boresight. -/
theorem C66_symmetric (p : Pointed) (h : p.Valid) :
    (∀ i, i < p.crossPixels → p.crossOffset (p.crossPixels - 1 - i) = -p.crossOffset i) ∧
    ∀ j, j < p.alongPixels → p.alongOffset (p.alongPixels - 1 - j) = -p.alongOffset j := by
  have hN := crossPixels_pos h
  have hM := alongPixels_pos h
  constructor
  · intro i hi
    have : ((p.crossPixels - 1 - i : ℕ) : ℝ) = p.crossPixels - 1 - i := by
      rw [Nat.sub_sub, Nat.cast_sub (by omega)]; push_cast; ring
    unfold Pointed.crossOffset
    rw [this]; field_simp; ring
  · intro j hj
    have : ((p.alongPixels - 1 - j : ℕ) : ℝ) = p.alongPixels - 1 - j := by
      rw [Nat.sub_sub, Nat.cast_sub (by omega)]; push_cast; ring
    unfold Pointed.alongOffset
    rw [this]; field_simp; ring

/-- **C66**: offsets are equally spaced.  The spacing is the share of the field of view of one pixel reduced by the
overlap; cross-track offsets increase and along-track offsets decrease with the index. -/
theorem C66_spacing (p : Pointed) (h : p.Valid) :
    (∀ i, p.crossOffset (i + 1) - p.crossOffset i = (1 - p.crossOver) * (p.crossFov / p.crossPixels)) ∧
    ∀ j, p.alongOffset j - p.alongOffset (j + 1) = (1 - p.alongOver) * (p.alongFov / p.alongPixels) := by
  have hN := crossPixels_pos h
  have hM := alongPixels_pos h
  constructor
  · intro i
    unfold Pointed.crossOffset
    push_cast; field_simp; ring
  · intro j
    unfold Pointed.alongOffset
    push_cast; field_simp; ring

theorem offset_inside {f n o x : ℝ} (hf : 0 < f) (hn : 0 < n) (ho : 0 ≤ o) (ho1 : o < 1) (hx0 : 0 ≤ x) (hx : x ≤ n - 1) :
    |(0.5 + x - n / 2) * (1 - o) * f / n| < f / 2 := by
  have h1 : |0.5 + x - n / 2| < n / 2 := by
    rw [abs_lt]; constructor <;> linarith
  rw [abs_div, abs_mul, abs_mul, abs_of_pos hn, abs_of_pos hf, abs_of_pos (by linarith : (0 : ℝ) < 1 - o), div_lt_iff₀ hn]
  have h2 : |0.5 + x - n / 2| * (1 - o) < n / 2 := by
    calc _ ≤ |0.5 + x - n / 2| * 1 := mul_le_mul_of_nonneg_left (by linarith) (abs_nonneg _)
      _ < n / 2 := by linarith
  calc _ < n / 2 * f := mul_lt_mul_of_pos_right h2 hf
    _ = f / 2 * n := by ring

/-- **C66**: the centre of every pixel is inside the field of view. -/
theorem C66_centres (p : Pointed) (h : p.Valid) :
    (∀ i, i < p.crossPixels → |p.crossOffset i| < p.crossFov / 2) ∧
    ∀ j, j < p.alongPixels → |p.alongOffset j| < p.alongFov / 2 := by
  constructor
  · intro i hi
    have : (i : ℝ) ≤ p.crossPixels - 1 := by
      have : ((i + 1 : ℕ) : ℝ) ≤ p.crossPixels := by exact_mod_cast hi
      push_cast at this; linarith
    exact offset_inside h.crossFov.1 (crossPixels_pos h) h.crossOver.1 h.crossOver.2 (by positivity) this
  · intro j hj
    have : (j : ℝ) ≤ p.alongPixels - 1 := by
      have : ((j + 1 : ℕ) : ℝ) ≤ p.alongPixels := by exact_mod_cast hj
      push_cast at this; linarith
    have := offset_inside h.alongFov.1 (alongPixels_pos h) h.alongOver.1 h.alongOver.2 (Nat.cast_nonneg j) this
    rw [← abs_neg] at this
    convert this using 2
    unfold Pointed.alongOffset
    ring

/-- **C66**: without overlap the pixels tile the field of view: the first begins where it begins, the last ends where it
ends, each begins where the one before it ends. -/
theorem C66_tile_partial (p : Pointed) (h : p.Valid) (ho : p.crossOver = 0) :
    p.crossOffset 0 - p.crossIfov / 2 = -p.crossFov / 2 ∧
    p.crossOffset (p.crossPixels - 1) + p.crossIfov / 2 = p.crossFov / 2 ∧
    ∀ i, p.crossOffset i + p.crossIfov / 2 = p.crossOffset (i + 1) - p.crossIfov / 2 := by
  have hN := crossPixels_pos h
  have hl : ((p.crossPixels - 1 : ℕ) : ℝ) = p.crossPixels - 1 := by
    rw [Nat.cast_sub h.crossPixels]; simp
  unfold Pointed.crossOffset Pointed.crossIfov
  rw [hl, ho]
  refine ⟨?_, ?_, ?_⟩
  · push_cast; field_simp; ring
  · field_simp; ring
  · intro i; push_cast; field_simp; ring

example : (someDetector 0).Valid ∧ (someDetector 0).crossOver = 0 :=
  ⟨someDetector_valid le_rfl (by norm_num), rfl⟩

/-- **C66** fails for the overlap: the part of a pixel that the next one covers too is `1 - (1 - o)²`, which is the
requested fraction `o` only when that is zero. -/
theorem C66_overlap_false (p : Pointed) (h : p.Valid) :
    (∀ i, ((p.crossOffset i + p.crossIfov / 2) - (p.crossOffset (i + 1) - p.crossIfov / 2)) / p.crossIfov =
      1 - (1 - p.crossOver) ^ 2) ∧
    (1 - (1 - p.crossOver) ^ 2 = p.crossOver ↔ p.crossOver = 0) := by
  have hN := crossPixels_pos h
  have hF := h.crossFov.1
  have ho : 0 < 1 - p.crossOver := by linarith [h.crossOver.2]
  constructor
  · intro i
    have hs := (C66_spacing p h).1 i
    have hI : p.crossIfov ≠ 0 := by unfold Pointed.crossIfov; positivity
    have : p.crossIfov = p.crossFov / p.crossPixels / (1 - p.crossOver) := rfl
    rw [div_eq_iff hI]
    have e : (1 - p.crossOver) * (p.crossFov / p.crossPixels) = (1 - p.crossOver) ^ 2 * p.crossIfov := by
      rw [this]; field_simp
    linarith
  · constructor
    · intro e
      have : p.crossOver * (1 - p.crossOver) = 0 := by nlinarith
      rcases mul_eq_zero.mp this with h0 | h0
      · exact h0
      · linarith
    · intro e; rw [e]; ring

/-- **C66** for whole pixels: the outermost pixels stay inside the field of view exactly when there is no overlap or
there are enough pixels for it. -/
theorem C66_edges (p : Pointed) (h : p.Valid) :
    (p.crossOffset (p.crossPixels - 1) + p.crossIfov / 2 ≤ p.crossFov / 2) ↔
      p.crossOver = 0 ∨ 1 ≤ (p.crossPixels - 1 : ℝ) * (1 - p.crossOver) := by
  have hN := crossPixels_pos h
  have hF := h.crossFov.1
  have ho : 0 < 1 - p.crossOver := by linarith [h.crossOver.2]
  have hl : ((p.crossPixels - 1 : ℕ) : ℝ) = p.crossPixels - 1 := by
    rw [Nat.cast_sub h.crossPixels]; simp
  unfold Pointed.crossOffset Pointed.crossIfov
  rw [hl]
  set N : ℝ := (p.crossPixels : ℝ)
  set o := p.crossOver
  set F := p.crossFov
  have e : F / 2 - ((0.5 + (N - 1) - N / 2) * (1 - o) * F / N + F / N / (1 - o) / 2) =
      F / (2 * N * (1 - o)) * (o * ((N - 1) * (1 - o) - 1)) := by
    field_simp; ring
  have hp : 0 < F / (2 * N * (1 - o)) := by positivity
  rw [← sub_nonneg, e, mul_nonneg_iff_of_pos_left hp]
  constructor
  · intro hh
    rcases eq_or_lt_of_le h.crossOver.1 with h0 | h0
    · exact Or.inl h0.symm
    · right
      have := (mul_nonneg_iff_of_pos_left h0).mp hh
      linarith
  · rintro (h0 | h0)
    · rw [h0]; simp
    · exact mul_nonneg h.crossOver.1 (by linarith)

/-- **C66** fails for whole pixels: one pixel with any overlap reaches out of the field of view. -/
theorem C66_edges_false (p : Pointed) (h : p.Valid) (h1 : p.crossPixels = 1) (ho : 0 < p.crossOver) :
    p.crossFov / 2 < p.crossOffset 0 + p.crossIfov / 2 := by
  have := (not_congr (C66_edges p h)).mpr (by
    rw [h1]; push Not; exact ⟨ho.ne', by norm_num⟩)
  rw [h1] at this
  push Not at this
  exact this

example : ∃ p : Pointed, p.Valid ∧ p.crossPixels = 1 ∧ 0 < p.crossOver :=
  ⟨{ someDetector 0.5 with crossPixels := 1 }, by constructor <;> simp [someDetector] <;> norm_num, rfl, by
    norm_num [someDetector]⟩

/-- The same instrument with its two directions exchanged. -/
def Pointed.exchange (p : Pointed) : Pointed :=
  { p with crossFov := p.alongFov, alongFov := p.crossFov, crossPixels := p.alongPixels, alongPixels := p.crossPixels,
           crossOver := p.alongOver, alongOver := p.crossOver }

theorem exchange_valid {p : Pointed} (h : p.Valid) : (Pointed.exchange p).Valid :=
  ⟨h.alongFov, h.crossFov, h.roll, h.pitch, h.alongPixels, h.crossPixels, h.alongOver, h.crossOver⟩

theorem alongOffset_exchange (p : Pointed) (j : Nat) : p.alongOffset j = -(Pointed.exchange p).crossOffset j := by
  simp only [Pointed.alongOffset, Pointed.crossOffset, Pointed.exchange]; ring

/-- **C66** for the along-track direction: without overlap the pixels tile the field of view from fore to aft. -/
theorem C66_along_tile_partial (p : Pointed) (h : p.Valid) (ho : p.alongOver = 0) :
    p.alongOffset 0 + p.alongIfov / 2 = p.alongFov / 2 ∧
    p.alongOffset (p.alongPixels - 1) - p.alongIfov / 2 = -p.alongFov / 2 ∧
    ∀ j, p.alongOffset j - p.alongIfov / 2 = p.alongOffset (j + 1) + p.alongIfov / 2 := by
  obtain ⟨h1, h2, h3⟩ := C66_tile_partial (Pointed.exchange p) (exchange_valid h) ho
  have e : (Pointed.exchange p).crossIfov = p.alongIfov := rfl
  have f : (Pointed.exchange p).crossFov = p.alongFov := rfl
  have n : (Pointed.exchange p).crossPixels = p.alongPixels := rfl
  rw [e, f] at h1
  rw [e, f, n] at h2
  rw [e] at h3
  simp only [alongOffset_exchange]
  refine ⟨by linarith, by linarith, fun j => by linarith [h3 j]⟩

/-- **C66** fails for the overlap of the along-track direction in the same way. -/
theorem C66_along_overlap_false (p : Pointed) (h : p.Valid) :
    (∀ j, ((p.alongOffset (j + 1) + p.alongIfov / 2) - (p.alongOffset j - p.alongIfov / 2)) / p.alongIfov =
      1 - (1 - p.alongOver) ^ 2) ∧
    (1 - (1 - p.alongOver) ^ 2 = p.alongOver ↔ p.alongOver = 0) := by
  obtain ⟨h1, h2⟩ := C66_overlap_false (Pointed.exchange p) (exchange_valid h)
  refine ⟨fun j => ?_, h2⟩
  have := h1 j
  have e : (Pointed.exchange p).crossIfov = p.alongIfov := rfl
  rw [e] at this
  simp only [alongOffset_exchange]
  rw [show (1 - p.alongOver) = 1 - (Pointed.exchange p).crossOver from rfl, ← this]
  congr 1; ring

/-- **C66**: cone and clock angle are the polar coordinates of the offsets. -/
theorem C66_cone_clock (p : Pointed) (i j : Nat) :
    0 ≤ (p.coneClock i j).1 ∧
    (p.coneClock i j).1 * Real.cos (p.coneClock i j).2 = p.crossOffset i ∧
    (p.coneClock i j).1 * Real.sin (p.coneClock i j).2 = p.alongOffset j := by
  have hn : Real.sqrt (p.crossOffset i ^ 2 + p.alongOffset j ^ 2) = ‖(⟨p.crossOffset i, p.alongOffset j⟩ : ℂ)‖ := by
    rw [Complex.norm_def, Complex.normSq_mk]; ring_nf
  refine ⟨Real.sqrt_nonneg _, ?_, ?_⟩
  · simp only [Pointed.coneClock, arctan2]
    rw [hn, Complex.norm_mul_cos_arg]
  · simp only [Pointed.coneClock, arctan2]
    rw [hn, Complex.norm_mul_sin_arg]

end Tatc.Props
