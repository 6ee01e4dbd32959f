import Verif.Model.Constellation
import Verif.Lemmas.Text
import Verif.Lemmas.ExceptList

/-!
# C27: names of members
-/

namespace Tatc.Props
open Tatc.Text Tatc.Constellation

/-- Comparison of texts character by character, as Python compares strings. -/
def Before (a b : List Char) : Prop := List.Lex (· < ·) a b

theorem digitsVal_lt {l : List Char} (h : ∀ c ∈ l, '0' ≤ c ∧ c ≤ '9') : digitsVal l < 10 ^ l.length := by
  induction l using List.reverseRecOn with
  | nil => simp [digitsVal]
  | append_singleton l c ih =>
    have h1 := ih (fun x hx => h x (by simp [hx]))
    have h2 : c.toNat ≤ '9'.toNat := (h c (by simp)).2
    have h3 : digitVal c ≤ 9 := by unfold digitVal; simp at h2; omega
    rw [digitsVal_append]
    simp only [List.length_append, List.length_singleton, pow_succ, digitsVal, List.foldl] at *
    omega

theorem digitsVal_cons (c : Char) (l : List Char) :
    digitsVal (c :: l) = digitVal c * 10 ^ l.length + digitsVal l := by
  have := digitsVal_append [c] l
  simpa [digitsVal] using this

/-- Numerals of one length are ordered as their values. -/
theorem before_of_val (a b : List Char) (hl : a.length = b.length)
    (ha : ∀ c ∈ a, '0' ≤ c ∧ c ≤ '9') (hb : ∀ c ∈ b, '0' ≤ c ∧ c ≤ '9')
    (h : digitsVal a < digitsVal b) : Before a b := by
  induction a generalizing b with
  | nil =>
    have : b = [] := by rw [← List.length_eq_zero_iff, ← hl]; rfl
    subst this; exact absurd h (lt_irrefl _)
  | cons c a ih =>
    cases b with
    | nil => simp at hl
    | cons d b =>
      have hl' : a.length = b.length := by simpa using hl
      have ha' : ∀ x ∈ a, '0' ≤ x ∧ x ≤ '9' := fun x hx => ha x (by simp [hx])
      have hb' : ∀ x ∈ b, '0' ≤ x ∧ x ≤ '9' := fun x hx => hb x (by simp [hx])
      rw [digitsVal_cons, digitsVal_cons, hl'] at h
      by_cases hcd : c = d
      · subst hcd
        exact List.Lex.cons (ih b hl' ha' hb' (by omega))
      · apply List.Lex.rel
        have hva := digitsVal_lt ha'
        have hvb := digitsVal_lt hb'
        rw [hl'] at hva
        have hc : '0'.toNat ≤ c.toNat := (ha c (by simp)).1
        have hd : '0'.toNat ≤ d.toNat := (hb d (by simp)).1
        have hle : digitVal c ≤ digitVal d := by
          by_contra hlt
          have : (digitVal d + 1) * 10 ^ b.length ≤ digitVal c * 10 ^ b.length :=
            Nat.mul_le_mul_right _ (by omega)
          rw [Nat.add_mul] at this
          omega
        have hne : c.toNat ≠ d.toNat := fun e => hcd (Char.ext (UInt32.toNat_inj.mp e))
        have : c.toNat < d.toNat := by
          have h48 : '0'.toNat = 48 := rfl
          unfold digitVal at hle
          omega
        exact this

theorem zfill_length (w n : Nat) (h : n < 10 ^ w) (hw : 0 < w) : (zfill w (dec n)).length = w := by
  have := dec_length_le w n hw h
  simp only [zfill, List.length_append, List.length_replicate]; omega

theorem zfill_digits (w n : Nat) : ∀ c ∈ zfill w (dec n), '0' ≤ c ∧ c ≤ '9' := by
  intro c hc
  rcases List.mem_append.mp hc with hc | hc
  · rw [List.eq_of_mem_replicate hc]; decide
  · exact dec_digits n c hc

theorem zfill_val (w n : Nat) : digitsVal (zfill w (dec n)) = n := by
  rw [zfill, digitsVal_append, digitsVal_zeros, digitsVal_dec]; simp

theorem before_append (p a b : List Char) (h : Before a b) : Before (p ++ a) (p ++ b) := by
  induction p with
  | nil => exact h
  | cons c p ih => exact List.Lex.cons ih

theorem zeroPad_before (name : List Char) (n i j : Nat) (hij : i < j) (hj : j ≤ n) :
    Before (zeroPad name n i) (zeroPad name n j) := by
  have hn := dec_length_lower n
  have hw : 0 < (dec n).length := List.length_pos_iff.mpr (dec_ne_nil n)
  unfold zeroPad
  apply before_append
  apply before_of_val
  · rw [zfill_length _ _ (by omega) hw, zfill_length _ _ (by omega) hw]
  · exact zfill_digits _ _
  · exact zfill_digits _ _
  · rw [zfill_val, zfill_val]; exact hij

theorem before_irrefl (a : List Char) : ¬ Before a a := by
  intro h
  induction a with
  | nil => cases h
  | cons c a ih =>
    cases h with
    | cons h => exact ih h
    | rel h => exact absurd (show c.toNat < c.toNat from h) (Nat.lt_irrefl _)

theorem names_sorted (name : List Char) (n : Nat) :
    ((List.range n).map fun i => zeroPad name n (i + 1)).Pairwise Before := by
  rw [List.pairwise_map]
  refine List.Pairwise.imp_of_mem ?_ (List.pairwise_lt_range (n := n))
  intro i j _ hj hij
  exact zeroPad_before name n (i + 1) (j + 1) (by omega) (by have := List.mem_range.mp hj; omega)

/-- The names of generated members. -/
theorem walker_names {I : Type} (sun : Int → ℝ) (w : Walker I) (ms : List (Satellite I))
    (h : w.members sun = .ok ms) :
    ms.map (·.name) = (List.range w.satellites).map fun i => zeroPad w.name w.satellites (i + 1) := by
  have hf := mapM_eq_ok _ _ _ h
  clear h
  generalize List.range w.satellites = l at hf
  induction hf with
  | nil => rfl
  | cons h _ ih =>
    simp only [bind_eq_ok] at h
    obtain ⟨o, _, ho⟩ := h
    simp only [pure, Except.pure, Except.ok.injEq] at ho
    rw [List.map_cons, List.map_cons, ih, ← ho]

theorem train_names {I : Type} (sun : Int → ℝ) (t : Train I) (ms : List (Satellite I))
    (h : t.members sun = .ok ms) :
    ms.map (·.name) = (List.range t.satellites).map fun i => zeroPad t.name t.satellites (i + 1) := by
  have hf := mapM_eq_ok _ _ _ h
  clear h
  generalize List.range t.satellites = l at hf
  induction hf with
  | nil => rfl
  | cons h _ ih =>
    simp only [bind_eq_ok] at h
    obtain ⟨d, _, o, _, ho⟩ := h
    simp only [pure, Except.pure, Except.ok.injEq] at ho
    rw [List.map_cons, List.map_cons, ih, ← ho]

/-- Names in strict order are distinct. -/
theorem nodup_of_sorted {l : List (List Char)} (h : l.Pairwise Before) : l.Nodup :=
  List.Pairwise.imp (fun hab e => by subst e; exact before_irrefl _ hab) h

/-- C27 for Walker constellations: in member order the names are strictly increasing, so they are
distinct. -/
theorem C27_walker_names {I : Type} (sun : Int → ℝ) (w : Walker I) (ms : List (Satellite I))
    (h : w.members sun = .ok ms) :
    (ms.map (·.name)).Pairwise Before ∧ (ms.map (·.name)).Nodup ∧
      ∀ m ∈ ms, ∃ number, m.name = w.name ++ [' '] ++ number ∧ number.length = (dec w.satellites).length := by
  have hs : (ms.map (·.name)).Pairwise Before := by
    rw [walker_names sun w ms h]; exact names_sorted _ _
  refine ⟨hs, nodup_of_sorted hs, ?_⟩
  intro m hm
  have : m.name ∈ ms.map (·.name) := List.mem_map_of_mem hm
  rw [walker_names sun w ms h] at this
  obtain ⟨i, hi, e⟩ := List.mem_map.mp this
  have hn := dec_length_lower w.satellites
  have hi' := List.mem_range.mp hi
  exact ⟨_, e.symm, zfill_length _ _ (by omega) (List.length_pos_iff.mpr (dec_ne_nil _))⟩

/-- C27 for trains. -/
theorem C27_train_names {I : Type} (sun : Int → ℝ) (t : Train I) (ms : List (Satellite I))
    (h : t.members sun = .ok ms) :
    (ms.map (·.name)).Pairwise Before ∧ (ms.map (·.name)).Nodup ∧
      ∀ m ∈ ms, ∃ number, m.name = t.name ++ [' '] ++ number ∧ number.length = (dec t.satellites).length := by
  have hs : (ms.map (·.name)).Pairwise Before := by
    rw [train_names sun t ms h]; exact names_sorted _ _
  refine ⟨hs, nodup_of_sorted hs, ?_⟩
  intro m hm
  have : m.name ∈ ms.map (·.name) := List.mem_map_of_mem hm
  rw [train_names sun t ms h] at this
  obtain ⟨i, hi, e⟩ := List.mem_map.mp this
  have hn := dec_length_lower t.satellites
  have hi' := List.mem_range.mp hi
  exact ⟨_, e.symm, zfill_length _ _ (by omega) (List.length_pos_iff.mpr (dec_ne_nil _))⟩

/-- The names around a power of ten. -/
example : zeroPad "Sat".toList 10 9 = "Sat 09".toList ∧ zeroPad "Sat".toList 10 10 = "Sat 10".toList := by
  decide +kernel

end Tatc.Props
