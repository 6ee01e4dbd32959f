import Mathlib.Data.List.Basic
import Verif.Model.Py

/-! `mapM` in `Except`. -/

namespace Tatc

theorem mapM_ok {α β ε : Type} (f : α → Except ε β) (g : α → β) (l : List α)
    (h : ∀ a ∈ l, f a = .ok (g a)) : l.mapM f = .ok (l.map g) := by
  induction l with
  | nil => rfl
  | cons a t ih =>
    rw [List.mapM_cons, h a List.mem_cons_self, ih (fun b hb => h b (List.mem_cons_of_mem _ hb))]
    rfl

theorem mapM_error {α β ε : Type} (f : α → Except ε β) (l : List α) (e : ε)
    (hall : ∀ a ∈ l, (∃ b, f a = .ok b) ∨ f a = .error e) (hex : ∃ a ∈ l, f a = .error e) :
    l.mapM f = .error e := by
  induction l with
  | nil => simp at hex
  | cons a t ih =>
    rw [List.mapM_cons]
    rcases hall a List.mem_cons_self with ⟨b, hb⟩ | hb
    · rw [hb]
      obtain ⟨c, hc, hce⟩ := hex
      rcases List.mem_cons.mp hc with rfl | hc
      · rw [hb] at hce; cases hce
      · have e := ih (fun x hx => hall x (List.mem_cons_of_mem _ hx)) ⟨c, hc, hce⟩
        show (t.mapM f >>= fun rs => (pure (b :: rs) : Except ε (List β))) = _
        rw [e]
        rfl
    · rw [hb]; rfl

theorem mapM_eq_ok {α β ε : Type} (f : α → Except ε β) (l : List α) (bs : List β)
    (h : l.mapM f = .ok bs) : List.Forall₂ (fun a b => f a = .ok b) l bs := by
  induction l generalizing bs with
  | nil =>
    rw [List.mapM_nil] at h
    cases h
    exact List.Forall₂.nil
  | cons a t ih =>
    rw [List.mapM_cons] at h
    cases hf : f a with
    | error e => rw [hf] at h; cases h
    | ok b =>
      rw [hf] at h
      cases ht : t.mapM f with
      | error e => rw [ht] at h; cases h
      | ok bs' =>
        rw [ht] at h
        cases h
        exact List.Forall₂.cons hf (ih bs' ht)

theorem bind_eq_ok {α β ε : Type} (a : Except ε α) (f : α → Except ε β) (b : β) :
    (a >>= f) = .ok b ↔ ∃ x, a = .ok x ∧ f x = .ok b := by
  cases a with
  | error e =>
    constructor
    · intro h; cases h
    · rintro ⟨x, h, _⟩; cases h
  | ok x =>
    constructor
    · intro h; exact ⟨x, rfl, h⟩
    · rintro ⟨y, h, h'⟩; cases h; exact h'

theorem require_eq_ok (p : Prop) [Decidable p] (e : PyErr) (u : Unit) :
    require p e = .ok u ↔ p := by
  unfold require
  split_ifs with h
  · exact ⟨fun _ => h, fun _ => rfl⟩
  · constructor
    · intro h'; cases h'
    · intro h'; exact absurd h' h

end Tatc
