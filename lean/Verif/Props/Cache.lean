import Verif.Model.Cache
import Mathlib.Tactic.SplitIfs

/-!
# C22, C23: histories of calls on one object
-/

namespace Tatc.Props
open Tatc.Cache

/-- The answers of a history on an object whose conversions are never cached: each call answers
for the fields at that moment. -/
def expected {F T : Type} (convert : F → T) : F → List (Op F) → List (Option T)
  | _, [] => []
  | f, .call _ :: ops => some (convert f) :: expected convert f ops
  | _, .assign g :: ops => none :: expected convert g ops

/-- The history assigns no field. -/
def NoAssign {F : Type} (ops : List (Op F)) : Prop := ∀ f, Op.assign f ∉ ops

/-- No call of the history loads lazily. -/
def NoLazy {F : Type} (ops : List (Op F)) : Prop := Op.call true ∉ ops

theorem run_noAssign {F T : Type} (convert : F → T) (ops : List (Op F)) (s : Object F T)
    (hs : s.cache = none ∨ s.cache = some (convert s.fields)) (hna : NoAssign ops) :
    (run convert s ops).1 = expected convert s.fields ops := by
  induction ops generalizing s with
  | nil => rfl
  | cons op ops ih =>
    have hna' : NoAssign ops := fun f h => hna f (List.mem_cons_of_mem _ h)
    cases op with
    | assign f => exact absurd List.mem_cons_self (hna f)
    | call lazy =>
      simp only [run, step, expected, toTle]
      cases lazy with
      | false =>
        simp only [Bool.false_eq_true, if_false]
        rw [ih _ (Or.inr rfl) hna']
      | true =>
        simp only [if_true]
        rcases hs with h | h
        · simp only [h]
          rw [ih _ (Or.inr rfl) hna']
        · simp only [h]
          rw [ih _ (Or.inr h) hna']

/-- **C22, unmodified object.** Any history of calls, lazy or not, gives at each call what a fresh
object would answer. -/
theorem C22_cached_partial {F T : Type} (convert : F → T) (f : F) (ops : List (Op F))
    (hna : NoAssign ops) : (run convert (fresh f) ops).1 = expected convert f ops :=
  run_noAssign convert ops (fresh f) (Or.inl rfl) hna

/-- **C22, not loading lazily** (`lazy_load=False`): right for any history, with assignments. -/
theorem C22_not_lazy_partial {F T : Type} (convert : F → T) (s : Object F T) (ops : List (Op F))
    (hnl : NoLazy ops) : (run convert s ops).1 = expected convert s.fields ops := by
  induction ops generalizing s with
  | nil => rfl
  | cons op ops ih =>
    have hnl' : NoLazy ops := fun h => hnl (List.mem_cons_of_mem _ h)
    cases op with
    | assign f =>
      simp only [run, step, expected]
      rw [ih _ hnl']
    | call lazy =>
      cases lazy with
      | true => exact absurd List.mem_cons_self hnl
      | false =>
        simp only [run, step, expected, toTle, Bool.false_eq_true, if_false]
        rw [ih _ hnl']

/-- **C22 is false with assignments**: for any two field values that convert differently, convert,
assign, convert answers the second time with the conversion of the old value. -/
theorem C22_assignment_false {F T : Type} (convert : F → T) (f g : F) (h : convert f ≠ convert g) :
    ¬ ∀ ops : List (Op F), (run convert (fresh f) ops).1 = expected convert f ops := by
  intro hall
  have := hall [.call true, .assign g, .call true]
  simp [run, step, toTle, expected, fresh] at this
  exact h this

/-- The hypotheses are met by a history with lazy and other calls, and by two altitudes. -/
example : NoAssign (F := Int) [.call true, .call false, .call true] := by
  intro f h; simp at h

example : (run (fun altitude : Int => altitude + 6371000) (fresh 400000)
    [.call true, .assign 500000, .call true, .call false]).1 =
    [some 6771000, none, some 6771000, some 6871000] := by decide

/-- **C23** (partial): queries that do not load lazily are answered for their own arguments, and
so is every query when all queries on the object have the same arguments. -/
theorem C23_repeat_cycle_partial {A : Type} (search : A → Option Int)
    (hpos : ∀ a v, search a = some v → 0 < v) :
    (∀ (stored : Option Int) (qs : List (A × Bool)), (∀ q ∈ qs, q.2 = false) →
      runCycle search stored qs = qs.map fun q => search q.1) ∧
    (∀ (a : A) (qs : List (A × Bool)), (∀ q ∈ qs, q.1 = a) →
      runCycle search none qs = qs.map fun q => search q.1) := by
  have key : ∀ a, (if 0 < (search a).getD 0 then some ((search a).getD 0) else none) = search a := by
    intro a
    cases h : search a with
    | none => simp
    | some v => simp [hpos a v h]
  constructor
  · intro stored qs
    induction qs generalizing stored with
    | nil => intro _; rfl
    | cons q qs ih =>
      intro hq
      obtain ⟨a, lazy⟩ := q
      have hl : lazy = false := hq (a, lazy) List.mem_cons_self
      subst hl
      simp only [runCycle, getRepeatCycle, Bool.false_eq_true, if_false, List.map_cons]
      rw [key, ih _ (fun q h => hq q (List.mem_cons_of_mem _ h))]
  · intro a
    have main : ∀ (qs : List (A × Bool)) (stored : Option Int),
        (stored = none ∨ stored = some ((search a).getD 0)) → (∀ q ∈ qs, q.1 = a) →
        runCycle search stored qs = qs.map fun q => search q.1 := by
      intro qs
      induction qs with
      | nil => intro _ _ _; rfl
      | cons q qs ih =>
        intro stored hs hq
        obtain ⟨b, lazy⟩ := q
        have hb : b = a := hq (b, lazy) List.mem_cons_self
        subst hb
        have hq' : ∀ q ∈ qs, q.1 = b := fun q h => hq q (List.mem_cons_of_mem _ h)
        have hv : getRepeatCycle search b lazy stored = (search b, some ((search b).getD 0)) := by
          have hk := key b
          cases lazy with
          | false => simp only [getRepeatCycle, Bool.false_eq_true, if_false, hk]
          | true =>
            rcases hs with h | h
            · simp only [getRepeatCycle, if_true, h, hk]
            · simp only [getRepeatCycle, if_true, h, hk]
        simp only [runCycle, List.map_cons]
        rw [hv]
        simp only
        rw [ih _ (Or.inr rfl) hq']
    intro qs hq
    exact main qs none (Or.inl rfl) hq

/-- **C23 is false in general**: a second query with other tolerances gets the first answer. -/
theorem C23_repeat_cycle_false {A : Type} (search : A → Option Int) (a b : A)
    (h : search a ≠ search b) :
    ¬ ∀ qs : List (A × Bool), runCycle search none qs = qs.map fun q => search q.1 := by
  intro hall
  have := hall [(a, true), (b, true)]
  simp only [runCycle, getRepeatCycle, if_true, List.map_cons, List.map_nil, List.cons.injEq,
    and_true] at this
  rw [this.1] at this
  exact h this.2

/-- Tolerances 1 and 100: a repeat of 5 is found only with the looser one. -/
example : runCycle (fun tol : Int => if tol < 50 then none else some 5) none
    [(1, true), (100, true), (100, false)] = [none, none, some 5] := by decide

end Tatc.Props
