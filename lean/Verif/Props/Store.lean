import Verif.Model.Store
import Mathlib.Tactic.Linarith

/-!
# C122: analyses leave the frames they are given as they are
-/

namespace Tatc.Props
open Tatc.Frames

variable {F α β : Type}

/-- A computation leaves the first `n` frames alone, and what it returns satisfies `Q`. -/
def Spares (n : Nat) (p : Prog F α) (Q : α → Prop) : Prop :=
  ∀ st : Store F, n ≤ st.length → n ≤ (p st).2.length ∧ (p st).2.take n = st.take n ∧ Q (p st).1

theorem spares_bind {n : Nat} {p : Prog F α} {f : α → Prog F β} {Q : α → Prop} {R : β → Prop} (hp : Spares n p Q)
    (hf : ∀ a, Q a → Spares n (f a) R) : Spares n (p >>= f) R := by
  intro st h
  obtain ⟨h1, h2, h3⟩ := hp st h
  obtain ⟨h4, h5, h6⟩ := hf _ h3 _ h1
  exact ⟨h4, h5.trans h2, h6⟩

theorem spares_pure {n : Nat} {a : α} {Q : α → Prop} (h : Q a) : Spares (F := F) n (pure a) Q :=
  fun _ hn => ⟨hn, rfl, h⟩

theorem spares_new {n : Nat} (f : F) : Spares n (new f) (n ≤ ·) := by
  intro st h
  exact ⟨by simp [new]; omega, by simp [new, List.take_append_of_le_length h], h⟩

theorem spares_value {n r : Nat} (d : F) : Spares n (value d r) fun _ => True := fun _ h => ⟨h, rfl, trivial⟩

theorem take_modify {l : List F} {n r : Nat} (f : F → F) (h : n ≤ r) : (l.modify r f).take n = l.take n := by
  apply List.ext_getElem?
  intro k
  rw [List.getElem?_take, List.getElem?_take]
  split_ifs with hk
  · rw [List.getElem?_modify]
    have : r ≠ k := by omega
    simp [this]
  · rfl

theorem spares_mutate {n r : Nat} (f : F → F) (h : n ≤ r) : Spares n (mutate r f) fun _ => True :=
  fun st hn => ⟨by simpa [mutate] using hn, take_modify f h, trivial⟩

theorem spares_mapM {n : Nat} {f : α → Prog F β} {Q : β → Prop} (hf : ∀ a, Spares n (f a) Q) (l : List α) :
    Spares n (l.mapM f) fun bs => ∀ b ∈ bs, Q b := by
  induction l with
  | nil =>
    rw [List.mapM_nil]
    exact spares_pure (by simp)
  | cons a l ih =>
    rw [List.mapM_cons]
    refine spares_bind (hf a) fun b hb => spares_bind ih fun bs hbs => spares_pure ?_
    intro x hx
    rcases List.mem_cons.mp hx with rfl | hx
    · exact hb
    · exact hbs x hx

theorem spares_group {n : Nat} (kit : Kit F) (d g : F) : Spares n (aggregateGroup kit d g) fun _ => True := by
  unfold aggregateGroup
  refine spares_bind (spares_new _) fun r _ => spares_bind (spares_value d) fun g _ =>
    spares_bind (spares_new _) fun r hr => spares_bind (spares_mutate _ hr) fun _ _ =>
    spares_bind (spares_value d) fun g _ => spares_bind (spares_new _) fun r hr =>
    spares_bind (spares_mutate _ hr) fun _ _ => spares_bind (spares_mutate _ hr) fun _ _ => spares_value d

theorem spares_call {n : Nat} (kit : Kit F) (d : F) (c : Call) : Spares n (c.run kit d) (n ≤ ·) := by
  cases c with
  | aggregate o =>
    refine spares_bind (spares_value d) fun o _ => ?_
    split
    · exact spares_new _
    · exact spares_bind (spares_mapM (spares_group kit d) _) fun _ _ => spares_new _
  | reduce a =>
    refine spares_bind (spares_value d) fun o _ => ?_
    split
    · exact spares_new _
    · exact spares_bind (spares_new _) fun r hr => spares_bind (spares_mutate _ hr) fun _ _ =>
        spares_bind (spares_mutate _ hr) fun _ _ => spares_bind (spares_mutate _ hr) fun _ _ =>
        spares_bind (spares_value d) fun _ _ => spares_bind (spares_new _) fun r hr =>
        spares_bind (spares_mutate _ hr) fun _ _ => spares_bind (spares_mutate _ hr) fun _ _ => spares_pure hr
  | grid r c =>
    refine spares_bind (spares_value d) fun o _ => spares_bind (spares_value d) fun o _ => ?_
    split
    · exact spares_bind (spares_new _) fun r hr => spares_bind (spares_mutate _ hr) fun _ _ =>
        spares_bind (spares_mutate _ hr) fun _ _ => spares_bind (spares_mutate _ hr) fun _ _ => spares_pure hr
    · exact spares_bind (spares_new _) fun r hr => spares_bind (spares_mutate _ hr) fun _ _ =>
        spares_bind (spares_mutate _ hr) fun _ _ => spares_bind (spares_value d) fun _ _ =>
        spares_bind (spares_new _) fun r hr => spares_bind (spares_mutate _ hr) fun _ _ =>
        spares_bind (spares_mutate _ hr) fun _ _ => spares_pure hr
  | latencies o l =>
    refine spares_bind (spares_value d) fun o _ => spares_bind (spares_value d) fun o _ => ?_
    split
    · exact spares_new _
    · exact spares_bind (spares_new _) fun _ _ => spares_bind (spares_new _) fun _ _ =>
        spares_bind (spares_value d) fun _ _ => spares_bind (spares_value d) fun _ _ =>
        spares_bind (spares_new _) fun r hr => spares_bind (spares_mutate _ hr) fun _ _ =>
        spares_bind (spares_mutate _ hr) fun _ _ => spares_bind (spares_value d) fun _ _ =>
        spares_bind (spares_new _) fun r hr => spares_bind (spares_mutate _ hr) fun _ _ =>
        spares_bind (spares_value d) fun _ _ => spares_bind (spares_new _) fun r hr =>
        spares_bind (spares_mutate _ hr) fun _ _ => spares_bind (spares_mutate _ hr) fun _ _ => spares_pure hr
  | reduceLatency l =>
    refine spares_bind (spares_value d) fun o _ => ?_
    split
    · exact spares_new _
    · exact spares_bind (spares_new _) fun r hr => spares_bind (spares_mutate _ hr) fun _ _ =>
        spares_bind (spares_mutate _ hr) fun _ _ => spares_bind (spares_value d) fun _ _ =>
        spares_bind (spares_new _) fun r hr => spares_bind (spares_mutate _ hr) fun _ _ => spares_pure hr
  | gridLatency r c =>
    refine spares_bind (spares_value d) fun o _ => spares_bind (spares_value d) fun o _ => ?_
    split
    · exact spares_bind (spares_new _) fun r hr => spares_bind (spares_mutate _ hr) fun _ _ =>
        spares_bind (spares_mutate _ hr) fun _ _ => spares_pure hr
    · exact spares_bind (spares_new _) fun r hr => spares_bind (spares_mutate _ hr) fun _ _ =>
        spares_bind (spares_value d) fun _ _ => spares_bind (spares_new _) fun r hr =>
        spares_bind (spares_mutate _ hr) fun _ _ => spares_pure hr

/-- Whatever analyses are called, and in whatever order, all frames that existed before are what they were, and the frames
returned are new ones. -/
theorem C122_inputs (kit : Kit F) (d : F) (calls : List Call) (st : Store F) :
    st <+: (history kit d calls st).2 ∧ ∀ r ∈ (history kit d calls st).1, st.length ≤ r := by
  obtain ⟨h1, h2, h3⟩ := spares_mapM (spares_call (n := st.length) kit d) calls st le_rfl
  refine ⟨?_, h3⟩
  rw [List.take_length] at h2
  have h4 := List.take_prefix st.length (history kit d calls st).2
  have h5 : (history kit d calls st).2.take st.length = st := h2
  rwa [h5] at h4

theorem modify_last (l : List F) (x : F) (f : F → F) : (l ++ [x]).modify l.length f = l ++ [f x] := by
  induction l with
  | nil => rfl
  | cons a l ih => simpa using ih

theorem getD_last (l : List F) (x d : F) : (l ++ [x]).getD l.length d = x := by
  rw [List.getD_eq_getElem?_getD, List.getElem?_append_right le_rfl]; simp

theorem getD_before (l : List F) (x y d : F) : (l ++ [x] ++ [y]).getD l.length d = x := by
  rw [List.getD_eq_getElem?_getD, List.append_assoc, List.getElem?_append_right le_rfl]; simp

/-- The value of the frame that a call returns. -/
def answer (kit : Kit F) (d : F) (c : Call) (st : Store F) : F :=
  (c.run kit d st).2.getD (c.run kit d st).1 d

theorem run_bind (p : Prog F α) (f : α → Prog F β) (st : Store F) : (p >>= f) st = f (p st).1 (p st).2 := rfl
theorem value_bind (d : F) (r : Nat) (f : F → Prog F β) (st : Store F) : (value d r >>= f) st = f (st.getD r d) st := rfl
theorem run_pure (a : α) (st : Store F) : (pure a : Prog F α) st = (a, st) := rfl

/-- The value of an aggregated group. -/
def groupValue (kit : Kit F) (g : F) : F :=
  kit.op "revisit" (kit.op "access" (kit.op "dissolve obs" (kit.op "obs" (kit.op "sort_values start" g))))

theorem group_run (kit : Kit F) (d g : F) (st : Store F) : (aggregateGroup kit d g st).1 = groupValue kit g := by
  unfold aggregateGroup
  simp only [run_bind, new, value, mutate, modify_last, getD_last]
  rfl

theorem groups_run (kit : Kit F) (d : F) (gs : List F) (st : Store F) :
    (gs.mapM (aggregateGroup kit d) st).1 = gs.map (groupValue kit) := by
  induction gs generalizing st with
  | nil => rfl
  | cons g gs ih =>
    rw [List.mapM_cons]
    simp only [run_bind, run_pure, group_run, ih, List.map_cons]

theorem answer_aggregate (kit : Kit F) (d : F) (o : Nat) (st : Store F) : answer kit d (.aggregate o) st =
    if kit.isEmpty (st.getD o d) then kit.blank "aggregate"
    else kit.op "reset_index" (kit.concat ((kit.groups "point_id" (st.getD o d)).map (groupValue kit))) := by
  unfold answer
  simp only [Call.run, aggregate, value_bind]
  split
  · simp only [new, getD_last]
  · simp only [run_bind, new, getD_last, groups_run]

/-- A call answers with a frame that depends on the values of the frames given only. -/
theorem C122_answer (kit : Kit F) (d : F) (c : Call) (st st' : Store F)
    (h : ∀ r ∈ c.args, st.getD r d = st'.getD r d) : answer kit d c st = answer kit d c st' := by
  cases c with
  | aggregate o =>
    have h1 := h o (by simp [Call.args])
    rw [answer_aggregate, answer_aggregate, h1]
  | reduce a =>
    have h1 := h a (by simp [Call.args])
    unfold answer
    simp only [Call.run, reduce, value_bind]
    rw [h1]
    split <;> simp only [run_bind, run_pure, new, value, mutate, modify_last, getD_last]
  | grid r c =>
    have h1 := h r (by simp [Call.args])
    have h2 := h c (by simp [Call.args])
    unfold answer
    simp only [Call.run, grid, value_bind]
    rw [h1, h2]
    split <;> simp only [run_bind, run_pure, new, value, mutate, modify_last, getD_last]
  | latencies o l =>
    have h1 := h o (by simp [Call.args])
    have h2 := h l (by simp [Call.args])
    unfold answer
    simp only [Call.run, latencies, value_bind]
    rw [h1, h2]
    split <;> simp only [run_bind, run_pure, new, value, mutate, modify_last, getD_last, getD_before]
  | reduceLatency l =>
    have h1 := h l (by simp [Call.args])
    unfold answer
    simp only [Call.run, reduceLatency, value_bind]
    rw [h1]
    split <;> simp only [run_bind, run_pure, new, value, mutate, modify_last, getD_last]
  | gridLatency r c =>
    have h1 := h r (by simp [Call.args])
    have h2 := h c (by simp [Call.args])
    unfold answer
    simp only [Call.run, gridLatency, value_bind]
    rw [h1, h2]
    split <;> simp only [run_bind, run_pure, new, value, mutate, modify_last, getD_last]

/-- Made again after any other calls, a call answers with an equal frame. -/
theorem C122_again (kit : Kit F) (d : F) (c : Call) (calls : List Call) (st : Store F)
    (h : ∀ r ∈ c.args, r < st.length) : answer kit d c (history kit d calls st).2 = answer kit d c st := by
  apply C122_answer
  intro r hr
  obtain ⟨t, ht⟩ := (C122_inputs kit d calls st).1
  rw [← ht, List.getD_eq_getElem?_getD, List.getD_eq_getElem?_getD, List.getElem?_append_left (h r hr)]

/-- Normalizing a data frame whose polygons have to be split changes the frame given, and returns it. -/
theorem C122_normalize_false (kit : Kit F) (st : Store F) (r : Nat) (f : F) (hr : st[r]? = some f)
    (hf : kit.op "split_polygon" f ≠ f) : (normalize kit r st).2[r]? ≠ st[r]? ∧ (normalize kit r st).1 = r := by
  refine ⟨?_, rfl⟩
  have : (normalize kit r st).2 = st.modify r (kit.op "split_polygon") := rfl
  rw [this, List.getElem?_modify, hr]
  simpa using hf

/-- Normalizing a polygon or a series does not. -/
theorem C122_normalize_series (kit : Kit F) (st : Store F) (f : F) :
    st <+: (normalizeSeries kit f st).2 ∧ st.length ≤ (normalizeSeries kit f st).1 := by
  have : normalizeSeries kit f st = (st.length, st ++ [kit.op "split_polygon" (kit.op "GeoDataFrame" f)]) := by
    simp only [normalizeSeries, normalize, run_bind, run_pure, new, mutate, modify_last]
  rw [this]
  exact ⟨⟨_, rfl⟩, le_rfl⟩

/-- Frames that record the operations they went through: an aggregation, its reduction and its gridding. -/
def recordKit : Kit (List String) where
  isEmpty := List.isEmpty
  op := fun n f => f ++ [n]
  op2 := fun n f g => f ++ g ++ [n]
  groups := fun _ f => [f, f]
  concat := List.flatten
  blank := fun n => [n]

example : (history recordKit [] [.reduce 0, .grid 3 1] [["a"], ["c"]]).1 = [3, 5] ∧
    answer recordKit [] (.reduce 0) [["a"], ["c"]] = ["a", "access to seconds", "revisit to seconds", "samples",
      "dissolve point_id", "access to timedelta", "revisit to timedelta"] ∧
    (history recordKit [] [.reduce 0, .grid 3 1] [["a"], ["c"]]).2.take 2 = [["a"], ["c"]] ∧
    (normalize recordKit 1 [["a"], ["c"]]).2 = [["a"], ["c", "split_polygon"]] := by decide

end Tatc.Props
