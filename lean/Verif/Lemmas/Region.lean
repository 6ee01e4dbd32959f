import Verif.Spec.Region
import Mathlib.Algebra.Order.Field.Basic
import Mathlib.Algebra.Ring.Parity
import Mathlib.Tactic.Linarith
import Mathlib.Tactic.Ring
import Mathlib.Tactic.FieldSimp
import Mathlib.Tactic.NormNum

/-!
# Counting the sides of a ring above a point
-/

namespace Tatc.Lemmas
open Tatc.Spec
open scoped Classical

theorem sides_cons (a b : ℝ × ℝ) (t : List (ℝ × ℝ)) : sides (a :: b :: t) = (a, b) :: sides (b :: t) := rfl

theorem sides_map (f : ℝ × ℝ → ℝ × ℝ) (r : List (ℝ × ℝ)) : sides (r.map f) = (sides r).map (Prod.map f f) := by
  unfold sides
  rw [← List.map_tail, List.zip_map]

theorem mem_sides {r : List (ℝ × ℝ)} {e : (ℝ × ℝ) × (ℝ × ℝ)} (h : e ∈ sides r) : e.1 ∈ r ∧ e.2 ∈ r := by
  unfold sides at h
  have := List.of_mem_zip (show (e.1, e.2) ∈ _ from h)
  exact ⟨this.1, List.mem_of_mem_tail this.2⟩

/-- A side spans an abscissa exactly when its ends are on different sides of it. -/
theorem spans_iff (P : ℝ × ℝ) (e : (ℝ × ℝ) × (ℝ × ℝ)) : Spans P e ↔ ¬ (e.1.1 ≤ P.1 ↔ e.2.1 ≤ P.1) := by
  unfold Spans
  by_cases h1 : e.1.1 ≤ P.1 <;> by_cases h2 : e.2.1 ≤ P.1 <;> simp [h1, h2, not_lt, not_le.mp]

/-- The sides that span an abscissa: odd in number when the ends of the chain are on different sides of it. -/
theorem spans_parity (P : ℝ × ℝ) : ∀ (a : ℝ × ℝ) (t : List (ℝ × ℝ)),
    (Odd ((sides (a :: t)).countP fun e => decide (Spans P e)) ↔
      ¬ (a.1 ≤ P.1 ↔ ((a :: t).getLast (List.cons_ne_nil _ _)).1 ≤ P.1))
  | a, [] => by simp [sides]
  | a, b :: t => by
    have ih := spans_parity P b t
    rw [sides_cons, List.countP_cons, List.getLast_cons (List.cons_ne_nil b t)]
    by_cases h : Spans P (a, b)
    · rw [if_pos (by simpa using h), Nat.odd_add_one, ih]
      rw [spans_iff] at h
      simp only at h
      tauto
    · rw [if_neg (by simpa using h), add_zero, ih]
      rw [spans_iff] at h
      simp only at h
      tauto

/-- An even number of sides of a closed ring span an abscissa. -/
theorem spans_even {r : List (ℝ × ℝ)} (h : r.head? = r.getLast?) (P : ℝ × ℝ) :
    Even ((sides r).countP fun e => decide (Spans P e)) := by
  rcases r with _ | ⟨a, t⟩
  · simp [sides]
  · rw [← Nat.not_odd_iff_even, spans_parity]
    have : a = (a :: t).getLast (List.cons_ne_nil _ _) := by
      rw [List.head?_cons, List.getLast?_eq_some_getLast (List.cons_ne_nil _ _)] at h
      exact Option.some.inj h
    rw [← this]; simp

/-- Moving a ring to the east or west. -/
theorem insideRing_shift (r : List (ℝ × ℝ)) (d : ℝ) (P : ℝ × ℝ) :
    InsideRing (r.map fun v => (v.1 + d, v.2)) (P.1 + d, P.2) ↔ InsideRing r P := by
  unfold InsideRing sidesOver
  rw [sides_map, List.countP_map]
  have : ((fun e => decide (PassesOver (P.1 + d, P.2) e)) ∘ Prod.map (fun v : ℝ × ℝ => (v.1 + d, v.2)) fun v => (v.1 + d, v.2)) =
      fun e => decide (PassesOver P e) := by
    funext e
    rw [Function.comp, decide_eq_decide]
    simp only [PassesOver, Spans, heightAt, Prod.map]
    simp only [add_le_add_iff_right, add_lt_add_iff_right, add_sub_add_right_eq_sub]
  rw [this]

theorem onRing_shift {r : List (ℝ × ℝ)} {d : ℝ} {P : ℝ × ℝ}
    (h : OnRing (r.map fun v => (v.1 + d, v.2)) (P.1 + d, P.2)) : OnRing r P := by
  obtain ⟨e, he, t, h0, h1, hP⟩ := h
  rw [sides_map] at he
  obtain ⟨e', he', rfl⟩ := List.mem_map.mp he
  simp only [Prod.map, Prod.mk.injEq] at hP
  refine ⟨e', he', t, h0, h1, Prod.ext ?_ ?_⟩
  · simp only; linarith [hP.1]
  · exact hP.2

/-- A point at the height of a side that spans its abscissa is on the side. -/
theorem onRing_of_height {r : List (ℝ × ℝ)} {P : ℝ × ℝ} {e : (ℝ × ℝ) × (ℝ × ℝ)} (he : e ∈ sides r) (hs : Spans P e)
    (h : P.2 = heightAt e P.1) : OnRing r P := by
  refine ⟨e, he, (P.1 - e.1.1) / (e.2.1 - e.1.1), ?_, ?_, Prod.ext ?_ ?_⟩
  · rcases hs with ⟨h1, h2⟩ | ⟨h1, h2⟩
    · exact div_nonneg (by linarith) (by linarith)
    · exact div_nonneg_of_nonpos (by linarith) (by linarith)
  · rcases hs with ⟨h1, h2⟩ | ⟨h1, h2⟩
    · rw [div_le_one (by linarith)]; linarith
    · rw [div_le_one_of_neg (by linarith)]; linarith
  · simp only
    have : e.2.1 - e.1.1 ≠ 0 := by rcases hs with ⟨h1, h2⟩ | ⟨h1, h2⟩ <;> intro h0 <;> linarith
    field_simp
    ring
  · rw [h]; unfold heightAt; simp only; ring

/-- Turning a closed ring upside down. -/
theorem insideRing_flip {r : List (ℝ × ℝ)} (hc : r.head? = r.getLast?) (d c : ℝ) {P : ℝ × ℝ} (hP : ¬ OnRing r P) :
    InsideRing (r.map fun v => (v.1 + d, c - v.2)) (P.1 + d, c - P.2) ↔ InsideRing r P := by
  unfold InsideRing sidesOver
  rw [sides_map, List.countP_map]
  have hfun : ∀ e ∈ sides r, ((fun e => decide (PassesOver (P.1 + d, c - P.2) e)) ∘
      Prod.map (fun v : ℝ × ℝ => (v.1 + d, c - v.2)) fun v => (v.1 + d, c - v.2)) e =
      decide (Spans P e ∧ ¬ PassesOver P e) := by
    intro e he
    rw [Function.comp, decide_eq_decide]
    simp only [PassesOver, Prod.map]
    have hs : Spans (P.1 + d, c - P.2) ((e.1.1 + d, c - e.1.2), (e.2.1 + d, c - e.2.2)) ↔ Spans P e := by
      simp only [Spans, add_le_add_iff_right, add_lt_add_iff_right]
    have hh : heightAt ((e.1.1 + d, c - e.1.2), (e.2.1 + d, c - e.2.2)) (P.1 + d) = c - heightAt e P.1 := by
      simp only [heightAt, add_sub_add_right_eq_sub]; ring
    rw [hs, hh]
    constructor
    · rintro ⟨h1, h2⟩
      exact ⟨h1, fun h => by linarith [h.2]⟩
    · rintro ⟨h1, h2⟩
      refine ⟨h1, ?_⟩
      have h3 : ¬ P.2 < heightAt e P.1 := fun h => h2 ⟨h1, h⟩
      have h4 : P.2 ≠ heightAt e P.1 := fun h => hP (onRing_of_height he h1 h)
      have := lt_of_le_of_ne (not_lt.mp h3) (Ne.symm h4)
      linarith
  rw [List.countP_congr (fun e he => by rw [hfun e he])]
  have hsum : ∀ l : List ((ℝ × ℝ) × (ℝ × ℝ)), (l.countP fun e => decide (Spans P e ∧ ¬ PassesOver P e)) +
      (l.countP fun e => decide (PassesOver P e)) = l.countP fun e => decide (Spans P e) := by
    intro l
    induction l with
    | nil => simp
    | cons e t ih =>
      simp only [List.countP_cons]
      rw [← ih]
      have : PassesOver P e → Spans P e := fun h => h.1
      by_cases h1 : Spans P e <;> by_cases h2 : PassesOver P e <;> simp [h1, h2] <;> first | omega | exact absurd (this h2) h1
  have he := spans_even hc P
  rw [← hsum] at he
  rw [Nat.even_add] at he
  rw [← Nat.not_even_iff_odd, ← Nat.not_even_iff_odd, he]

theorem onRing_flip {r : List (ℝ × ℝ)} {d c : ℝ} {P : ℝ × ℝ}
    (h : OnRing (r.map fun v => (v.1 + d, c - v.2)) (P.1 + d, c - P.2)) : OnRing r P := by
  obtain ⟨e, he, t, h0, h1, hP⟩ := h
  rw [sides_map] at he
  obtain ⟨e', he', rfl⟩ := List.mem_map.mp he
  simp only [Prod.map, Prod.mk.injEq] at hP
  refine ⟨e', he', t, h0, h1, Prod.ext ?_ ?_⟩
  · simp only; linarith [hP.1]
  · simp only; linarith [hP.2]

/-- A point inside of a ring has a side above it. -/
theorem exists_over {r : List (ℝ × ℝ)} {P : ℝ × ℝ} (h : InsideRing r P) : ∃ e ∈ sides r, PassesOver P e := by
  have hpos : 0 < (sides r).countP fun e => decide (PassesOver P e) := h.pos
  obtain ⟨e, he, h⟩ := List.countP_pos_iff.mp hpos
  exact ⟨e, he, by simpa using h⟩

theorem heightAt_between {P : ℝ × ℝ} {e : (ℝ × ℝ) × (ℝ × ℝ)} (hs : Spans P e) {lo hi : ℝ} (h1 : lo ≤ e.1.2 ∧ e.1.2 ≤ hi)
    (h2 : lo ≤ e.2.2 ∧ e.2.2 ≤ hi) : lo ≤ heightAt e P.1 ∧ heightAt e P.1 ≤ hi := by
  have ht : 0 ≤ (P.1 - e.1.1) / (e.2.1 - e.1.1) ∧ (P.1 - e.1.1) / (e.2.1 - e.1.1) ≤ 1 := by
    rcases hs with ⟨h1, h2⟩ | ⟨h1, h2⟩
    · exact ⟨div_nonneg (by linarith) (by linarith), by rw [div_le_one (by linarith)]; linarith⟩
    · exact ⟨div_nonneg_of_nonpos (by linarith) (by linarith), by rw [div_le_one_of_neg (by linarith)]; linarith⟩
  unfold heightAt
  constructor <;> nlinarith [ht.1, ht.2]

/-- A point inside of a ring is within the longitudes of its vertices. -/
theorem inside_x {r : List (ℝ × ℝ)} {P : ℝ × ℝ} (h : InsideRing r P) {lo hi : ℝ} (hr : ∀ v ∈ r, lo ≤ v.1 ∧ v.1 ≤ hi) :
    lo ≤ P.1 ∧ P.1 ≤ hi := by
  obtain ⟨e, he, hs, -⟩ := exists_over h
  obtain ⟨m1, m2⟩ := mem_sides he
  have a := hr _ m1; have b := hr _ m2
  rcases hs with ⟨h1, h2⟩ | ⟨h1, h2⟩ <;> constructor <;> linarith

/-- A point inside of a closed ring is within the latitudes of its vertices. -/
theorem inside_y {r : List (ℝ × ℝ)} (hc : r.head? = r.getLast?) {P : ℝ × ℝ} (h : InsideRing r P) {lo hi : ℝ}
    (hr : ∀ v ∈ r, lo ≤ v.2 ∧ v.2 ≤ hi) : lo ≤ P.2 ∧ P.2 ≤ hi := by
  constructor
  · by_contra hlt
    push Not at hlt
    -- every side that spans the point passes above it
    have : (sides r).countP (fun e => decide (PassesOver P e)) = (sides r).countP fun e => decide (Spans P e) := by
      refine List.countP_congr fun e he => ?_
      obtain ⟨m1, m2⟩ := mem_sides he
      simp only [decide_eq_true_eq]
      refine ⟨fun h => h.1, fun hs => ⟨hs, ?_⟩⟩
      exact hlt.trans_le (heightAt_between hs (hr _ m1) (hr _ m2)).1
    unfold InsideRing sidesOver at h
    rw [this] at h
    exact (Nat.not_even_iff_odd.mpr h) (spans_even hc P)
  · obtain ⟨e, he, hs, h2⟩ := exists_over h
    obtain ⟨m1, m2⟩ := mem_sides he
    exact h2.le.trans (heightAt_between hs (hr _ m1) (hr _ m2)).2

end Tatc.Lemmas
