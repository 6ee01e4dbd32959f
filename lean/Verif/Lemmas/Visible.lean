import Verif.Model.Coverage
import Verif.Lemmas.Pandas
import Verif.Spec.Visibility

/-! Lemmas for `_get_visible_interval_series`. -/

namespace Tatc.Coverage
open Tatc.Pandas Tatc.Spec

/-- The rises of an event list. -/
def risesOf (events : List (Int × EventKind)) : List Int :=
  (events.filter fun e => e.2 = .rise).map Prod.fst

/-- The sets of an event list. -/
def setsOf (events : List (Int × EventKind)) : List Int :=
  (events.filter fun e => e.2 = .set).map Prod.fst

theorem risesOf_filter (events : List (Int × EventKind)) :
    risesOf (events.filter fun e => decide (e.2 ≠ .culminate)) = risesOf events := by
  unfold risesOf
  rw [List.filter_filter]
  congr 1
  apply List.filter_congr
  rintro ⟨t, k⟩ _
  cases k <;> simp

theorem setsOf_filter (events : List (Int × EventKind)) :
    setsOf (events.filter fun e => decide (e.2 ≠ .culminate)) = setsOf events := by
  unfold setsOf
  rw [List.filter_filter]
  congr 1
  apply List.filter_congr
  rintro ⟨t, k⟩ _
  cases k <;> simp

/-- The interval before the first set. -/
def leadingOf (start : Int) (rises sets : List Int) : List Interval :=
  match sets.head? with
  | none => []
  | some s =>
    if (match rises.head? with
        | none => true
        | some r => decide (s < r)) && decide (start < s)
    then [⟨start, s⟩] else []

/-- The intervals matched with a rise. -/
def matchedOf (maxAccess : Int) (rises sets : List Int) : List Interval :=
  rises.filterMap fun rise =>
    match matching maxAccess rise sets with
    | [] => none
    | s :: _ => some ⟨rise, s⟩

/-- The interval after the last rise. -/
def trailingOf (end_ : Int) (rises sets : List Int) : List Interval :=
  match rises.getLast? with
  | none => []
  | some r =>
    if (match sets.getLast? with
        | none => true
        | some s => decide (s < r)) && decide (r < end_)
    then [⟨r, end_⟩] else []

theorem visibleIntervals_eq (start end_ M : Int) (events : List (Int × EventKind)) :
    visibleIntervals start end_ M events =
      if events ≠ [] ∧ ∀ e ∈ events, e.2 = .culminate then [⟨start, end_⟩]
      else if events ≠ [] then
        leadingOf start (risesOf events) (setsOf events) ++
        matchedOf M (risesOf events) (setsOf events) ++
        trailingOf end_ (risesOf events) (setsOf events)
      else [] := rfl

/-- Intervals from a non-visible state. -/
def pairIntervals (end_ : Int) : List Int → List Interval
  | [] => []
  | [r] => [⟨r, end_⟩]
  | r :: s :: t => ⟨r, s⟩ :: pairIntervals end_ t

theorem risesOf_alt_false (r s : Int) (t : List Int) :
    risesOf (alternating false (r :: s :: t)) = r :: risesOf (alternating false t) := by
  simp [alternating, risesOf]

theorem setsOf_alt_false (r s : Int) (t : List Int) :
    setsOf (alternating false (r :: s :: t)) = s :: setsOf (alternating false t) := by
  simp [alternating, setsOf]

theorem mem_alternating (b : Bool) (cs : List Int) : ∀ e ∈ alternating b cs, e.1 ∈ cs := by
  induction cs generalizing b with
  | nil => simp [alternating]
  | cons c t ih =>
    intro e he
    simp only [alternating, List.mem_cons] at he
    rcases he with rfl | he
    · exact List.mem_cons_self
    · exact List.mem_cons_of_mem _ (ih _ e he)

theorem mem_risesOf_alt {b : Bool} {cs : List Int} {x : Int} (h : x ∈ risesOf (alternating b cs)) : x ∈ cs := by
  unfold risesOf at h
  obtain ⟨e, he, rfl⟩ := List.mem_map.mp h
  exact mem_alternating b cs e (List.mem_filter.mp he).1

theorem mem_setsOf_alt {b : Bool} {cs : List Int} {x : Int} (h : x ∈ setsOf (alternating b cs)) : x ∈ cs := by
  unfold setsOf at h
  obtain ⟨e, he, rfl⟩ := List.mem_map.mp h
  exact mem_alternating b cs e (List.mem_filter.mp he).1

theorem matching_append_old (M rise : Int) (old sets : List Int) (h : ∀ s ∈ old, s < rise) :
    matching M rise (old ++ sets) = matching M rise sets := by
  unfold matching
  rw [List.filter_append]
  have : old.filter (fun s => decide (rise < s) && decide (s < rise + 2 * M)) = [] := by
    rw [List.filter_eq_nil_iff]
    intro s hs
    have := h s hs
    simp only [Bool.and_eq_true, decide_eq_true_eq]
    omega
  rw [this, List.nil_append]

theorem trailingOf_old (end_ : Int) (cs old : List Int)
    (hold : ∀ o ∈ old, ∀ c ∈ cs, o < c) :
    trailingOf end_ (risesOf (alternating false cs)) (old ++ setsOf (alternating false cs)) =
    trailingOf end_ (risesOf (alternating false cs)) (setsOf (alternating false cs)) := by
  unfold trailingOf
  cases hr : (risesOf (alternating false cs)).getLast? with
  | none => rfl
  | some r =>
    simp only
    rw [List.getLast?_append]
    cases hs' : (setsOf (alternating false cs)).getLast? with
    | some s => rfl
    | none =>
      cases ho : old.getLast? with
      | none => rfl
      | some o =>
        have h1 := hold o (List.mem_of_getLast? ho) r (mem_risesOf_alt (List.mem_of_getLast? hr))
        simp [h1]

theorem matched_trailing (end_ M : Int) (cs old : List Int) (hs : cs.Pairwise (· < ·))
    (hend : ∀ c ∈ cs, c < end_) (hold : ∀ o ∈ old, ∀ c ∈ cs, o < c) (hshort : PassesShort M cs) :
    matchedOf M (risesOf (alternating false cs)) (old ++ setsOf (alternating false cs)) ++
      trailingOf end_ (risesOf (alternating false cs)) (setsOf (alternating false cs)) =
    pairIntervals end_ cs := by
  match cs with
  | [] => simp [alternating, risesOf, setsOf, matchedOf, trailingOf, pairIntervals]
  | [r] =>
    have h1 : matching M r (old ++ []) = [] := by
      rw [matching_append_old M r old [] (fun s hs' => hold s hs' r (by simp))]; rfl
    have h2 := hend r (by simp)
    simp only [List.append_nil] at h1
    simp [alternating, risesOf, setsOf, matchedOf, trailingOf, pairIntervals, h1, h2]
  | r :: s :: t =>
    rw [risesOf_alt_false, setsOf_alt_false]
    have hrs : r < s := (List.pairwise_cons.mp hs).1 s (by simp)
    have hst : ∀ x ∈ t, s < x := (List.pairwise_cons.mp (List.pairwise_cons.mp hs).2).1
    have ht : t.Pairwise (· < ·) := (List.pairwise_cons.mp (List.pairwise_cons.mp hs).2).2
    have ih := matched_trailing end_ M t (old ++ [s]) ht (fun c hc => hend c (by simp [hc]))
      (by
        intro o ho c hc
        rcases List.mem_append.mp ho with ho | ho
        · exact hold o ho c (by simp [hc])
        · rw [List.mem_singleton] at ho; subst ho; exact hst c hc)
      hshort.2
    have hm : matching M r (old ++ s :: setsOf (alternating false t)) = s :: matching M r (setsOf (alternating false t)) := by
      rw [matching_append_old M r old _ (fun o ho => hold o ho r (by simp))]
      unfold matching
      rw [List.filter_cons_of_pos]
      have := hshort.1
      simp only [Bool.and_eq_true, decide_eq_true_eq]
      omega
    have htr : trailingOf end_ (r :: risesOf (alternating false t)) (s :: setsOf (alternating false t)) =
        trailingOf end_ (risesOf (alternating false t)) (setsOf (alternating false t)) := by
      cases t with
      | nil =>
        simp only [alternating, risesOf, setsOf, List.filter_nil, List.map_nil, trailingOf,
          List.getLast?_singleton, List.getLast?_nil]
        have : ¬ s < r := by omega
        simp [this]
      | cons r' t' =>
        have hold' := trailingOf_old end_ (r' :: t') [s]
          (fun o ho c hc => by rw [List.mem_singleton] at ho; subst ho; exact hst c hc)
        rw [List.singleton_append] at hold'
        rw [← hold']
        have : risesOf (alternating false (r' :: t')) ≠ [] := by simp [alternating, risesOf]
        unfold trailingOf
        rw [List.getLast?_cons_of_ne_nil this]
    rw [htr, pairIntervals, ← ih]
    unfold matchedOf
    rw [List.filterMap_cons, hm]
    simp

/-- The intervals computed for a visibility signal. -/
theorem visibleIntervals_alternating (start end_ M : Int) (b : Bool) (cs : List Int)
    (events : List (Int × EventKind))
    (hev : events.filter (fun e => decide (e.2 ≠ .culminate)) = alternating b cs)
    (hs : cs.Pairwise (· < ·)) (hin : ∀ c ∈ cs, start < c ∧ c < end_)
    (hculm : cs = [] → (events ≠ [] ↔ b = true))
    (hshort : PassesShort M (if b then cs.tail else cs)) :
    visibleIntervals start end_ M events =
      match b, cs with
      | false, cs => pairIntervals end_ cs
      | true, [] => [⟨start, end_⟩]
      | true, s :: t => ⟨start, s⟩ :: pairIntervals end_ t := by
  have hr : risesOf events = risesOf (alternating b cs) := by rw [← hev, risesOf_filter]
  have hset : setsOf events = setsOf (alternating b cs) := by rw [← hev, setsOf_filter]
  rw [visibleIntervals_eq, hr, hset]
  cases cs with
  | nil =>
    have hall : ∀ e ∈ events, e.2 = EventKind.culminate := by
      rw [show alternating b [] = [] from rfl, List.filter_eq_nil_iff] at hev
      intro e he
      simpa using hev e he
    have hc := hculm rfl
    cases b with
    | false =>
      have : events = [] := by
        by_contra h
        simpa using hc.mp h
      subst this
      simp [pairIntervals]
    | true =>
      have : events ≠ [] := hc.mpr rfl
      rw [if_pos ⟨this, hall⟩]
  | cons c t =>
    have hne : events ≠ [] := by
      rintro rfl
      simp [alternating] at hev
    have hnall : ¬ (events ≠ [] ∧ ∀ e ∈ events, e.2 = EventKind.culminate) := by
      rintro ⟨_, hall⟩
      have : events.filter (fun e => decide (e.2 ≠ EventKind.culminate)) = [] := by
        rw [List.filter_eq_nil_iff]; intro e he; simpa using hall e he
      rw [this] at hev
      simp [alternating] at hev
    rw [if_neg hnall, if_pos hne]
    cases b with
    | false =>
      have h1 := matched_trailing end_ M (c :: t) [] hs (fun x hx => (hin x hx).2) (by simp) hshort
      rw [List.nil_append] at h1
      have h2 : leadingOf start (risesOf (alternating false (c :: t))) (setsOf (alternating false (c :: t))) = [] := by
        cases t with
        | nil => simp [alternating, setsOf, leadingOf]
        | cons s t =>
          rw [risesOf_alt_false, setsOf_alt_false]
          have : c < s := (List.pairwise_cons.mp hs).1 s (by simp)
          have : ¬ s < c := by omega
          simp [leadingOf, this]
      rw [h2, List.nil_append, h1]
    | true =>
      have hpw := List.pairwise_cons.mp hs
      have e1 : risesOf (alternating true (c :: t)) = risesOf (alternating false t) := by
        simp [alternating, risesOf]
      have e2 : setsOf (alternating true (c :: t)) = c :: setsOf (alternating false t) := by
        simp [alternating, setsOf]
      have h1 := matched_trailing end_ M t [c] hpw.2 (fun x hx => (hin x (List.mem_cons_of_mem _ hx)).2)
        (by intro o ho x hx; rw [List.mem_singleton] at ho; subst ho; exact hpw.1 x hx) (by simpa using hshort)
      rw [e1, e2]
      have h2 : leadingOf start (risesOf (alternating false t)) (c :: setsOf (alternating false t)) = [⟨start, c⟩] := by
        have hc := (hin c List.mem_cons_self).1
        unfold leadingOf
        simp only [List.head?_cons]
        cases hh : (risesOf (alternating false t)).head? with
        | none => simp [hc]
        | some r =>
          have := hpw.1 r (mem_risesOf_alt (List.mem_of_head? hh))
          simp [hc, this]
      rw [h2]
      have h3 : trailingOf end_ (risesOf (alternating false t)) (c :: setsOf (alternating false t)) =
          trailingOf end_ (risesOf (alternating false t)) (setsOf (alternating false t)) := by
        cases t with
        | nil => simp [alternating, risesOf, trailingOf]
        | cons r t =>
          have := trailingOf_old end_ (r :: t) [c]
            (by intro o ho x hx; rw [List.mem_singleton] at ho; subst ho; exact hpw.1 x hx)
          rwa [List.singleton_append] at this
      rw [h3]
      rw [List.singleton_append] at h1
      show _ = (⟨start, c⟩ : Interval) :: pairIntervals end_ t
      rw [← h1]
      simp

/-- Membership in the intervals from a non-visible state is odd parity. -/
theorem mem_pairIntervals (end_ : Int) (cs : List Int) (hs : cs.Pairwise (· < ·))
    (hend : ∀ c ∈ cs, c < end_) (t : ℚ) (ht : t < end_) (hnc : ∀ c ∈ cs, t ≠ (c : ℚ)) :
    (∃ I ∈ pairIntervals end_ cs, (I.left : ℚ) < t ∧ t < (I.right : ℚ)) ↔
      (cs.filter fun c : Int => decide ((c : ℚ) ≤ t)).length % 2 = 1 := by
  match cs with
  | [] => simp [pairIntervals]
  | [r] =>
    have hr := hnc r (by simp)
    by_cases h : (r : ℚ) ≤ t
    · have h' : (r : ℚ) < t := lt_of_le_of_ne h (Ne.symm hr)
      simp [pairIntervals, h, h', ht]
    · have h' : ¬ (r : ℚ) < t := fun h2 => h h2.le
      simp [pairIntervals, h, h']
  | r :: s :: u =>
    have hrs : r < s := (List.pairwise_cons.mp hs).1 s (by simp)
    have hsu : ∀ x ∈ u, s < x := (List.pairwise_cons.mp (List.pairwise_cons.mp hs).2).1
    have hu : u.Pairwise (· < ·) := (List.pairwise_cons.mp (List.pairwise_cons.mp hs).2).2
    have ih := mem_pairIntervals end_ u hu (fun c hc => hend c (by simp [hc])) t ht
      (fun c hc => hnc c (by simp [hc]))
    have hrne := hnc r (by simp)
    have hsne := hnc s (by simp)
    have hrsq : (r : ℚ) < s := by exact_mod_cast hrs
    rw [pairIntervals]
    have hleft : ∀ I ∈ pairIntervals end_ u, (s : ℚ) < I.left := by
      have : ∀ (l : List Int), (∀ x ∈ l, s < x) → ∀ I ∈ pairIntervals end_ l, (s : ℚ) < I.left := by
        intro l hl
        match l with
        | [] => simp [pairIntervals]
        | [a] =>
          intro I hI
          simp only [pairIntervals, List.mem_singleton] at hI
          subst hI
          exact_mod_cast hl a (by simp)
        | a :: b :: l =>
          have key : ∀ (l : List Int), (∀ x ∈ l, s < x) → ∀ I ∈ pairIntervals end_ l, (s : ℚ) < I.left := by
            intro l
            induction l using pairIntervals.induct with
            | case1 => intro _ I hI; simp [pairIntervals] at hI
            | case2 r =>
              intro h I hI
              simp only [pairIntervals, List.mem_singleton] at hI
              subst hI
              exact_mod_cast h r (by simp)
            | case3 a b l ih =>
              intro h I hI
              rw [pairIntervals] at hI
              rcases List.mem_cons.mp hI with rfl | hI
              · exact_mod_cast h a (by simp)
              · exact ih (fun x hx => h x (by simp [hx])) I hI
          exact key _ hl
      exact this u hsu
    by_cases h1 : (r : ℚ) ≤ t
    · have h1' : (r : ℚ) < t := lt_of_le_of_ne h1 (Ne.symm hrne)
      by_cases h2 : (s : ℚ) ≤ t
      · have e : ((r :: s :: u).filter fun c : Int => decide ((c : ℚ) ≤ t)).length =
            (u.filter fun c : Int => decide ((c : ℚ) ≤ t)).length + 2 := by
          simp [h1, h2]
        rw [e, Nat.add_mod_right, ← ih]
        constructor
        · rintro ⟨I, hI, a, b⟩
          rcases List.mem_cons.mp hI with rfl | hI
          · exact absurd h2 (not_le.mpr b)
          · exact ⟨I, hI, a, b⟩
        · rintro ⟨I, hI, a, b⟩
          exact ⟨I, List.mem_cons_of_mem _ hI, a, b⟩
      · have e0 : u.filter (fun c : Int => decide ((c : ℚ) ≤ t)) = [] := by
          rw [List.filter_eq_nil_iff]
          intro c hc
          have : (s : ℚ) < c := by exact_mod_cast hsu c hc
          simp only [decide_eq_true_eq]
          push Not at h2 ⊢
          linarith
        have e : ((r :: s :: u).filter fun c : Int => decide ((c : ℚ) ≤ t)).length = 1 := by
          simp only [List.filter_cons, h1, h2, decide_true, decide_false, if_true, e0]
          simp
        rw [e]
        simp only [Nat.one_mod, iff_true]
        exact ⟨⟨r, s⟩, List.mem_cons_self, h1', not_le.mp h2⟩
    · have hst : ¬ (s : ℚ) ≤ t := fun h => h1 (hrsq.le.trans h)
      have e0 : (r :: s :: u).filter (fun c : Int => decide ((c : ℚ) ≤ t)) = [] := by
        rw [List.filter_eq_nil_iff]
        intro c hc
        simp only [decide_eq_true_eq]
        rcases List.mem_cons.mp hc with rfl | hc
        · exact h1
        · rcases List.mem_cons.mp hc with rfl | hc
          · exact hst
          · have : (s : ℚ) < c := by exact_mod_cast hsu c hc
            intro h; exact hst (this.le.trans h)
      rw [e0]
      simp only [List.length_nil, Nat.zero_mod, zero_ne_one, iff_false]
      rintro ⟨I, hI, a, b⟩
      rcases List.mem_cons.mp hI with rfl | hI
      · exact h1 a.le
      · have := hleft I hI
        exact hst (this.le.trans a.le)

end Tatc.Coverage
