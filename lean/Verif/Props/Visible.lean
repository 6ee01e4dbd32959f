import Verif.Lemmas.Visible

/-!
# C08, C09: visible intervals
-/

namespace Tatc.Props
open Tatc.Pandas Tatc.Coverage Tatc.Spec

/-- **C08.** For the event list of any visibility signal, an instant of the window that is not a
crossing lies inside a returned interval exactly when the satellite is visible then. -/
theorem C08_visible_exact_partial (start end_ M : Int) (b : Bool) (cs : List Int)
    (events : List (Int × EventKind)) (h : SignalEvents start end_ M b cs events)
    (t : ℚ) (hst : (start : ℚ) < t) (hte : t < (end_ : ℚ)) (hnc : ∀ c ∈ cs, t ≠ (c : ℚ)) :
    (∃ I ∈ visibleIntervals start end_ M events, (I.left : ℚ) < t ∧ t < (I.right : ℚ)) ↔
      visibleAt b cs t = true := by
  rw [visibleIntervals_alternating start end_ M b cs events h.events_eq h.increasing h.inside
    h.culminates h.short]
  unfold visibleAt
  cases b with
  | false =>
    rw [mem_pairIntervals end_ cs h.increasing (fun c hc => (h.inside c hc).2) t hte hnc]
    simp
  | true =>
    cases cs with
    | nil => simp [hst, hte]
    | cons s u =>
      have hpw := List.pairwise_cons.mp h.increasing
      have key := mem_pairIntervals end_ u hpw.2
        (fun c hc => (h.inside c (List.mem_cons_of_mem _ hc)).2) t hte
        (fun c hc => hnc c (List.mem_cons_of_mem _ hc))
      have hsne := hnc s List.mem_cons_self
      by_cases hs : (s : ℚ) ≤ t
      · have e : ((s :: u).filter fun c : Int => decide ((c : ℚ) ≤ t)).length =
            (u.filter fun c : Int => decide ((c : ℚ) ≤ t)).length + 1 := by simp [hs]
        rw [e]
        have : (∃ I ∈ (⟨start, s⟩ : Interval) :: pairIntervals end_ u, (I.left : ℚ) < t ∧ t < (I.right : ℚ)) ↔
            ∃ I ∈ pairIntervals end_ u, (I.left : ℚ) < t ∧ t < (I.right : ℚ) := by
          constructor
          · rintro ⟨I, hI, a, c⟩
            rcases List.mem_cons.mp hI with rfl | hI
            · exact absurd hs (not_le.mpr c)
            · exact ⟨I, hI, a, c⟩
          · rintro ⟨I, hI, a, c⟩
            exact ⟨I, List.mem_cons_of_mem _ hI, a, c⟩
        simp only [this, key, Bool.true_xor, Bool.not_eq_true', decide_eq_false_iff_not]
        omega
      · have e0 : (s :: u).filter (fun c : Int => decide ((c : ℚ) ≤ t)) = [] := by
          rw [List.filter_eq_nil_iff]
          intro c hc
          simp only [decide_eq_true_eq]
          rcases List.mem_cons.mp hc with rfl | hc
          · exact hs
          · have : (s : ℚ) < c := by exact_mod_cast hpw.1 c hc
            intro h; exact hs (this.le.trans h)
        rw [e0]
        simp only [List.length_nil, Nat.zero_mod, zero_ne_one, decide_false, Bool.bne_false,
          iff_true]
        exact ⟨⟨start, s⟩, List.mem_cons_self, hst, not_le.mp hs⟩

/-- **C08.** The intervals of a visibility signal are disjoint and in time order. -/
theorem C08_visible_disjoint (start end_ M : Int) (b : Bool) (cs : List Int)
    (events : List (Int × EventKind)) (h : SignalEvents start end_ M b cs events) :
    (visibleIntervals start end_ M events).Pairwise fun I J => I.right < J.left := by
  have left_gt : ∀ (x : Int) (l : List Int), (∀ y ∈ l, x < y) →
      ∀ I ∈ pairIntervals end_ l, x < I.left := by
    intro x l
    induction l using pairIntervals.induct with
    | case1 => intro _ I hI; simp [pairIntervals] at hI
    | case2 r =>
      intro h I hI
      simp only [pairIntervals, List.mem_singleton] at hI
      subst hI
      exact h r (by simp)
    | case3 a b l ih =>
      intro h I hI
      rw [pairIntervals] at hI
      rcases List.mem_cons.mp hI with rfl | hI
      · exact h a (by simp)
      · exact ih (fun x hx => h x (by simp [hx])) I hI
  have pw : ∀ l : List Int, l.Pairwise (· < ·) →
      (pairIntervals end_ l).Pairwise fun I J => I.right < J.left := by
    intro l
    induction l using pairIntervals.induct with
    | case1 => intro _; simp [pairIntervals]
    | case2 r => intro _; simp [pairIntervals]
    | case3 a b l ih =>
      intro h
      have h1 := List.pairwise_cons.mp (List.pairwise_cons.mp h).2
      rw [pairIntervals, List.pairwise_cons]
      exact ⟨fun J hJ => left_gt b l h1.1 J hJ, ih h1.2⟩
  rw [visibleIntervals_alternating start end_ M b cs events h.events_eq h.increasing h.inside
    h.culminates h.short]
  cases b with
  | false => exact pw cs h.increasing
  | true =>
    cases cs with
    | nil => simp
    | cons s u =>
      have hpw := List.pairwise_cons.mp h.increasing
      exact List.pairwise_cons.mpr ⟨fun J hJ => left_gt s u hpw.1 J hJ, pw u hpw.2⟩

/-- A window that opens during a pass, has a complete pass and closes during a third. -/
example : SignalEvents 0 1000 60 true [40, 300, 400, 980]
    [(20, .culminate), (40, .set), (300, .rise), (350, .culminate), (400, .set), (980, .rise)] where
  increasing := by decide
  inside := by decide
  events_eq := by decide
  culminates := by decide
  short := ⟨by decide, trivial⟩

/-- **C08 is false without a culmination**: a satellite visible through the whole window whose
event list is empty (no culmination falls into the window) gets no interval. -/
theorem C08_visible_exact_false :
    ¬ ∀ (start end_ M : Int) (b : Bool) (cs : List Int) (events : List (Int × EventKind)),
      cs.Pairwise (· < ·) → (∀ c ∈ cs, start < c ∧ c < end_) →
      events.filter (fun e => decide (e.2 ≠ .culminate)) = alternating b cs →
      PassesShort M (if b then cs.tail else cs) →
      ∀ t : ℚ, (start : ℚ) < t → t < (end_ : ℚ) → (∀ c ∈ cs, t ≠ (c : ℚ)) →
      ((∃ I ∈ visibleIntervals start end_ M events, (I.left : ℚ) < t ∧ t < (I.right : ℚ)) ↔
        visibleAt b cs t = true) := by
  intro h
  have := h 0 10 100 true [] [] (by simp) (by simp) (by simp [alternating]) trivial 5 (by norm_num)
    (by norm_num) (by simp)
  simp [visibleIntervals, visibleAt] at this

/-- **C09.** For any event list in time order inside the window, every interval lies in the
window, has positive length, and intervals are ordered by their left ends. -/
theorem C09_well_formed (start end_ M : Int) (hse : start < end_) (events : List (Int × EventKind))
    (hsorted : events.Pairwise fun a b => a.1 ≤ b.1)
    (hin : ∀ e ∈ events, start ≤ e.1 ∧ e.1 ≤ end_) :
    (∀ I ∈ visibleIntervals start end_ M events,
      start ≤ I.left ∧ I.left < I.right ∧ I.right ≤ end_) ∧
    (visibleIntervals start end_ M events).Pairwise (fun I J => I.left ≤ J.left) := by
  have rin : ∀ r ∈ risesOf events, start ≤ r ∧ r ≤ end_ := by
    intro r hr
    obtain ⟨e, he, rfl⟩ := List.mem_map.mp hr
    exact hin e (List.mem_filter.mp he).1
  have sin : ∀ r ∈ setsOf events, start ≤ r ∧ r ≤ end_ := by
    intro r hr
    obtain ⟨e, he, rfl⟩ := List.mem_map.mp hr
    exact hin e (List.mem_filter.mp he).1
  have rsorted : (risesOf events).Pairwise (· ≤ ·) := by
    unfold risesOf
    rw [List.pairwise_map]
    exact hsorted.filter _
  have lead : ∀ I ∈ leadingOf start (risesOf events) (setsOf events),
      I.left = start ∧ start < I.right ∧ I.right ≤ end_ := by
    intro I hI
    unfold leadingOf at hI
    cases hs : (setsOf events).head? with
    | none => simp [hs] at hI
    | some s =>
      rw [hs] at hI
      simp only at hI
      obtain ⟨hc, hI⟩ := List.mem_ite_nil_right.mp hI
      rw [List.mem_singleton] at hI
      subst hI
      rw [Bool.and_eq_true, decide_eq_true_eq] at hc
      exact ⟨rfl, hc.2, (sin s (List.mem_of_head? hs)).2⟩
  have mat : ∀ I ∈ matchedOf M (risesOf events) (setsOf events),
      I.left ∈ risesOf events ∧ I.left < I.right ∧ I.right ≤ end_ := by
    intro I hI
    unfold matchedOf at hI
    obtain ⟨r, hr, h⟩ := List.mem_filterMap.mp hI
    cases hm : matching M r (setsOf events) with
    | nil => simp [hm] at h
    | cons s l =>
      rw [hm] at h
      simp only [Option.some.injEq] at h
      subst h
      have : s ∈ matching M r (setsOf events) := by rw [hm]; exact List.mem_cons_self
      unfold matching at this
      obtain ⟨h1, h2⟩ := List.mem_filter.mp this
      simp only [Bool.and_eq_true, decide_eq_true_eq] at h2
      exact ⟨hr, h2.1, (sin s h1).2⟩
  have trail : ∀ I ∈ trailingOf end_ (risesOf events) (setsOf events),
      (risesOf events).getLast? = some I.left ∧ I.left < end_ ∧ I.right = end_ := by
    intro I hI
    unfold trailingOf at hI
    cases hs : (risesOf events).getLast? with
    | none => simp [hs] at hI
    | some r =>
      rw [hs] at hI
      simp only at hI
      obtain ⟨hc, hI⟩ := List.mem_ite_nil_right.mp hI
      rw [List.mem_singleton] at hI
      subst hI
      rw [Bool.and_eq_true, decide_eq_true_eq] at hc
      exact ⟨rfl, hc.2, rfl⟩
  have ite_len : ∀ (c : Bool) (I : Interval), (if c = true then [I] else []).length ≤ 1 := by
    intro c I; cases c <;> simp
  have hlead1 : (leadingOf start (risesOf events) (setsOf events)).length ≤ 1 := by
    unfold leadingOf
    cases (setsOf events).head? with
    | none => simp
    | some s => exact ite_len _ _
  have htrail1 : (trailingOf end_ (risesOf events) (setsOf events)).length ≤ 1 := by
    unfold trailingOf
    cases (risesOf events).getLast? with
    | none => simp
    | some s => exact ite_len _ _
  have single : ∀ (l : List Interval), l.length ≤ 1 → l.Pairwise (fun I J => I.left ≤ J.left) := by
    intro l hl
    match l, hl with
    | [], _ => simp
    | [a], _ => simp
    | _ :: _ :: _, h => simp at h
  have hmpw : (matchedOf M (risesOf events) (setsOf events)).Pairwise (fun I J => I.left ≤ J.left) := by
    unfold matchedOf
    rw [List.pairwise_filterMap]
    refine rsorted.imp ?_
    intro a b hab I hI J hJ
    have ha : I.left = a := by
      cases hm : matching M a (setsOf events) with
      | nil => simp [hm] at hI
      | cons s l => rw [hm] at hI; simp only [Option.some.injEq] at hI; rw [← hI]
    have hb : J.left = b := by
      cases hm : matching M b (setsOf events) with
      | nil => simp [hm] at hJ
      | cons s l => rw [hm] at hJ; simp only [Option.some.injEq] at hJ; rw [← hJ]
    rw [ha, hb]; exact hab
  have hlast : ∀ r, (risesOf events).getLast? = some r → ∀ x ∈ risesOf events, x ≤ r := by
    intro r hr x hx
    obtain ⟨l, hl⟩ := List.getLast?_eq_some_iff.mp hr
    rw [hl] at hx rsorted
    rcases List.mem_append.mp hx with hx | hx
    · exact (List.pairwise_append.mp rsorted).2.2 x hx r (by simp)
    · rw [List.mem_singleton] at hx; exact hx.le
  rw [visibleIntervals_eq]
  split
  · refine ⟨?_, by simp⟩
    intro I hI
    rw [List.mem_singleton] at hI
    subst hI
    exact ⟨le_refl _, hse, le_refl _⟩
  · split
    · constructor
      · intro I hI
        rcases List.mem_append.mp hI with hI | hI
        · rcases List.mem_append.mp hI with hI | hI
          · obtain ⟨h1, h2, h3⟩ := lead I hI
            exact ⟨h1.ge, h1 ▸ h2, h3⟩
          · obtain ⟨h1, h2, h3⟩ := mat I hI
            exact ⟨(rin _ h1).1, h2, h3⟩
        · obtain ⟨h1, h2, h3⟩ := trail I hI
          exact ⟨(rin _ (List.mem_of_getLast? h1)).1, h3 ▸ h2, h3.le⟩
      · rw [List.pairwise_append, List.pairwise_append]
        refine ⟨⟨single _ hlead1, hmpw, ?_⟩, single _ htrail1, ?_⟩
        · intro I hI J hJ
          rw [(lead I hI).1]
          exact (rin _ (mat J hJ).1).1
        · intro I hI J hJ
          have hJ' := (trail J hJ).1
          rcases List.mem_append.mp hI with hI | hI
          · rw [(lead I hI).1]
            exact (rin _ (List.mem_of_getLast? hJ')).1
          · exact hlast _ hJ' _ (mat I hI).1
    · simp

/-- A malformed list: a duplicated rise, a missing set and a set without a rise. -/
example : visibleIntervals 0 100 30
    [(10, .rise), (12, .rise), (30, .set), (50, .set), (60, .rise)] =
    [⟨10, 30⟩, ⟨12, 30⟩, ⟨60, 100⟩] := by decide

end Tatc.Props
