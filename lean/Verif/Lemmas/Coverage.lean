import Verif.Model.Coverage
import Verif.Lemmas.Pandas
import Verif.Spec.Coverage

/-! Lemmas for `aggregate_observations`. -/

namespace Tatc.Coverage
open Tatc.Pandas

/-! ### The label column as a recursion over the sorted rows -/

/-- Labels of the rows after the first: `k` is the current label, `m` the running maximum
of the ends seen so far. -/
def labelsAux : Nat → Int → List Obs → List Nat
  | _, _, [] => []
  | k, m, o :: t =>
    let k' := if m < o.start then k + 1 else k
    k' :: labelsAux k' (max m o.end_) t

theorem labelsAux_length (k : Nat) (m : Int) (t : List Obs) : (labelsAux k m t).length = t.length := by
  induction t generalizing k m with
  | nil => rfl
  | cons o t ih => simp [labelsAux, ih]

theorem labels_aux_eq (t : List Obs) (e : Int) (acc : Option Int) (k : Nat) :
    cumsumFrom k (List.zipWith gtNaT (t.map (·.start))
      (cummaxFrom acc (((e :: t.map (·.end_)).dropLast).map some))) =
    labelsAux k (match acc with | none => e | some a => max a e) t := by
  induction t generalizing e acc k with
  | nil => simp [labelsAux, cumsumFrom]
  | cons o t ih =>
    rw [List.map_cons, List.map_cons, List.dropLast_cons_of_ne_nil (by simp), List.map_cons]
    cases acc with
    | none =>
      simp only [cummaxFrom, List.zipWith_cons_cons, cumsumFrom, labelsAux, gtNaT, decide_eq_true_eq]
      rw [ih]
    | some a =>
      simp only [cummaxFrom, List.zipWith_cons_cons, cumsumFrom, labelsAux, gtNaT, decide_eq_true_eq]
      rw [ih]

theorem overlapLabels_cons (o : Obs) (t : List Obs) :
    overlapLabels (o :: t) = 0 :: labelsAux 0 o.end_ t := by
  unfold overlapLabels cumsum cummax
  rw [List.map_cons, List.map_cons]
  simp only [shift, cummaxFrom, List.zipWith_cons_cons, gtNaT, cumsumFrom]
  congr 1
  exact labels_aux_eq t o.end_ none 0

theorem labelsAux_ge (k : Nat) (m : Int) (t : List Obs) : ∀ n ∈ labelsAux k m t, k ≤ n := by
  induction t generalizing k m with
  | nil => simp [labelsAux]
  | cons o t ih =>
    intro n hn
    simp only [labelsAux, List.mem_cons] at hn
    rcases hn with rfl | hn
    · split_ifs <;> omega
    · have := ih _ _ n hn
      split_ifs at this <;> omega

/-! ### Groups as maximal runs -/

/-- Groups of the sorted rows: `cur` is the group being built, `m` the running maximum of
all ends so far. -/
def runs : Int → List Obs → List Obs → List (List Obs)
  | _, cur, [] => [cur]
  | m, cur, o :: t =>
    if m < o.start then cur :: runs (max m o.end_) [o] t
    else runs (max m o.end_) (cur ++ [o]) t

theorem groupBy_labels_eq (t : List Obs) (k : Nat) (m : Int) (cur : List Obs) (hcur : cur ≠ []) :
    (groupBy Prod.fst (cur.map (fun o => (k, o)) ++ (labelsAux k m t).zip t)).map
      (fun kg => kg.2.map Prod.snd) = runs m cur t := by
  induction t generalizing k m cur with
  | nil =>
    have h := groupBy_append_of_lt (key := (Prod.fst : Nat × Obs → Nat)) (l₁ := cur.map (fun o => (k, o)))
      (l₂ := []) (k := k) (by simpa using hcur) (by simp) (by simp)
    simp only [labelsAux, List.zip_nil_right, runs]
    rw [h]
    simp [groupBy_nil, Function.comp_def]
  | cons o t ih =>
    by_cases hlt : m < o.start
    · simp only [labelsAux, runs, hlt, if_true, List.zip_cons_cons]
      have h := groupBy_append_of_lt (key := (Prod.fst : Nat × Obs → Nat)) (l₁ := cur.map (fun o => (k, o)))
        (l₂ := (k + 1, o) :: (labelsAux (k + 1) (max m o.end_) t).zip t) (k := k)
        (by simpa using hcur) (by simp) (by
          intro b hb
          rcases List.mem_cons.mp hb with rfl | hb
          · exact Nat.lt_succ_self k
          · obtain ⟨n, b⟩ := b
            have := labelsAux_ge _ _ _ n (List.of_mem_zip hb).1
            exact this)
      rw [h, List.map_cons]
      congr 1
      · simp [Function.comp_def]
      · have := ih (k + 1) (max m o.end_) [o] (by simp)
        simpa using this
    · simp only [labelsAux, runs, hlt, if_false, List.zip_cons_cons]
      have := ih k (max m o.end_) (cur ++ [o]) (by simp)
      rw [← this]
      simp

theorem overlapGroups_cons (o : Obs) (t : List Obs) :
    overlapGroups (o :: t) = runs o.end_ [o] t := by
  unfold overlapGroups
  rw [overlapLabels_cons]
  have := groupBy_labels_eq t 0 o.end_ [o] (by simp)
  simpa using this

theorem overlapGroups_nil : overlapGroups [] = [] := by
  simp [overlapGroups, groupBy_nil]

theorem runs_flatten (t : List Obs) (m : Int) (cur : List Obs) :
    (runs m cur t).flatten = cur ++ t := by
  induction t generalizing m cur with
  | nil => simp [runs]
  | cons o t ih =>
    unfold runs
    split_ifs <;> simp [ih]

theorem overlapGroups_flatten (s : List Obs) : (overlapGroups s).flatten = s := by
  cases s with
  | nil => simp [overlapGroups_nil]
  | cons o t => rw [overlapGroups_cons, runs_flatten]; rfl

theorem runs_ne_nil (t : List Obs) (m : Int) (cur : List Obs) (hcur : cur ≠ []) :
    ∀ g ∈ runs m cur t, g ≠ [] := by
  induction t generalizing m cur with
  | nil => simp [runs, hcur]
  | cons o t ih =>
    unfold runs
    split_ifs
    · intro g hg
      rcases List.mem_cons.mp hg with rfl | hg
      · exact hcur
      · exact ih _ _ (by simp) g hg
    · exact ih _ _ (by simp)

theorem overlapGroups_ne_nil (s : List Obs) : ∀ g ∈ overlapGroups s, g ≠ [] := by
  cases s with
  | nil => simp [overlapGroups_nil]
  | cons o t => rw [overlapGroups_cons]; exact runs_ne_nil _ _ _ (by simp)

/-- Earlier groups end strictly before later groups start. -/
theorem runs_separated (t : List Obs) (m : Int) (cur : List Obs)
    (hm : ∀ o ∈ cur, o.end_ ≤ m) (hs : t.Pairwise (fun a b => a.start ≤ b.start)) :
    (runs m cur t).Pairwise (fun g g' => ∀ o ∈ g, ∀ o' ∈ g', o.end_ < o'.start) := by
  induction t generalizing m cur with
  | nil => simp [runs]
  | cons o t ih =>
    rw [List.pairwise_cons] at hs
    unfold runs
    split_ifs with hlt
    · rw [List.pairwise_cons]
      constructor
      · intro g hg a ha b hb
        have hmem : b ∈ (runs (max m o.end_) [o] t).flatten := List.mem_flatten.mpr ⟨g, hg, hb⟩
        rw [runs_flatten] at hmem
        have h1 : o.start ≤ b.start := by
          simp only [List.cons_append, List.nil_append, List.mem_cons] at hmem
          rcases hmem with rfl | h
          · exact le_refl _
          · exact hs.1 b h
        have h2 := hm a ha
        omega
      · apply ih
        · intro a ha
          rw [List.mem_singleton] at ha; subst ha; exact le_max_right _ _
        · exact hs.2
    · apply ih
      · intro a ha
        rcases List.mem_append.mp ha with ha | ha
        · exact (hm a ha).trans (le_max_left _ _)
        · rw [List.mem_singleton] at ha; subst ha; exact le_max_right _ _
      · exact hs.2

theorem overlapGroups_separated (s : List Obs) (hs : s.Pairwise (fun a b => a.start ≤ b.start)) :
    (overlapGroups s).Pairwise (fun g g' => ∀ o ∈ g, ∀ o' ∈ g', o.end_ < o'.start) := by
  cases s with
  | nil => simp [overlapGroups_nil]
  | cons o t =>
    rw [overlapGroups_cons]
    rw [List.pairwise_cons] at hs
    exact runs_separated _ _ _ (by simp) hs.2

/-- Every instant between the first start and the running maximum is covered. -/
def Connected (cur : List Obs) : Prop :=
  ∀ t : ℚ, (∃ a ∈ cur, (a.start : ℚ) ≤ t) → (∃ b ∈ cur, t ≤ (b.end_ : ℚ)) →
    ∃ o ∈ cur, (o.start : ℚ) ≤ t ∧ t ≤ (o.end_ : ℚ)

theorem runs_connected (t : List Obs) (m : Int) (cur : List Obs)
    (hcur : cur ≠ []) (hm : ∀ a ∈ cur, a.end_ ≤ m)
    (hall : ∀ o ∈ t, ∀ a ∈ cur, a.start ≤ o.start)
    (hs : t.Pairwise (fun a b => a.start ≤ b.start))
    (hmax : ∃ b ∈ cur, m = b.end_ ∨ ∀ o ∈ t, m < o.start)
    (hconn : Connected cur) :
    ∀ g ∈ runs m cur t, Connected g := by
  induction t generalizing m cur with
  | nil => simpa [runs] using hconn
  | cons o t ih =>
    rw [List.pairwise_cons] at hs
    unfold runs
    split_ifs with hlt
    · intro g hg
      rcases List.mem_cons.mp hg with rfl | hg
      · exact hconn
      · refine ih (max m o.end_) [o] (by simp) (by simp) ?_ hs.2 ?_ ?_ g hg
        · intro a ha b hb
          rw [List.mem_singleton] at hb; subst hb
          exact hs.1 a ha
        · refine ⟨o, by simp, ?_⟩
          by_cases h : m ≤ o.end_
          · left; exact max_eq_right h
          · right
            intro a ha
            have := hs.1 a ha
            rw [max_eq_left (by omega)]
            omega
        · intro t ⟨a, ha, h1⟩ ⟨b, hb, h2⟩
          rw [List.mem_singleton] at ha hb
          subst ha; subst hb
          exact ⟨_, List.mem_singleton.mpr rfl, h1, h2⟩
    · obtain ⟨b, hb, hbm⟩ := hmax
      have hbm : m = b.end_ := by
        rcases hbm with h | h
        · exact h
        · exact absurd (h o List.mem_cons_self) hlt
      apply ih (max m o.end_) (cur ++ [o]) (by simp)
      · intro a ha
        rcases List.mem_append.mp ha with ha | ha
        · exact (hm a ha).trans (le_max_left _ _)
        · rw [List.mem_singleton] at ha; subst ha; exact le_max_right _ _
      · intro a ha c hc
        rcases List.mem_append.mp hc with hc | hc
        · exact hall a (List.mem_cons_of_mem _ ha) c hc
        · rw [List.mem_singleton] at hc; subst hc; exact hs.1 a ha
      · exact hs.2
      · rcases max_choice m o.end_ with h | h
        · exact ⟨b, List.mem_append_left _ hb, Or.inl (h.trans hbm)⟩
        · exact ⟨o, by simp, Or.inl h⟩
      · intro t ⟨a, ha, h1⟩ ⟨c, hc, h2⟩
        have hstart : ∃ a ∈ cur, (a.start : ℚ) ≤ t := by
          rcases List.mem_append.mp ha with ha | ha
          · exact ⟨a, ha, h1⟩
          · rw [List.mem_singleton] at ha; subst ha
            have := hall a List.mem_cons_self b hb
            exact ⟨b, hb, le_trans (by exact_mod_cast this) h1⟩
        by_cases htb : t ≤ (b.end_ : ℚ)
        · obtain ⟨x, hx, h3, h4⟩ := hconn t hstart ⟨b, hb, htb⟩
          exact ⟨x, List.mem_append_left _ hx, h3, h4⟩
        · push Not at htb
          rcases List.mem_append.mp hc with hc | hc
          · exfalso
            have := hm c hc
            rw [hbm] at this
            have h5 : (c.end_ : ℚ) ≤ (b.end_ : ℚ) := by exact_mod_cast this
            linarith
          · rw [List.mem_singleton] at hc; subst hc
            refine ⟨c, by simp, ?_, h2⟩
            have h5 : c.start ≤ b.end_ := by omega
            have h6 : (c.start : ℚ) ≤ (b.end_ : ℚ) := by exact_mod_cast h5
            linarith

theorem overlapGroups_connected (s : List Obs) (hs : s.Pairwise (fun a b => a.start ≤ b.start)) :
    ∀ g ∈ overlapGroups s, Connected g := by
  cases s with
  | nil => simp [overlapGroups_nil]
  | cons o t =>
    rw [overlapGroups_cons]
    rw [List.pairwise_cons] at hs
    refine runs_connected t o.end_ [o] (by simp) (by simp) ?_ hs.2 ⟨o, by simp, Or.inl rfl⟩ ?_
    · intro a ha b hb
      rw [List.mem_singleton] at hb; subst hb
      exact hs.1 a ha
    · intro t ⟨a, ha, h1⟩ ⟨b, hb, h2⟩
      rw [List.mem_singleton] at ha hb
      subst ha; subst hb
      exact ⟨_, List.mem_singleton.mpr rfl, h1, h2⟩

/-! ### The metric columns -/

theorem withMetrics_toObs (rows : List Obs) : (withMetrics rows).map (·.toObs) = rows := by
  unfold withMetrics
  have : ∀ (l : List Obs) (p : List (Option Int)), l.length ≤ p.length →
      (List.zipWith (fun (r : Obs) (prevEnd : Option Int) =>
        ({ r with access := r.end_ - r.start
                  revisit := prevEnd.map (fun e => r.start - e) } : AggRow)) l p).map (·.toObs) = l := by
    intro l
    induction l with
    | nil => simp
    | cons a t ih =>
      intro p hp
      cases p with
      | nil => simp at hp
      | cons b p => simp [ih p (by simpa using hp)]
  apply this
  cases rows <;> simp [shift]

end Tatc.Coverage
