import Mathlib.Data.Set.Card
import Mathlib.Data.Set.Finite.Lattice
import Mathlib.Order.Interval.Finset.Defs
import Mathlib.Data.Int.Interval
import Verif.Props.Reduce

/-!
# C96, C97: total access time, and the longest revisit time
-/

namespace Tatc.Props
open Tatc.Pandas Tatc.Coverage Tatc.Spec

/-- The ticks (from `t` to `t + 1`) during which the point is observed. -/
def observedTicks (obs : List Obs) (k : Int) : Set Int :=
  {t | ∃ o ∈ obs, o.pointId = k ∧ o.start ≤ t ∧ t + 1 ≤ o.end_}

/-- The access times of a point in an aggregated frame, added up. -/
def totalAccess (rows : List AggRow) (k : Int) : Int :=
  ((rows.filter fun r => r.pointId = k).map (·.access)).sum

theorem observedTicks_finite (obs : List Obs) (k : Int) : (observedTicks obs k).Finite := by
  have : observedTicks obs k ⊆ ⋃ o ∈ obs.toFinset, (Finset.Ico o.start o.end_ : Set Int) := by
    rintro t ⟨o, ho, -, h1, h2⟩
    simp only [Set.mem_iUnion, Finset.mem_coe, Finset.mem_Ico, List.mem_toFinset]
    exact ⟨o, ho, h1, by omega⟩
  exact Set.Finite.subset (Set.Finite.biUnion (Finset.finite_toSet _) fun o _ => Finset.finite_toSet _) this

/-- The lengths of separate intervals add up to the number of ticks in them. -/
theorem ticks_separate : ∀ l : List (Int × Int), (∀ i ∈ l, i.1 ≤ i.2) → l.Pairwise (fun i j => i.2 < j.1) →
    ((({t | ∃ i ∈ l, i.1 ≤ t ∧ t + 1 ≤ i.2} : Set Int).ncard : ℕ) : ℤ) = (l.map fun i => i.2 - i.1).sum
  | [], _, _ => by simp
  | i :: l, hl, hp => by
    have hp' := List.pairwise_cons.mp hp
    have ih := ticks_separate l (fun j hj => hl j (List.mem_cons_of_mem _ hj)) hp'.2
    have hu : ({t | ∃ j ∈ i :: l, j.1 ≤ t ∧ t + 1 ≤ j.2} : Set Int) =
        (Finset.Ico i.1 i.2 : Set Int) ∪ {t | ∃ j ∈ l, j.1 ≤ t ∧ t + 1 ≤ j.2} := by
      ext t
      simp only [List.mem_cons, exists_eq_or_imp, Set.mem_ofPred_eq, Set.mem_union, Finset.mem_coe, Finset.mem_Ico]
      constructor
      · rintro (⟨h1, h2⟩ | h)
        · exact .inl ⟨h1, by omega⟩
        · exact .inr h
      · rintro (⟨h1, h2⟩ | h)
        · exact .inl ⟨h1, by omega⟩
        · exact .inr h
    have hfin : ({t | ∃ j ∈ l, j.1 ≤ t ∧ t + 1 ≤ j.2} : Set Int).Finite := by
      have : ({t | ∃ j ∈ l, j.1 ≤ t ∧ t + 1 ≤ j.2} : Set Int) ⊆ ⋃ j ∈ l.toFinset, (Finset.Ico j.1 j.2 : Set Int) := by
        rintro t ⟨j, hj, h1, h2⟩
        simp only [Set.mem_iUnion, Finset.mem_coe, Finset.mem_Ico, List.mem_toFinset]
        exact ⟨j, hj, h1, by omega⟩
      exact Set.Finite.subset (Set.Finite.biUnion (Finset.finite_toSet _) fun o _ => Finset.finite_toSet _) this
    rw [hu, Set.ncard_union_eq _ (Finset.finite_toSet _) hfin, Set.ncard_coe_finset, Int.card_Ico, List.map_cons,
      List.sum_cons, ← ih]
    · have := hl i (List.mem_cons_self ..)
      push_cast
      omega
    · rw [Set.disjoint_left]
      rintro t ht ⟨j, hj, h1, -⟩
      simp only [Finset.mem_coe, Finset.mem_Ico] at ht
      have := hp'.1 j hj
      omega

/-- **C96.** The access times of a point in the aggregated frame add up to the time during which at
least one observation of the point is in progress. -/
theorem C96_total_access (sort : SortValues Obs.start) (obs : List Obs) (hwf : ∀ o ∈ obs, o.start ≤ o.end_) (k : Int) :
    totalAccess (aggregateObservations sort obs) k = (observedTicks obs k).ncard := by
  have hc := C01_components sort obs hwf
  have hacc := (C03_access_revisit sort obs hwf).1
  set rows := aggregateObservations sort obs with hrows
  have hsep := hc.separated
  rw [List.pairwise_map] at hsep
  have hticks : observedTicks obs k =
      {t | ∃ i ∈ (rows.filter fun r => r.pointId = k).map fun r => (r.start, r.end_), i.1 ≤ t ∧ t + 1 ≤ i.2} := by
    ext t
    constructor
    · rintro ⟨o, ho, hk, h1, h2⟩
      obtain ⟨_, hr0, hp, hs, he⟩ := hc.covers _ (List.mem_map_of_mem (f := fun o : Obs =>
        (⟨o.pointId, o.start, o.end_⟩ : PInterval)) ho)
      obtain ⟨r, hr, rfl⟩ := List.mem_map.mp hr0
      simp only at hp hs he
      refine ⟨_, List.mem_map_of_mem (List.mem_filter.mpr ⟨hr, by simp [hp, hk]⟩), ?_, ?_⟩ <;> simp only <;> omega
    · rintro ⟨_, hi, h1, h2⟩
      obtain ⟨r, hr, rfl⟩ := List.mem_map.mp hi
      obtain ⟨hr, hk⟩ := List.mem_filter.mp hr
      simp only at h1 h2
      obtain ⟨_, ho0, hp, h3, h4⟩ := hc.covered _ (List.mem_map_of_mem (f := fun r : AggRow =>
        (⟨r.pointId, r.start, r.end_⟩ : PInterval)) hr) (t + 1 / 2) (by
          constructor
          · have : (r.start : ℚ) ≤ t := by exact_mod_cast h1
            simp only
            linarith
          · have : (t : ℚ) + 1 ≤ r.end_ := by exact_mod_cast h2
            simp only
            linarith)
      obtain ⟨o, ho, rfl⟩ := List.mem_map.mp ho0
      simp only [decide_eq_true_eq] at hp hk h3 h4
      refine ⟨o, ho, by omega, ?_, ?_⟩
      · have : (o.start : ℚ) < (t + 1 : ℤ) := by push_cast; linarith
        have : o.start < t + 1 := by exact_mod_cast this
        omega
      · have : (t : ℚ) < (o.end_ : ℤ) := by linarith
        have : t < o.end_ := by exact_mod_cast this
        omega
  rw [hticks, ticks_separate]
  · unfold totalAccess
    rw [List.map_map]
    congr 1
    apply List.map_congr_left
    intro r hr
    exact (hacc r (List.mem_filter.mp hr).1).1
  · intro i hi
    obtain ⟨r, hr, rfl⟩ := List.mem_map.mp hi
    exact hc.nonempty _ (List.mem_map_of_mem (f := fun r : AggRow =>
        (⟨r.pointId, r.start, r.end_⟩ : PInterval)) (List.mem_filter.mp hr).1)
  · rw [List.pairwise_map]
    refine (hsep.filter _).imp_of_mem ?_
    intro a b ha hb h
    have h1 := (List.mem_filter.mp ha).2
    have h2 := (List.mem_filter.mp hb).2
    simp only [decide_eq_true_eq] at h1 h2 h ⊢
    omega

/-- **C96, monotone.** More observations never shorten the total access time of a point, and no total is longer than
the sum of the totals of the two frames. -/
theorem C96_monotone (sort sort' : SortValues Obs.start) (obs more : List Obs)
    (hwf : ∀ o ∈ obs, o.start ≤ o.end_) (hwf' : ∀ o ∈ more, o.start ≤ o.end_) (k : Int) :
    totalAccess (aggregateObservations sort obs) k ≤ totalAccess (aggregateObservations sort' (obs ++ more)) k ∧
    totalAccess (aggregateObservations sort' (obs ++ more)) k ≤
      totalAccess (aggregateObservations sort obs) k + totalAccess (aggregateObservations sort more) k := by
  have hw : ∀ o ∈ obs ++ more, o.start ≤ o.end_ := fun o ho => (List.mem_append.mp ho).elim (hwf o) (hwf' o)
  rw [C96_total_access sort obs hwf, C96_total_access sort' _ hw, C96_total_access sort more hwf']
  have hu : observedTicks (obs ++ more) k = observedTicks obs k ∪ observedTicks more k := by
    ext t
    simp only [observedTicks, List.mem_append, Set.mem_union, Set.mem_ofPred_eq, or_and_right, exists_or]
  constructor
  · exact_mod_cast Set.ncard_le_ncard (by rw [hu]; exact Set.subset_union_left) (observedTicks_finite _ _)
  · rw [hu]
    exact_mod_cast Set.ncard_union_le _ _

/-- **C96, bounded.** Within a window of time no point is accessed for longer than the window. -/
theorem C96_bounded (sort : SortValues Obs.start) (obs : List Obs) (hwf : ∀ o ∈ obs, o.start ≤ o.end_) (a b k : Int)
    (hab : a ≤ b) (hin : ∀ o ∈ obs, a ≤ o.start ∧ o.end_ ≤ b) :
    0 ≤ totalAccess (aggregateObservations sort obs) k ∧
      totalAccess (aggregateObservations sort obs) k ≤ b - a := by
  rw [C96_total_access sort obs hwf]
  refine ⟨by positivity, ?_⟩
  have : observedTicks obs k ⊆ (Finset.Ico a b : Set Int) := by
    rintro t ⟨o, ho, -, h1, h2⟩
    have := hin o ho
    simp only [Finset.mem_coe, Finset.mem_Ico]
    omega
  have h := Set.ncard_le_ncard this (Finset.finite_toSet _)
  rw [Set.ncard_coe_finset, Int.card_Ico] at h
  omega

/-- **C96, reduced.** In the reduced frame, samples times mean access (microseconds) is the observed time (nanoseconds)
to within half a microsecond per sample. -/
theorem C96_reduced (sort : SortValues Obs.start) (obs : List Obs) (hwf : ∀ o ∈ obs, o.start ≤ o.end_) :
    ∀ s ∈ reduceObservations (aggregateObservations sort obs),
      |(s.samples : ℚ) * (s.access * 1000) - (observedTicks obs s.pointId).ncard| ≤ 500 * s.samples := by
  intro s hs
  obtain ⟨h1, h2, h3, -⟩ := (C06_reduce (aggregateObservations sort obs)).2.2.2 s hs
  have ht := C96_total_access sort obs hwf s.pointId
  unfold totalAccess at ht
  have hsum : (((aggregateObservations sort obs).filter fun r => r.pointId = s.pointId).map
      fun r => (r.access : ℚ)).sum = ((observedTicks obs s.pointId).ncard : ℚ) := by
    have := congrArg (fun x : ℤ => (x : ℚ)) ht
    simp only [Int.cast_natCast] at this
    rw [← this]
    generalize (aggregateObservations sort obs).filter (fun r => decide (r.pointId = s.pointId)) = l
    induction l with
    | nil => simp
    | cons x l ih => simp [ih]
  rw [hsum, ← h1] at h3
  have hpos : (0 : ℚ) < s.samples := by exact_mod_cast h2
  have e : (s.samples : ℚ) * (s.access * 1000) - (observedTicks obs s.pointId).ncard =
      s.samples * (s.access * 1000 - (observedTicks obs s.pointId).ncard / s.samples) := by field_simp
  rw [e, abs_mul, abs_of_pos hpos]
  nlinarith

/-- The hypotheses hold of a frame with overlapping and separate rows, whose first point is observed 11 ticks. -/
example : (∀ o ∈ sampleObs, (0 : Int) ≤ o.start ∧ o.end_ ≤ 20) ∧
    totalAccess (aggregateObservations (SortValues.insertion _) sampleObs) 1 = 11 := by
  decide +kernel

/-- Two observations in a row without one in between. -/
theorem adjacent_of_switch {α : Type} (P : α → Prop) : ∀ l : List α, (∃ x ∈ l, P x) → (∃ y ∈ l, ¬ P y) →
    l.Pairwise (fun x y => P y → P x) → ∃ pre p r post, l = pre ++ p :: r :: post ∧ P p ∧ ¬ P r
  | [], h, _, _ => by simp at h
  | [a], ⟨x, hx, hpx⟩, ⟨y, hy, hpy⟩, _ => by
    simp only [List.mem_singleton] at hx hy
    subst hx; subst hy
    exact absurd hpx hpy
  | a :: b :: l, hx, hy, hp => by
    have hp' := List.pairwise_cons.mp hp
    have ha : P a := by
      obtain ⟨x, hx, hpx⟩ := hx
      rcases List.mem_cons.mp hx with rfl | hx
      · exact hpx
      · exact hp'.1 x hx hpx
    by_cases hb : P b
    · obtain ⟨pre, p, r, post, he, h1, h2⟩ := adjacent_of_switch P (b :: l) ⟨b, List.mem_cons_self .., hb⟩ (by
        obtain ⟨y, hy, hpy⟩ := hy
        rcases List.mem_cons.mp hy with rfl | hy
        · exact absurd ha hpy
        · exact ⟨y, hy, hpy⟩) hp'.2
      exact ⟨a :: pre, p, r, post, by rw [he]; rfl, h1, h2⟩
    · exact ⟨[], a, b, l, rfl, ha, hb⟩

/-- A period without observations, between two observations of the point, lies in a revisit time. -/
theorem gap_in_revisit (sort : SortValues Obs.start) (obs : List Obs) (hwf : ∀ o ∈ obs, o.start ≤ o.end_)
    (k a b : Int) (hab : a < b) (hgap : ∀ o ∈ obs, o.pointId = k → o.end_ ≤ a ∨ b ≤ o.start)
    (hbefore : ∃ o ∈ obs, o.pointId = k ∧ o.end_ ≤ a) (hafter : ∃ o ∈ obs, o.pointId = k ∧ b ≤ o.start) :
    ∃ r ∈ aggregateObservations sort obs, r.pointId = k ∧ ∃ v, r.revisit = some v ∧ b - a ≤ v := by
  have hc := C01_components sort obs hwf
  have hrev := (C03_access_revisit sort obs hwf).2.2.1
  set rows := aggregateObservations sort obs with hrows
  have hsep := hc.separated
  rw [List.pairwise_map] at hsep
  -- rows do not meet the gap
  have hrow : ∀ r ∈ rows, r.pointId = k → r.end_ ≤ a ∨ b ≤ r.start := by
    intro r hr hk
    by_contra hcon
    push Not at hcon
    have hne := hc.nonempty _ (List.mem_map_of_mem (f := fun r : AggRow =>
        (⟨r.pointId, r.start, r.end_⟩ : PInterval)) hr)
    simp only at hne
    -- an instant of the row inside the gap
    have hex : ∃ t : ℚ, (r.start : ℚ) ≤ t ∧ t ≤ r.end_ ∧ (a : ℚ) < t ∧ t < b := by
      have h1 : (a : ℚ) < b := by exact_mod_cast hab
      have h2 : (r.start : ℚ) < b := by exact_mod_cast hcon.2
      have h3 : (a : ℚ) < r.end_ := by exact_mod_cast hcon.1
      have h4 : (r.start : ℚ) ≤ r.end_ := by exact_mod_cast hne
      rcases le_total (r.start : ℚ) a with h | h
      · rcases le_total (r.end_ : ℚ) b with h' | h'
        · exact ⟨(a + r.end_) / 2, by linarith, by linarith, by linarith, by linarith⟩
        · exact ⟨(a + b) / 2, by linarith, by linarith, by linarith, by linarith⟩
      · rcases lt_or_eq_of_le h with h | h
        · exact ⟨r.start, le_rfl, h4, h, h2⟩
        · rcases le_total (r.end_ : ℚ) b with h' | h'
          · exact ⟨(a + r.end_) / 2, by linarith, by linarith, by linarith, by linarith⟩
          · exact ⟨(a + b) / 2, by linarith, by linarith, by linarith, by linarith⟩
    obtain ⟨t, t1, t2, t3, t4⟩ := hex
    obtain ⟨_, ho0, hp, h3, h4⟩ := hc.covered _ (List.mem_map_of_mem (f := fun r : AggRow =>
        (⟨r.pointId, r.start, r.end_⟩ : PInterval)) hr) t ⟨t1, t2⟩
    obtain ⟨o, ho, rfl⟩ := List.mem_map.mp ho0
    simp only at hp h3 h4
    rcases hgap o ho (by omega) with h | h
    · have : (o.end_ : ℚ) ≤ a := by exact_mod_cast h
      linarith
    · have : (b : ℚ) ≤ o.start := by exact_mod_cast h
      linarith
  have hin : ∀ o ∈ obs, o.pointId = k → ∃ r ∈ rows, r.pointId = k ∧ r.start ≤ o.start ∧ o.end_ ≤ r.end_ := by
    intro o ho hk
    obtain ⟨_, hr0, hp, hs, he⟩ := hc.covers _ (List.mem_map_of_mem (f := fun o : Obs =>
        (⟨o.pointId, o.start, o.end_⟩ : PInterval)) ho)
    obtain ⟨r, hr, rfl⟩ := List.mem_map.mp hr0
    exact ⟨r, hr, by simp only at hp; omega, hs, he⟩
  obtain ⟨ob, hob, hkb, hb⟩ := hbefore
  obtain ⟨oa, hoa, hka, ha⟩ := hafter
  obtain ⟨rb, hrb, hkrb, sb, eb⟩ := hin ob hob hkb
  obtain ⟨ra, hra, hkra, sa, ea⟩ := hin oa hoa hka
  have hwb := hwf ob hob
  have hwa := hwf oa hoa
  have hrb' : rb.end_ ≤ a := by rcases hrow rb hrb hkrb with h | h <;> omega
  have hra' : b ≤ ra.start := by rcases hrow ra hra hkra with h | h <;> omega
  have hne : ∀ r ∈ rows, r.start ≤ r.end_ := fun r hr => hc.nonempty _ (List.mem_map_of_mem (f := fun r : AggRow =>
        (⟨r.pointId, r.start, r.end_⟩ : PInterval)) hr)
  obtain ⟨pre, p, r, post, he, hp, hr⟩ := adjacent_of_switch
    (fun r : AggRow => r.pointId < k ∨ (r.pointId = k ∧ r.end_ ≤ a)) rows ⟨rb, hrb, .inr ⟨hkrb, hrb'⟩⟩
    ⟨ra, hra, by have := hne ra hra; omega⟩ (by
      refine hsep.imp_of_mem ?_
      intro x y hx hy h hP
      have := hne y hy
      simp only at h
      omega)
  have hmp : p ∈ rows := by rw [he]; simp
  have hmr : r ∈ rows := by rw [he]; simp
  have hp' := hsep
  rw [he] at hp'
  obtain ⟨hpre, hpost, hcross⟩ := List.pairwise_append.mp hp'
  obtain ⟨hpr, hpost2⟩ := List.pairwise_cons.mp hpost
  obtain ⟨hrp, -⟩ := List.pairwise_cons.mp hpost2
  -- the point of `p` is `k`: `rb` is not after `p`
  have hpk : p.pointId = k := by
    rw [he] at hrb
    rcases List.mem_append.mp hrb with h | h
    · have := hcross rb h p (List.mem_cons_self ..)
      simp only at this
      omega
    · rcases List.mem_cons.mp h with rfl | h
      · exact hkrb
      · rcases List.mem_cons.mp h with rfl | h
        · exact absurd (.inr ⟨hkrb, hrb'⟩) hr
        · have hx := hrp rb h
          simp only at hx
          have := hne rb (by rw [he]; simp [h])
          have := hne r hmr
          omega
  have hrk : r.pointId = k := by
    have h1 := hpr r (List.mem_cons_self ..)
    simp only at h1
    rw [he] at hra
    rcases List.mem_append.mp hra with h | h
    · have := hcross ra h p (List.mem_cons_self ..)
      simp only at this
      have := hne ra (by rw [he]; simp [h])
      have := hne p hmp
      omega
    · rcases List.mem_cons.mp h with rfl | h
      · have := hne ra hmp
        omega
      · rcases List.mem_cons.mp h with rfl | h
        · exact hkra
        · have := hrp ra h
          simp only at this
          omega
  obtain ⟨v, hv, hv1, -⟩ := (hrev pre p r post he).2 (by omega)
  refine ⟨r, hmr, hrk, v, hv, ?_⟩
  have := hrow r hmr hrk
  omega

/-- **C97** (partial: between observations that were there before).  A revisit time of a point after adding
observations is no longer than some revisit time before, if the point was observed before and after it.  (Missing:
gaps before the first or after the last observation, see `C97_outside_false`; the mean, see `C97_mean_false`.) -/
theorem C97_longest_partial (sort sort' : SortValues Obs.start) (obs more : List Obs)
    (hwf : ∀ o ∈ obs, o.start ≤ o.end_) (hwf' : ∀ o ∈ more, o.start ≤ o.end_)
    (r' : AggRow) (hr' : r' ∈ aggregateObservations sort' (obs ++ more)) (v' : Int) (hv' : r'.revisit = some v')
    (hbefore : ∃ o ∈ obs, o.pointId = r'.pointId ∧ o.end_ ≤ r'.start - v')
    (hafter : ∃ o ∈ obs, o.pointId = r'.pointId ∧ r'.start ≤ o.start) :
    ∃ r ∈ aggregateObservations sort obs, r.pointId = r'.pointId ∧ ∃ v, r.revisit = some v ∧ v' ≤ v := by
  have hw : ∀ o ∈ obs ++ more, o.start ≤ o.end_ := fun o ho => (List.mem_append.mp ho).elim (hwf o) (hwf' o)
  have hc := C01_components sort' _ hw
  obtain ⟨-, hfirst, hnext, -⟩ := C03_access_revisit sort' _ hw
  obtain ⟨pre, post, he⟩ := List.append_of_mem hr'
  rcases List.eq_nil_or_concat pre with rfl | ⟨pre, p, rfl⟩
  · rw [hfirst r' post he] at hv'
    simp at hv'
  · rw [List.concat_eq_append, List.append_assoc] at he
    obtain ⟨h1, h2⟩ := hnext pre p r' post he
    have hk : p.pointId = r'.pointId := by
      by_contra hcon
      rw [h1 hcon] at hv'
      simp at hv'
    obtain ⟨v, e1, e2, e3⟩ := h2 hk
    obtain rfl : v = v' := by rw [hv'] at e1; injection e1 with e1; exact e1.symm
    have hsep := hc.separated
    rw [List.pairwise_map, he] at hsep
    obtain ⟨-, hpost, hcross⟩ := List.pairwise_append.mp hsep
    obtain ⟨hpr, hpost2⟩ := List.pairwise_cons.mp hpost
    obtain ⟨hrp, -⟩ := List.pairwise_cons.mp hpost2
    -- no observation in the gap
    have hgap : ∀ o ∈ obs, o.pointId = r'.pointId → o.end_ ≤ p.end_ ∨ r'.start ≤ o.start := by
      intro o ho hko
      obtain ⟨_, hq0, hp, hs, hE⟩ := hc.covers _ (List.mem_map_of_mem (f := fun o : Obs =>
        (⟨o.pointId, o.start, o.end_⟩ : PInterval)) (List.mem_append_left more ho))
      obtain ⟨q, hq, rfl⟩ := List.mem_map.mp hq0
      simp only at hp hs hE
      rw [he] at hq
      have hne : ∀ r ∈ aggregateObservations sort' (obs ++ more), r.start ≤ r.end_ := fun r hr =>
        hc.nonempty _ (List.mem_map_of_mem (f := fun r : AggRow =>
          (⟨r.pointId, r.start, r.end_⟩ : PInterval)) hr)
      have hpne := hne p (by rw [he]; simp)
      have hrne := hne r' (by rw [he]; simp)
      rcases List.mem_append.mp hq with h | h
      · have := hcross q h p (List.mem_cons_self ..)
        simp only at this
        omega
      · rcases List.mem_cons.mp h with rfl | h
        · omega
        · rcases List.mem_cons.mp h with rfl | h
          · omega
          · have := hrp q h
            simp only at this
            omega
    have hd : r'.start - v = p.end_ := by omega
    rw [hd] at hbefore
    obtain ⟨r, hr, hkr, w, hw1, hw2⟩ := gap_in_revisit sort obs hwf r'.pointId p.end_ r'.start (by omega) hgap
      hbefore hafter
    exact ⟨r, hr, hkr, w, hw1, by omega⟩

/-- The longest revisit time of a point in an aggregated frame, or nothing. -/
def longestRevisit (rows : List AggRow) (k : Int) : Option Int :=
  ((rows.filter fun r => r.pointId = k).filterMap (·.revisit)).max?

/-- A frame of one point with the given intervals. -/
def pointFrame (l : List (Int × Int)) : List Obs := l.map fun p => ⟨1, "A", "i", p.1, p.1, p.2⟩

/-- The hypotheses of `C97_longest_partial` hold: an observation splits a revisit time. -/
example : (aggregateObservations (SortValues.insertion _) (pointFrame [(0, 10), (90, 100)] ++ pointFrame [(30, 40)])).map
    (·.revisit) = [none, some 20, some 50] := by decide +kernel

/-- **C97 is false** beyond the observations there were: one more, long after, adds a long revisit time. -/
theorem C97_outside_false : ∃ obs more : List Obs, (∀ o ∈ obs ++ more, o.start ≤ o.end_) ∧
    longestRevisit (aggregateObservations (SortValues.insertion _) obs) 1 = some 10 ∧
    longestRevisit (aggregateObservations (SortValues.insertion _) (obs ++ more)) 1 = some 70 :=
  ⟨pointFrame [(0, 10), (20, 30)], pointFrame [(100, 101)], by decide +kernel⟩

/-- **C97 is false of the reported mean revisit time**: covering the shorter of two gaps, between the first and the
last observation, makes the mean longer (microseconds; ticks are nanoseconds). -/
theorem C97_mean_false : ∃ obs more : List Obs, (∀ o ∈ obs ++ more, o.start ≤ o.end_) ∧
    (∀ o ∈ more, ∃ a ∈ obs, ∃ b ∈ obs, a.pointId = o.pointId ∧ b.pointId = o.pointId ∧
      a.start ≤ o.start ∧ o.end_ ≤ b.end_) ∧
    (reduceObservations (aggregateObservations (SortValues.insertion _) obs)).map (·.revisit) = [some 50] ∧
    (reduceObservations (aggregateObservations (SortValues.insertion _) (obs ++ more))).map (·.revisit) = [some 90] :=
  ⟨pointFrame [(0, 10000), (20000, 30000), (120000, 130000)], pointFrame [(5000, 25000)], by decide +kernel⟩

end Tatc.Props
