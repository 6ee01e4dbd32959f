import Verif.Lemmas.Coverage

/-! Lemmas for `aggregate_observations`, all points together. -/

namespace Tatc.Coverage
open Tatc.Pandas Tatc.Spec

/-- The interval of an observation row. -/
def Obs.interval (o : Obs) : PInterval := ⟨o.pointId, o.start, o.end_⟩

/-- The overlap groups of the whole frame, before the metric columns. -/
def allGroups (sort : SortValues Obs.start) (obs : List Obs) : List (List Obs) :=
  (groupBy Obs.pointId obs).flatMap fun kg => overlapGroups (sort.run kg.2)

theorem aggregate_eq_flatMap (sort : SortValues Obs.start) (obs : List Obs) :
    aggregateObservations sort obs =
      (groupBy Obs.pointId obs).flatMap fun kg => aggregatePoint sort kg.2 := by
  unfold aggregateObservations
  split_ifs with h
  · rw [List.isEmpty_iff] at h; subst h; simp [groupBy_nil]
  · rfl

theorem aggregate_toObs (sort : SortValues Obs.start) (obs : List Obs) :
    (aggregateObservations sort obs).map (·.toObs) = (allGroups sort obs).map dissolveRow := by
  rw [aggregate_eq_flatMap]
  unfold allGroups
  rw [List.map_flatMap, List.map_flatMap]
  congr 1
  funext kg
  exact withMetrics_toObs _

/-- What is known of every group of the frame. -/
structure GroupOK (obs g : List Obs) : Prop where
  ne : g ≠ []
  sub : ∀ o ∈ g, o ∈ obs
  same : ∀ o ∈ g, ∀ o' ∈ g, o.pointId = o'.pointId
  sorted : g.Pairwise (fun a b => a.start ≤ b.start)
  conn : Connected g

theorem mem_allGroups {sort : SortValues Obs.start} {obs : List Obs} {g : List Obs}
    (hg : g ∈ allGroups sort obs) :
    ∃ k, (∃ a ∈ obs, a.pointId = k) ∧
      g ∈ overlapGroups (sort.run (obs.filter fun a => a.pointId = k)) := by
  unfold allGroups at hg
  rw [List.mem_flatMap] at hg
  obtain ⟨⟨k, l⟩, hkl, hg⟩ := hg
  obtain ⟨hk, rfl⟩ := mem_groupBy.mp hkl
  exact ⟨k, hk, hg⟩

theorem mem_group_of_point {sort : SortValues Obs.start} {obs : List Obs} {g : List Obs} {k : Int}
    (hg : g ∈ overlapGroups (sort.run (obs.filter fun a => a.pointId = k))) :
    ∀ o ∈ g, o ∈ obs ∧ o.pointId = k := by
  intro o ho
  have h1 : o ∈ (overlapGroups (sort.run (obs.filter fun a => a.pointId = k))).flatten :=
    List.mem_flatten.mpr ⟨g, hg, ho⟩
  rw [overlapGroups_flatten, (sort.perm _).mem_iff, List.mem_filter] at h1
  simpa using h1

theorem allGroups_ok (sort : SortValues Obs.start) (obs : List Obs) :
    ∀ g ∈ allGroups sort obs, GroupOK obs g := by
  intro g hg
  obtain ⟨k, hk, hg⟩ := mem_allGroups hg
  have hmem := mem_group_of_point hg
  refine ⟨overlapGroups_ne_nil _ g hg, fun o ho => (hmem o ho).1, ?_, ?_, ?_⟩
  · intro o ho o' ho'; rw [(hmem o ho).2, (hmem o' ho').2]
  · have h := sort.sorted (obs.filter fun a => a.pointId = k)
    have : g.Sublist (sort.run (obs.filter fun a => a.pointId = k)) := by
      conv_rhs => rw [← overlapGroups_flatten (sort.run _)]
      exact List.sublist_flatten_of_mem hg
    exact h.sublist this
  · exact overlapGroups_connected _ (sort.sorted _) g hg

theorem allGroups_perm (sort : SortValues Obs.start) (obs : List Obs) :
    (allGroups sort obs).flatten.Perm obs := by
  refine List.Perm.trans ?_ (groupBy_flatMap_perm Obs.pointId obs)
  unfold allGroups
  rw [List.flatten_eq_flatMap, List.flatMap_assoc]
  generalize groupBy Obs.pointId obs = l
  induction l with
  | nil => simp
  | cons a t ih =>
    rw [List.flatMap_cons, List.flatMap_cons]
    refine List.Perm.append ?_ ih
    have : (overlapGroups (sort.run a.2)).flatMap id = sort.run a.2 := by
      rw [← List.flatten_eq_flatMap, overlapGroups_flatten]
    rw [this]
    exact sort.perm a.2

theorem allGroups_separated (sort : SortValues Obs.start) (obs : List Obs) :
    (allGroups sort obs).Pairwise (fun g g' => ∀ o ∈ g, ∀ o' ∈ g',
      o.pointId < o'.pointId ∨ (o.pointId = o'.pointId ∧ o.end_ < o'.start)) := by
  unfold allGroups
  rw [List.pairwise_flatMap]
  constructor
  · intro ⟨k, l⟩ hkl
    obtain ⟨hk, rfl⟩ := mem_groupBy.mp hkl
    have h := overlapGroups_separated _ (sort.sorted (obs.filter fun a => a.pointId = k))
    refine h.imp_of_mem ?_
    intro g g' hg hg' hgg o ho o' ho'
    right
    exact ⟨by rw [(mem_group_of_point hg o ho).2, (mem_group_of_point hg' o' ho').2], hgg o ho o' ho'⟩
  · refine (groupBy_pairwise Obs.pointId obs).imp_of_mem ?_
    rintro ⟨k, l⟩ ⟨k', l'⟩ hkl hkl' hlt g hg g' hg' o ho o' ho'
    obtain ⟨_, rfl⟩ := mem_groupBy.mp hkl
    obtain ⟨_, rfl⟩ := mem_groupBy.mp hkl'
    left
    rw [(mem_group_of_point hg o ho).2, (mem_group_of_point hg' o' ho').2]
    exact hlt

/-! ### Facts about a dissolved row -/

theorem dissolveRow_pointId {g : List Obs} (h : ∀ o ∈ g, ∀ o' ∈ g, o.pointId = o'.pointId)
    {o : Obs} (ho : o ∈ g) : (dissolveRow g).pointId = o.pointId := by
  cases g with
  | nil => simp at ho
  | cons a t => exact h a List.mem_cons_self o ho

theorem dissolveRow_start_le {g : List Obs} {o : Obs} (ho : o ∈ g) :
    (dissolveRow g).start ≤ o.start :=
  colMin_le (List.mem_map_of_mem ho)

theorem le_dissolveRow_end {g : List Obs} {o : Obs} (ho : o ∈ g) :
    o.end_ ≤ (dissolveRow g).end_ :=
  le_colMax (List.mem_map_of_mem (f := fun x : Obs => x.end_) ho)

theorem dissolveRow_start_mem {g : List Obs} (h : g ≠ []) :
    ∃ o ∈ g, (dissolveRow g).start = o.start := by
  have := colMin_mem (l := g.map (·.start)) (by simpa using h)
  obtain ⟨o, ho, e⟩ := List.mem_map.mp this
  exact ⟨o, ho, e.symm⟩

theorem dissolveRow_end_mem {g : List Obs} (h : g ≠ []) :
    ∃ o ∈ g, (dissolveRow g).end_ = o.end_ := by
  have := colMax_mem (l := g.map (·.end_)) (by simpa using h)
  obtain ⟨o, ho, e⟩ := List.mem_map.mp this
  exact ⟨o, ho, e.symm⟩

/-! ### Components -/

theorem rows_isComponents (sort : SortValues Obs.start) (obs : List Obs)
    (hwf : ∀ o ∈ obs, o.start ≤ o.end_) :
    IsComponents (obs.map Obs.interval)
      (((allGroups sort obs).map dissolveRow).map Obs.interval) where
  nonempty := by
    intro r hr
    simp only [List.mem_map] at hr
    obtain ⟨_, ⟨g, hg, rfl⟩, rfl⟩ := hr
    have ok := allGroups_ok sort obs g hg
    obtain ⟨o, ho⟩ := List.exists_mem_of_ne_nil _ ok.ne
    exact (dissolveRow_start_le ho).trans ((hwf o (ok.sub o ho)).trans (le_dissolveRow_end ho))
  covered := by
    intro r hr t ht
    simp only [List.mem_map] at hr
    obtain ⟨_, ⟨g, hg, rfl⟩, rfl⟩ := hr
    have ok := allGroups_ok sort obs g hg
    obtain ⟨a, ha, ea⟩ := dissolveRow_start_mem ok.ne
    obtain ⟨b, hb, eb⟩ := dissolveRow_end_mem ok.ne
    obtain ⟨h1, h2⟩ := ht
    simp only [Obs.interval, ea, eb] at h1 h2
    obtain ⟨o, ho, h3, h4⟩ := ok.conn t ⟨a, ha, h1⟩ ⟨b, hb, h2⟩
    exact ⟨o.interval, List.mem_map_of_mem (ok.sub o ho),
      (dissolveRow_pointId ok.same ho).symm, h3, h4⟩
  covers := by
    intro i hi
    obtain ⟨o, ho, rfl⟩ := List.mem_map.mp hi
    have := (allGroups_perm sort obs).mem_iff.mpr ho
    obtain ⟨g, hg, hog⟩ := List.mem_flatten.mp this
    have ok := allGroups_ok sort obs g hg
    exact ⟨(dissolveRow g).interval, List.mem_map_of_mem (List.mem_map_of_mem hg),
      dissolveRow_pointId ok.same hog, dissolveRow_start_le hog, le_dissolveRow_end hog⟩
  separated := by
    rw [List.pairwise_map, List.pairwise_map]
    refine (allGroups_separated sort obs).imp_of_mem ?_
    intro g g' hg hg' h
    have ok := allGroups_ok sort obs g hg
    have ok' := allGroups_ok sort obs g' hg'
    obtain ⟨b, hb, eb⟩ := dissolveRow_end_mem ok.ne
    obtain ⟨a, ha, ea⟩ := dissolveRow_start_mem ok'.ne
    have := h b hb a ha
    simpa only [Obs.interval, dissolveRow_pointId ok.same hb, dissolveRow_pointId ok'.same ha, ea, eb]
      using this

/-- Components are determined by the set of observation intervals. -/
theorem isComponents_unique {obs obs' r₁ r₂ : List PInterval} (hobs : ∀ i, i ∈ obs ↔ i ∈ obs')
    (h₁ : IsComponents obs r₁) (h₂ : IsComponents obs' r₂) : r₁ = r₂ := by
  have key : ∀ {obs obs' r₁ r₂ : List PInterval}, (∀ i, i ∈ obs ↔ i ∈ obs') →
      IsComponents obs r₁ → IsComponents obs' r₂ → ∀ r ∈ r₁, ∀ r' ∈ r₂, r.point = r'.point →
      r'.start ≤ r.start → r.start ≤ r'.stop → r.stop ≤ r'.stop := by
    intro obs obs' r₁ r₂ hobs h₁ h₂ r hr r' hr' hp hs hle
    by_contra hlt
    push Not at hlt
    have ht : r.Contains ((r'.stop : ℚ) + 1 / 2) := by
      have a1 : (r.start : ℚ) ≤ r'.stop := by exact_mod_cast hle
      have a2 : (r'.stop : ℚ) + 1 ≤ r.stop := by exact_mod_cast hlt
      exact ⟨by linarith, by linarith⟩
    obtain ⟨o, ho, hop, ho1, ho2⟩ := h₁.covered r hr _ ht
    obtain ⟨q, hq, hqp, hq1, hq2⟩ := h₂.covers o ((hobs o).mp ho)
    have hq1' : q.start ≤ r'.stop := by
      have : (q.start : ℚ) ≤ (r'.stop : ℚ) + 1 / 2 := le_trans (by exact_mod_cast hq1) ho1
      have : (q.start : ℚ) < (r'.stop : ℚ) + 1 := by linarith
      have : q.start < r'.stop + 1 := by exact_mod_cast this
      omega
    have hq2' : r'.stop < q.stop := by
      have : (r'.stop : ℚ) + 1 / 2 ≤ (q.stop : ℚ) := le_trans ho2 (by exact_mod_cast hq2)
      have : (r'.stop : ℚ) < (q.stop : ℚ) := by linarith
      exact_mod_cast this
    have hne : q ≠ r' := by rintro rfl; exact lt_irrefl _ hq2'
    have hqr : q.point = r'.point := by rw [hqp, hop, hp]
    have hq0 := h₂.nonempty r' hr'
    have htri := h₂.separated
    have hcase : (q.stop < r'.start) ∨ (r'.stop < q.start) := by
      have hall := List.pairwise_iff_getElem.mp htri
      obtain ⟨i, hi, rfl⟩ := List.mem_iff_getElem.mp hq
      obtain ⟨j, hj, rfl⟩ := List.mem_iff_getElem.mp hr'
      rcases lt_trichotomy i j with hij | rfl | hij
      · rcases hall i j hi hj hij with h | ⟨_, h⟩
        · omega
        · exact Or.inl h
      · exact absurd rfl hne
      · rcases hall j i hj hi hij with h | ⟨_, h⟩
        · omega
        · exact Or.inr h
    omega
  have keyS : ∀ {obs obs' r₁ r₂ : List PInterval}, (∀ i, i ∈ obs ↔ i ∈ obs') →
      IsComponents obs r₁ → IsComponents obs' r₂ → ∀ r ∈ r₁, ∀ r' ∈ r₂, r.point = r'.point →
      r.start ≤ r'.stop → r'.stop ≤ r.stop → r'.start ≤ r.start := by
    intro obs obs' r₁ r₂ hobs h₁ h₂ r hr r' hr' hp hle hs
    by_contra hlt
    push Not at hlt
    have ht : r.Contains ((r'.start : ℚ) - 1 / 2) := by
      have a0 := h₂.nonempty r' hr'
      have a1 : (r.start : ℚ) + 1 ≤ r'.start := by exact_mod_cast hlt
      have a2 : (r'.start : ℚ) ≤ r.stop := by exact_mod_cast a0.trans hs
      exact ⟨by linarith, by linarith⟩
    obtain ⟨o, ho, hop, ho1, ho2⟩ := h₁.covered r hr _ ht
    obtain ⟨q, hq, hqp, hq1, hq2⟩ := h₂.covers o ((hobs o).mp ho)
    have hq1' : q.start < r'.start := by
      have : (q.start : ℚ) ≤ (r'.start : ℚ) - 1 / 2 := le_trans (by exact_mod_cast hq1) ho1
      have : (q.start : ℚ) < (r'.start : ℚ) := by linarith
      exact_mod_cast this
    have hq2' : r'.start ≤ q.stop := by
      have : (r'.start : ℚ) - 1 / 2 ≤ (q.stop : ℚ) := le_trans ho2 (by exact_mod_cast hq2)
      have : (r'.start : ℚ) < (q.stop : ℚ) + 1 := by linarith
      have : r'.start < q.stop + 1 := by exact_mod_cast this
      omega
    have hne : q ≠ r' := by rintro rfl; exact lt_irrefl _ hq1'
    have hqr : q.point = r'.point := by rw [hqp, hop, hp]
    have hq0 := h₂.nonempty r' hr'
    have hcase : (q.stop < r'.start) ∨ (r'.stop < q.start) := by
      have hall := List.pairwise_iff_getElem.mp h₂.separated
      obtain ⟨i, hi, rfl⟩ := List.mem_iff_getElem.mp hq
      obtain ⟨j, hj, rfl⟩ := List.mem_iff_getElem.mp hr'
      rcases lt_trichotomy i j with hij | rfl | hij
      · rcases hall i j hi hj hij with h | ⟨_, h⟩
        · omega
        · exact Or.inl h
      · exact absurd rfl hne
      · rcases hall j i hj hi hij with h | ⟨_, h⟩
        · omega
        · exact Or.inr h
    omega
  have sub : ∀ {obs obs' r₁ r₂ : List PInterval}, (∀ i, i ∈ obs ↔ i ∈ obs') →
      IsComponents obs r₁ → IsComponents obs' r₂ → ∀ r ∈ r₁, r ∈ r₂ := by
    intro obs obs' r₁ r₂ hobs h₁ h₂ r hr
    have h0 := h₁.nonempty r hr
    obtain ⟨o, ho, hop, ho1, ho2⟩ := h₁.covered r hr r.start ⟨le_refl _, by exact_mod_cast h0⟩
    obtain ⟨q, hq, hqp, hq1, hq2⟩ := h₂.covers o ((hobs o).mp ho)
    have ho1' : o.start ≤ r.start := by exact_mod_cast ho1
    have ho2' : r.start ≤ o.stop := by exact_mod_cast ho2
    have e1 : r.stop ≤ q.stop := key hobs h₁ h₂ r hr q hq (by rw [hqp, hop]) (by omega) (by omega)
    have hobs' : ∀ i, i ∈ obs' ↔ i ∈ obs := fun i => (hobs i).symm
    -- the component q starts no later than r; it cannot start earlier
    have e2 : r.start ≤ q.start :=
      keyS hobs' h₂ h₁ q hq r hr (by rw [hqp, hop]) (by omega) e1
    have e3 : q.stop ≤ r.stop := key hobs' h₂ h₁ q hq r hr (by rw [hqp, hop]) (by omega) (by omega)
    have : r = q := by
      cases r; cases q
      simp only [PInterval.mk.injEq] at *
      refine ⟨by rw [hqp, hop], by omega, by omega⟩
    exact this ▸ hq
  have hm : ∀ a, a ∈ r₁ ↔ a ∈ r₂ :=
    fun a => ⟨sub hobs h₁ h₂ a, sub (fun i => (hobs i).symm) h₂ h₁ a⟩
  let lt : PInterval → PInterval → Prop := fun r r' =>
    r.point < r'.point ∨ (r.point = r'.point ∧ r.stop < r'.start)
  have irr₁ : ∀ r ∈ r₁, ¬ lt r r := by
    intro r hr h
    have := h₁.nonempty r hr
    rcases h with h | ⟨_, h⟩ <;> omega
  have n₁ : r₁.Nodup := h₁.separated.imp_of_mem (fun {a b} ha _ h e => irr₁ a ha (by
    subst e; exact h))
  have irr₂ : ∀ r ∈ r₂, ¬ lt r r := by
    intro r hr h
    have := h₂.nonempty r hr
    rcases h with h | ⟨_, h⟩ <;> omega
  have n₂ : r₂.Nodup := h₂.separated.imp_of_mem (fun {a b} ha _ h e => irr₂ a ha (by
    subst e; exact h))
  refine ((List.perm_ext_iff_of_nodup n₁ n₂).mpr hm).eq_of_pairwise ?_ h₁.separated h₂.separated
  intro a b ha hb hab hba
  exfalso
  have e1 := h₁.nonempty a ha
  have e2 := h₂.nonempty b hb
  rcases hab with hab | ⟨p1, hab⟩ <;> rcases hba with hba | ⟨p2, hba⟩ <;> omega

/-! ### Metric columns over the whole frame -/

/-- The revisit value of a row after the row `prev`. -/
def revisitOf (prev : Option Obs) (r : Obs) : Option Int :=
  match prev with
  | none => none
  | some p => if p.pointId = r.pointId then some (r.start - p.end_) else none

/-- The metric columns as a recursion over all rows: `prev` is the previous row. -/
def metricsSeq : Option Obs → List Obs → List AggRow
  | _, [] => []
  | prev, r :: t =>
    { r with
      access := r.end_ - r.start
      revisit := revisitOf prev r }
      :: metricsSeq (some r) t

/-- The metric columns within one point. -/
def metricsFrom : Option Int → List Obs → List AggRow
  | _, [] => []
  | prev, r :: t =>
    { r with
      access := r.end_ - r.start
      revisit := prev.map (fun e => r.start - e) } :: metricsFrom (some r.end_) t

theorem withMetrics_eq (rows : List Obs) : withMetrics rows = metricsFrom none rows := by
  have aux : ∀ (t : List Obs) (e : Int),
      List.zipWith (fun (r : Obs) (prevEnd : Option Int) =>
        ({ r with access := r.end_ - r.start
                  revisit := prevEnd.map (fun e => r.start - e) } : AggRow)) t
        (((e :: t.map (·.end_)).dropLast).map some) = metricsFrom (some e) t := by
    intro t
    induction t with
    | nil => simp [metricsFrom]
    | cons o t ih =>
      intro e
      rw [List.map_cons, List.dropLast_cons_of_ne_nil (by simp), List.map_cons, List.zipWith_cons_cons,
        ih, metricsFrom]
  unfold withMetrics
  cases rows with
  | nil => simp [metricsFrom]
  | cons r t =>
    rw [List.map_cons, shift, List.zipWith_cons_cons, aux, metricsFrom]

theorem metricsSeq_append_other (k : Int) (rows rest : List Obs) (prev : Option Obs)
    (hk : ∀ r ∈ rows, r.pointId = k) (hprev : ∀ p ∈ prev, p.pointId = k) :
    metricsSeq prev (rows ++ rest) = metricsFrom (prev.map (·.end_)) rows ++
      metricsSeq (match rows.getLast? with | some x => some x | none => prev) rest := by
  induction rows generalizing prev with
  | nil => simp [metricsFrom]
  | cons r t ih =>
    have ih' := ih (some r) (fun a ha => hk a (List.mem_cons_of_mem _ ha))
      (by simpa using hk r List.mem_cons_self)
    rw [List.cons_append, metricsSeq, metricsFrom, ih', List.cons_append]
    congr 1
    · have : revisitOf prev r = (prev.map (·.end_)).map (fun e => r.start - e) := by
        cases prev with
        | none => rfl
        | some p =>
          have h1 := hprev p rfl
          have h2 := hk r List.mem_cons_self
          simp [revisitOf, h1, h2]
      rw [this]
    · cases t with
      | nil => simp
      | cons a t => simp [List.getLast?_cons]

theorem metricsSeq_other (prev : Option Obs) (rows : List Obs)
    (h : ∀ p ∈ prev, ∀ r ∈ rows.head?, p.pointId ≠ r.pointId) :
    metricsSeq prev rows = metricsSeq none rows := by
  cases rows with
  | nil => simp [metricsSeq]
  | cons r t =>
    cases prev with
    | none => rfl
    | some p =>
      have := h p rfl r rfl
      simp [metricsSeq, revisitOf, this]

/-- The result of `aggregate_observations` as one pass over the dissolved rows. -/
theorem aggregate_eq_metricsSeq (sort : SortValues Obs.start) (obs : List Obs) :
    aggregateObservations sort obs = metricsSeq none ((allGroups sort obs).map dissolveRow) := by
  rw [aggregate_eq_flatMap]
  unfold allGroups
  rw [List.map_flatMap]
  have hpw := groupBy_pairwise Obs.pointId obs
  have hmem : ∀ kg ∈ groupBy Obs.pointId obs, ∀ r ∈ (overlapGroups (sort.run kg.2)).map dissolveRow,
      r.pointId = kg.1 := by
    rintro ⟨k, l⟩ hkl r hr
    obtain ⟨_, rfl⟩ := mem_groupBy.mp hkl
    obtain ⟨g, hg, rfl⟩ := List.mem_map.mp hr
    have hm := mem_group_of_point hg
    obtain ⟨o, ho⟩ := List.exists_mem_of_ne_nil _ (overlapGroups_ne_nil _ g hg)
    rw [dissolveRow_pointId (fun a ha b hb => by rw [(hm a ha).2, (hm b hb).2]) ho, (hm o ho).2]
  generalize groupBy Obs.pointId obs = l at hpw hmem
  induction l with
  | nil => simp [metricsSeq]
  | cons a t ih =>
    rw [List.pairwise_cons] at hpw
    rw [List.flatMap_cons, List.flatMap_cons,
      metricsSeq_append_other a.1 _ _ none (hmem a List.mem_cons_self) (by simp),
      ih hpw.2 (fun kg hkg => hmem kg (List.mem_cons_of_mem _ hkg))]
    congr 1
    · unfold aggregatePoint; rw [withMetrics_eq]; rfl
    · symm
      apply metricsSeq_other
      intro p hp r hr
      have hp1 : p.pointId = a.1 := by
        cases hl : ((overlapGroups (sort.run a.2)).map dissolveRow).getLast? with
        | none => rw [hl] at hp; simp at hp
        | some x =>
          rw [hl] at hp
          simp only [Option.mem_def, Option.some.injEq] at hp
          subst hp
          exact hmem a List.mem_cons_self _ (List.mem_of_getLast? hl)
      have hr' : r ∈ t.flatMap fun kg => (overlapGroups (sort.run kg.2)).map dissolveRow :=
        List.mem_of_head? hr
      obtain ⟨b, hb, hrb⟩ := List.mem_flatMap.mp hr'
      have := hmem b (List.mem_cons_of_mem _ hb) r hrb
      have := hpw.1 b hb
      omega

theorem metricsSeq_split (rows : List Obs) (prev : Option Obs) (pre : List AggRow) (r : AggRow)
    (post : List AggRow) (h : metricsSeq prev rows = pre ++ r :: post) :
    r.access = r.end_ - r.start ∧
    r.revisit = revisitOf (match pre.getLast? with | some x => some x.toObs | none => prev) r.toObs := by
  induction rows generalizing prev pre with
  | nil => simp [metricsSeq] at h
  | cons a t ih =>
    rw [metricsSeq] at h
    cases pre with
    | nil =>
      rw [List.nil_append, List.cons.injEq] at h
      obtain ⟨rfl, _⟩ := h
      simp
    | cons b pre =>
      rw [List.cons_append, List.cons.injEq] at h
      obtain ⟨rfl, h⟩ := h
      have := ih (some a) pre h
      refine ⟨this.1, this.2.trans ?_⟩
      cases pre with
      | nil => simp
      | cons c pre => simp [List.getLast?_cons]

/-- The metric columns are determined by the intervals. -/
theorem metricsSeq_congr {β : Type} (f : Obs → β) (rows rows' : List Obs) (prev prev' : Option Obs)
    (h : rows.map (fun r => (r.interval, f r)) = rows'.map (fun r => (r.interval, f r)))
    (hp : prev.map Obs.interval = prev'.map Obs.interval) :
    (metricsSeq prev rows).map (fun r => (r.interval, f r.toObs, r.access, r.revisit)) =
    (metricsSeq prev' rows').map (fun r => (r.interval, f r.toObs, r.access, r.revisit)) := by
  induction rows generalizing rows' prev prev' with
  | nil =>
    cases rows' with
    | nil => rfl
    | cons => simp at h
  | cons a t ih =>
    cases rows' with
    | nil => simp at h
    | cons a' t' =>
      rw [List.map_cons, List.map_cons, List.cons.injEq, Prod.mk.injEq] at h
      obtain ⟨⟨h1, h2⟩, h3⟩ := h
      rw [metricsSeq, metricsSeq, List.map_cons, List.map_cons,
        ih t' (some a) (some a') h3 (by simp [h1])]
      congr 1
      simp only [Obs.interval, PInterval.mk.injEq] at h1
      obtain ⟨e1, e2, e3⟩ := h1
      cases prev with
      | none =>
        cases prev' with
        | none => simp [revisitOf, Obs.interval, e1, e2, e3, h2]
        | some => simp at hp
      | some p =>
        cases prev' with
        | none => simp at hp
        | some p' =>
          simp only [Option.map_some, Option.some.injEq, Obs.interval, PInterval.mk.injEq] at hp
          obtain ⟨p1, p2, p3⟩ := hp
          simp [revisitOf, Obs.interval, e1, e2, e3, h2, p1, p3]

/-- The observations of a row are exactly those of its point inside its interval. -/
theorem group_perm_filter (sort : SortValues Obs.start) (obs : List Obs)
    (hwf : ∀ o ∈ obs, o.start ≤ o.end_) (g : List Obs) (hg : g ∈ allGroups sort obs) :
    g.Perm (obs.filter fun o => o.pointId = (dissolveRow g).pointId ∧
      (dissolveRow g).start ≤ o.start ∧ o.end_ ≤ (dissolveRow g).end_) := by
  have ok := allGroups_ok sort obs g hg
  set p : Obs → Bool := fun o => decide (o.pointId = (dissolveRow g).pointId ∧
      (dissolveRow g).start ≤ o.start ∧ o.end_ ≤ (dissolveRow g).end_) with hp
  obtain ⟨pre, post, hsplit⟩ := List.append_of_mem hg
  have hperm := (allGroups_perm sort obs).filter p
  have hsep := allGroups_separated sort obs
  rw [hsplit] at hperm hsep
  rw [List.flatten_append, List.flatten_cons, List.filter_append, List.filter_append] at hperm
  obtain ⟨e, he, ee⟩ := dissolveRow_end_mem ok.ne
  obtain ⟨a, ha, ea⟩ := dissolveRow_start_mem ok.ne
  have hsub : ∀ g' ∈ pre ++ g :: post, ∀ o ∈ g', o ∈ obs := by
    intro g' hg' o ho
    exact (allGroups_ok sort obs g' (hsplit ▸ hg')).sub o ho
  have f1 : g.filter p = g := by
    rw [List.filter_eq_self]
    intro o ho
    simp only [hp, decide_eq_true_eq]
    exact ⟨(dissolveRow_pointId ok.same ho).symm, dissolveRow_start_le ho, le_dissolveRow_end ho⟩
  rw [List.pairwise_append] at hsep
  have f0 : pre.flatten.filter p = [] := by
    rw [List.filter_eq_nil_iff]
    intro o ho
    obtain ⟨g', hg', ho'⟩ := List.mem_flatten.mp ho
    simp only [hp, decide_eq_true_eq]
    rintro ⟨h1, h2, h3⟩
    have h4 := hsep.2.2 g' hg' g List.mem_cons_self o ho' a ha
    have h5 := hwf o (hsub g' (List.mem_append_left _ hg') o ho')
    rw [dissolveRow_pointId ok.same ha] at h1
    rw [ea] at h2
    rcases h4 with h4 | ⟨_, h4⟩ <;> omega
  have f2 : post.flatten.filter p = [] := by
    rw [List.filter_eq_nil_iff]
    intro o ho
    obtain ⟨g', hg', ho'⟩ := List.mem_flatten.mp ho
    simp only [hp, decide_eq_true_eq]
    rintro ⟨h1, h2, h3⟩
    have h4 := (List.pairwise_cons.mp hsep.2.1).1 g' hg' e he o ho'
    have h5 := hwf o (hsub g' (List.mem_append_right _ (List.mem_cons_of_mem _ hg')) o ho')
    rw [dissolveRow_pointId ok.same he] at h1
    rw [ee] at h3
    rcases h4 with h4 | ⟨_, h4⟩ <;> omega
  rw [f0, f1, f2, List.nil_append, List.append_nil] at hperm
  exact hperm

end Tatc.Coverage

namespace Tatc.Coverage
open Tatc.Pandas Tatc.Spec

/-! ### Telescoping sums -/

/-- Access plus revisit time of some rows. -/
def metricSum (rows : List AggRow) : Int :=
  (rows.map (·.access)).sum + (rows.filterMap (·.revisit)).sum

theorem metricSum_cons (r : AggRow) (t : List AggRow) :
    metricSum (r :: t) = r.access + r.revisit.getD 0 + metricSum t := by
  unfold metricSum
  cases h : r.revisit with
  | none => simp [h]; omega
  | some v => simp [h]; omega

theorem metricsSeq_filter_toObs (k : Int) (rows : List Obs) (prev : Option Obs) :
    ((metricsSeq prev rows).filter fun r => r.pointId = k).map (·.toObs) =
      rows.filter fun r => r.pointId = k := by
  induction rows generalizing prev with
  | nil => rfl
  | cons a t ih =>
    rw [metricsSeq, List.filter_cons, List.filter_cons]
    split_ifs <;> simp [ih]

theorem metricSum_after (k : Int) (rows : List Obs) (p : Obs) (hp : p.pointId = k)
    (hs : (p :: rows).Pairwise (fun a b => a.pointId ≤ b.pointId)) :
    metricSum ((metricsSeq (some p) rows).filter fun r => r.pointId = k) =
      (match (rows.filter fun r => r.pointId = k).getLast? with
        | some x => x.end_
        | none => p.end_) - p.end_ := by
  induction rows generalizing p with
  | nil => simp [metricsSeq, metricSum]
  | cons a t ih =>
    rw [List.pairwise_cons] at hs
    by_cases ha : a.pointId = k
    · rw [metricsSeq, List.filter_cons_of_pos (by simpa using ha),
        List.filter_cons_of_pos (by simpa using ha), metricSum_cons, ih a ha hs.2]
      simp only [revisitOf, hp, ha, if_true, Option.getD_some, List.getLast?_cons]
      cases (t.filter fun r => decide (r.pointId = k)).getLast? <;> simp
    · have hgt : ∀ b ∈ a :: t, b.pointId ≠ k := by
        intro b hb
        have h1 := hs.1 a List.mem_cons_self
        have h2 : a.pointId ≤ b.pointId := by
          rcases List.mem_cons.mp hb with rfl | hb
          · exact le_refl _
          · exact (List.pairwise_cons.mp hs.2).1 b hb
        omega
      have e1 : (a :: t).filter (fun r => decide (r.pointId = k)) = [] := by
        rw [List.filter_eq_nil_iff]; intro b hb; simpa using hgt b hb
      have e2 : (metricsSeq (some p) (a :: t)).filter (fun r => decide (r.pointId = k)) = [] := by
        have := metricsSeq_filter_toObs k (a :: t) (some p)
        rw [e1] at this
        exact List.map_eq_nil_iff.mp this
      rw [e1, e2]; simp [metricSum]

theorem metricSum_before (k : Int) (rows : List Obs) (prev : Option Obs)
    (hp : ∀ p ∈ prev, p.pointId ≠ k)
    (hs : rows.Pairwise (fun a b => a.pointId ≤ b.pointId)) (first last : Obs)
    (hf : (rows.filter fun r => r.pointId = k).head? = some first)
    (hl : (rows.filter fun r => r.pointId = k).getLast? = some last) :
    metricSum ((metricsSeq prev rows).filter fun r => r.pointId = k) = last.end_ - first.start := by
  induction rows generalizing prev with
  | nil => simp at hf
  | cons a t ih =>
    by_cases ha : a.pointId = k
    · rw [List.filter_cons_of_pos (by simpa using ha)] at hf hl
      rw [List.head?_cons, Option.some.injEq] at hf
      subst hf
      rw [metricsSeq, List.filter_cons_of_pos (by simpa using ha), metricSum_cons,
        metricSum_after k t a ha hs]
      have hr : revisitOf prev a = none := by
        cases prev with
        | none => rfl
        | some p =>
          have := hp p rfl
          simp only [revisitOf]
          rw [if_neg (by rw [ha]; exact this)]
      simp only [hr, Option.getD_none]
      rw [List.getLast?_cons, Option.some.injEq] at hl
      cases h : (t.filter fun r => decide (r.pointId = k)).getLast? with
      | none => rw [h] at hl; simp at hl; subst hl; simp
      | some x => rw [h] at hl; simp at hl; subst hl; simp
    · rw [List.filter_cons_of_neg (by simpa using ha)] at hf hl
      rw [metricsSeq, List.filter_cons_of_neg (by simpa using ha)]
      exact ih (some a) (by simpa using ha) (List.pairwise_cons.mp hs).2 hf hl

end Tatc.Coverage
