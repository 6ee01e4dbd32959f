import Verif.Spec.Relax
import Verif.Props.TotalAccess
import Verif.Props.Collect
import Verif.Props.Latency

/-!
# C150: asking less of the instruments, or having more of them, loses no observation
-/

namespace Tatc.Props
open Tatc.Coverage Tatc.Spec Tatc.Pandas Tatc.Latency

theorem flatMap_sublist {α β γ : Type} {R : α → β → Prop} {f : α → List γ} {g : β → List γ} {l : List α} {l' : List β}
    (h : List.SublistForall₂ R l l') (hfg : ∀ a b, R a b → (f a).Sublist (g b)) :
    (l.flatMap f).Sublist (l'.flatMap g) := by
  induction h with
  | nil => simp
  | cons hr _ ih => simpa using (hfg _ _ hr).append ih
  | cons_right _ ih => simpa using ih.trans (List.sublist_append_right _ _)

theorem collect_sublist {r r' : InstrumentRun} (h : AsksLess r r') (hf : r.spec.fixed = false) (k : Int) (name : String) :
    (collectObservations k name r.spec r.valid r.periods).Sublist (collectObservations k name r'.spec r'.valid r'.periods) := by
  unfold collectObservations
  have e : observationRecord k name r'.spec = observationRecord k name r.spec := by
    funext p
    simp [observationRecord, h.name, h.kind, hf]
  rw [e, h.passes]
  refine List.Sublist.map _ (List.monotone_filter_right _ fun p hp => ?_)
  simp only [Bool.and_eq_true, decide_eq_true_eq] at hp ⊢
  exact ⟨by have := h.minimum; omega, h.tests p hp.2⟩

theorem collect_length {r r' : InstrumentRun} (h : AsksLess r r') (k : Int) (name : String) :
    (collectObservations k name r.spec r.valid r.periods).length ≤
      (collectObservations k name r'.spec r'.valid r'.periods).length := by
  unfold collectObservations
  rw [List.length_map, List.length_map, h.passes]
  refine (List.monotone_filter_right _ fun p hp => ?_).length_le
  simp only [Bool.and_eq_true, decide_eq_true_eq] at hp ⊢
  exact ⟨by have := h.minimum; omega, h.tests p hp.2⟩

/-- The frames of all instruments, one after another. -/
def allRows (k : Int) (satellites : List (List Member)) : List Obs :=
  satellites.flatMap fun c => c.flatMap fun m => m.instruments.flatMap fun r =>
    collectObservations k m.name r.spec r.valid r.periods

theorem collectMulti_perm {sort : SortValues Obs.start} {k : Int} {satellites : List (List Member)} {rows : List Obs}
    (h : collectMultiObservations sort k satellites = .ok rows) : rows.Perm (allRows k satellites) := by
  unfold collectMultiObservations at h
  simp only at h
  split_ifs at h
  cases h
  refine (sort.perm _).trans (List.Perm.of_eq ?_)
  unfold allRows
  simp only [List.flatten_eq_flatMap, List.flatMap_assoc, List.flatMap_map, id]

/-- **C150, rows.** No row is lost, nor one of several equal rows. -/
theorem C150_rows (sort sort' : SortValues Obs.start) (k : Int) (satellites satellites' : List (List Member))
    (rows rows' : List Obs) (h : collectMultiObservations sort k satellites = .ok rows)
    (h' : collectMultiObservations sort' k satellites' = .ok rows') (hk : KeepsSatellites satellites satellites')
    (hf : ∀ c ∈ satellites, ∀ m ∈ c, ∀ r ∈ m.instruments, r.spec.fixed = false) :
    rows.Subperm rows' := by
  have hs : (allRows k satellites).Sublist (allRows k satellites') := by
    -- carry the hypothesis on fixed access times through the nested lists
    have strengthen : ∀ {α β : Type} {R : α → β → Prop} {l : List α} {l' : List β}, List.SublistForall₂ R l l' →
        List.SublistForall₂ (fun a b => R a b ∧ a ∈ l) l l' := by
      intro α β R l l' hl
      obtain ⟨x, hx, hx'⟩ := List.sublistForall₂_iff.1 hl
      refine List.sublistForall₂_iff.2 ⟨x, ?_, hx'⟩
      rw [List.forall₂_iff_get] at hx ⊢
      exact ⟨hx.1, fun i h1 h2 => ⟨hx.2 i h1 h2, List.get_mem _ _⟩⟩
    refine flatMap_sublist (strengthen hk) ?_
    rintro c c' ⟨hc, hcm⟩
    refine flatMap_sublist (strengthen hc) ?_
    rintro m m' ⟨hm, hmm⟩
    refine flatMap_sublist (strengthen hm.instruments) ?_
    rintro r r' ⟨hr, hrm⟩
    rw [hm.name]
    exact collect_sublist hr (hf c hcm m hmm r hrm) k m.name
  exact ((collectMulti_perm h).subperm).trans (hs.subperm.trans (collectMulti_perm h').symm.subperm)

/-- **C150, number.** With fixed access times too, there are not fewer rows. -/
theorem C150_number (sort sort' : SortValues Obs.start) (k : Int) (satellites satellites' : List (List Member))
    (rows rows' : List Obs) (h : collectMultiObservations sort k satellites = .ok rows)
    (h' : collectMultiObservations sort' k satellites' = .ok rows') (hk : KeepsSatellites satellites satellites') :
    rows.length ≤ rows'.length := by
  rw [(collectMulti_perm h).length_eq, (collectMulti_perm h').length_eq]
  have step : ∀ {α β : Type} {R : α → β → Prop} {f : α → List Obs} {g : β → List Obs} {l : List α} {l' : List β},
      List.SublistForall₂ R l l' → (∀ a b, R a b → (f a).length ≤ (g b).length) →
      (l.flatMap f).length ≤ (l'.flatMap g).length := by
    intro α β R f g l l' hl hfg
    induction hl with
    | nil => simp
    | cons hr _ ih =>
      have := hfg _ _ hr
      simp only [List.flatMap_cons, List.length_append]; omega
    | cons_right _ ih => simp only [List.flatMap_cons, List.length_append]; omega
  refine step hk fun c c' hc => step hc fun m m' hm => step hm.instruments fun r r' hr => ?_
  rw [hm.name]
  exact collect_length hr k m.name

/-- **C150, total access.** The access times of a point do not add up to less. -/
theorem C150_total (sort sort' sort'' : SortValues Obs.start) (k : Int) (satellites satellites' : List (List Member))
    (rows rows' : List Obs) (h : collectMultiObservations sort k satellites = .ok rows)
    (h' : collectMultiObservations sort' k satellites' = .ok rows') (hk : KeepsSatellites satellites satellites')
    (hf : ∀ c ∈ satellites, ∀ m ∈ c, ∀ r ∈ m.instruments, r.spec.fixed = false)
    (hwf : ∀ o ∈ rows', o.start ≤ o.end_) (point : Int) :
    totalAccess (aggregateObservations sort'' rows) point ≤ totalAccess (aggregateObservations sort'' rows') point := by
  have hsub := (C150_rows sort sort' k satellites satellites' rows rows' h h' hk hf).subset
  rw [C96_total_access sort'' rows (fun o ho => hwf o (hsub ho)), C96_total_access sort'' rows' hwf]
  have ht : observedTicks rows point ⊆ observedTicks rows' point := fun t ⟨o, ho, ht⟩ => ⟨o, hsub ho, ht⟩
  exact_mod_cast Set.ncard_le_ncard ht (observedTicks_finite _ _)

theorem collectDownlinks_perm (sort : SortValues Downlink.start) (satellite : String)
    (stations : List (Station × List Interval)) : (collectDownlinks sort satellite stations).Perm
      (stations.flatMap fun sp =>
        (sp.2.filter fun p => decide (1000 * sp.1.minAccess ≤ p.right - p.left)).map fun p =>
          { station := sp.1.name, satellite := satellite, start := p.left, epoch := p.mid, end_ := p.right }) := by
  unfold collectDownlinks
  simp only
  split_ifs with h
  · exact sort.perm _
  · have e := List.eq_nil_of_length_eq_zero (Nat.eq_zero_of_not_pos h)
    rw [e]

/-- **C150, contacts.** Neither is a contact lost with more ground stations or shorter minimum access times. -/
theorem C150_contacts (sort sort' : SortValues Downlink.start) (satellite : String) (stations stations' : List (Station × List Interval))
    (hk : KeepsStations stations stations') :
    (collectDownlinks sort satellite stations).Subperm (collectDownlinks sort' satellite stations') := by
  refine (collectDownlinks_perm sort satellite stations).subperm.trans
    (List.Subperm.trans (List.Sublist.subperm ?_) (collectDownlinks_perm sort' satellite stations').symm.subperm)
  refine flatMap_sublist hk ?_
  rintro a b ⟨h1, h2, h3⟩
  rw [h1, h3]
  refine List.Sublist.map _ (List.monotone_filter_right _ fun p hp => ?_)
  simp only [decide_eq_true_eq] at hp ⊢
  omega

/-- **C150, delivery.** With satellites, instruments and ground stations kept and none asking more, every observation that was
delivered is observed and delivered, at a contact that does not start later. -/
theorem C150_delivery (sort sort' : SortValues Obs.start) (sortD sortD' : SortValues Downlink.start)
    (sortEnd : SortValues Obs.end_) (sortStart : SortValues Downlink.start) (sortObserved : SortValues LatRow.observed)
    (k : Int) (satellites satellites' : List (List Member)) (rows rows' : List Obs)
    (h : collectMultiObservations sort k satellites = .ok rows)
    (h' : collectMultiObservations sort' k satellites' = .ok rows') (hk : KeepsSatellites satellites satellites')
    (hf : ∀ c ∈ satellites, ∀ m ∈ c, ∀ r ∈ m.instruments, r.spec.fixed = false)
    (satellite : String) (stations stations' : List (Station × List Interval)) (hs : KeepsStations stations stations')
    (row : LatRow)
    (hrow : row ∈ computeLatencies sortEnd sortStart sortObserved rows (collectDownlinks sortD satellite stations))
    (hdel : row.downlinked ≠ none) :
    ∃ row' ∈ computeLatencies sortEnd sortStart sortObserved rows' (collectDownlinks sortD' satellite stations'),
      row'.obs = row.obs ∧ row'.downlinked ≠ none ∧
      ∃ d d', Earliest (collectDownlinks sortD satellite stations) row.obs d ∧ Reports row d ∧
        Earliest (collectDownlinks sortD' satellite stations') row'.obs d' ∧ Reports row' d' ∧ d'.start ≤ d.start := by
  have hsub := (C150_rows sort sort' k satellites satellites' rows rows' h h' hk hf).subset
  have hsubD := (C150_contacts sortD sortD' satellite stations stations' hs).subset
  -- the rows for the new observations and the old contacts
  have hne : collectDownlinks sortD satellite stations ≠ [] := by
    intro he
    rw [he] at hrow
    simp [computeLatencies] at hrow
  have hne' : collectDownlinks sortD' satellite stations' ≠ [] := by
    intro he
    obtain ⟨d, hd⟩ := List.exists_mem_of_ne_nil _ hne
    have := hsubD hd
    rw [he] at this; simp at this
  have ho : row.obs ∈ rows := by
    obtain ⟨o, ho, rfl⟩ := mem_computeLatencies sortEnd sortStart sortObserved hrow
    exact ho
  have all : ∀ (obs : List Obs) (ds : List Downlink), ds ≠ [] → ∀ o ∈ obs,
      ∃ r ∈ computeLatencies sortEnd sortStart sortObserved obs ds, r.obs = o := by
    intro obs ds hd o ho
    have hperm := (C12_earliest_downlink_partial sortEnd sortStart sortObserved obs ds hd).1
    have := hperm.mem_iff.2 ho
    obtain ⟨r, hr, e⟩ := List.mem_map.1 this
    exact ⟨r, hr, e⟩
  obtain ⟨row', hr', e'⟩ := all rows' _ hne' _ (hsub ho)
  obtain ⟨mid, hm, em⟩ := all rows' _ hne _ (hsub ho)
  -- the same row is found with the old contacts
  have emid : mid = row := by
    obtain ⟨o, -, rfl⟩ := mem_computeLatencies sortEnd sortStart sortObserved hrow
    obtain ⟨o', -, rfl⟩ := mem_computeLatencies sortEnd sortStart sortObserved hm
    have : o' = o := em
    rw [this]
  subst emid
  obtain ⟨g1, -, d, d', g3⟩ := C14_monotone sortEnd sortStart sortObserved rows' _ _ (fun d hd => hsubD hd) mid row' hm hr' e'.symm hdel
  exact ⟨row', hr', e', g1, d, d', g3⟩

/-- **C150 is false of the total access with fixed access times**: a minimum access time of 4 µs instead of 8 µs halves the
access. -/
theorem C150_fixed_false : ∃ (satellites satellites' : List (List Member)) (rows rows' : List Obs),
    collectMultiObservations (SortValues.insertion _) 1 satellites = .ok rows ∧
    collectMultiObservations (SortValues.insertion _) 1 satellites' = .ok rows' ∧ KeepsSatellites satellites satellites' ∧
    totalAccess (aggregateObservations (SortValues.insertion _) rows) 1 = 8000 ∧
    totalAccess (aggregateObservations (SortValues.insertion _) rows') 1 = 4000 := by
  refine ⟨[[⟨"a", [⟨⟨"x", 8, true⟩, fun _ => true, [⟨0, 20000⟩]⟩]⟩]], [[⟨"a", [⟨⟨"x", 4, true⟩, fun _ => true, [⟨0, 20000⟩]⟩]⟩]],
    _, _, rfl, rfl, ?_, by decide +kernel, by decide +kernel⟩
  exact .cons (.cons ⟨rfl, .cons ⟨rfl, rfl, by decide, fun _ h => h, rfl⟩ .nil⟩ .nil) .nil

/-- Hypotheses are met: half the minimum access time and another satellite. -/
example : KeepsSatellites [[⟨"a", [⟨⟨"x", 8, false⟩, fun _ => true, [⟨0, 20000⟩, ⟨30000, 36000⟩]⟩]⟩]]
    [[⟨"b", []⟩, ⟨"a", [⟨⟨"x", 4, false⟩, fun _ => true, [⟨0, 20000⟩, ⟨30000, 36000⟩]⟩]⟩]] :=
  .cons (.cons_right (.cons ⟨rfl, .cons ⟨rfl, rfl, by decide, fun _ h => h, rfl⟩ .nil⟩ .nil)) .nil

/-- The number of rows then grows from one to two. -/
example : (collectMultiObservations (SortValues.insertion _) 1
      [[⟨"a", [⟨⟨"x", 8, false⟩, fun _ => true, [⟨0, 20000⟩, ⟨30000, 36000⟩]⟩]⟩]]).map List.length = .ok 1 ∧
    (collectMultiObservations (SortValues.insertion _) 1
      [[⟨"a", [⟨⟨"x", 4, false⟩, fun _ => true, [⟨0, 20000⟩, ⟨30000, 36000⟩]⟩]⟩]]).map List.length = .ok 2 := by
  decide +kernel

example : KeepsStations [(⟨"g", 10⟩, [⟨0, 20000⟩])] [(⟨"f", 0⟩, []), (⟨"g", 5⟩, [⟨0, 20000⟩])] :=
  .cons_right (.cons ⟨rfl, by decide, rfl⟩ .nil)

end Tatc.Props
