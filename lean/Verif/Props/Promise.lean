import Verif.Props.SameTimes
import Verif.Props.TotalAccess

/-!
# C157: how often a point is seen and how soon its observations arrive

What a user reads from the revisit and latency columns, stated with the observed instants and with the contacts alone:
revisits are at most `T` exactly if every period of length `T` includes an instant at which the point is observed, and
if a contact begins within `W` of the end of an observation its latency is bounded by `W`.
-/

namespace Tatc.Props

open Tatc.Pandas Tatc.Spec Tatc.Coverage Tatc.Latency

/-- Between the first and the last time at which the point is observed, every period of length `T` includes an instant
at which it is observed. -/
def SeenEvery (obs : List Obs) (k : Int) (T : ℚ) : Prop :=
  ∀ t : ℚ, (∃ t₀ ≤ t, ObservedAt obs k t₀) → (∃ t₁ ≥ t + T, ObservedAt obs k t₁) →
    ∃ t', t ≤ t' ∧ t' ≤ t + T ∧ ObservedAt obs k t'

/-- The row before a row with a revisit. -/
theorem revisit_prev (sort : SortValues Obs.start) (obs : List Obs) (hwf : ∀ o ∈ obs, o.start ≤ o.end_) (r : AggRow)
    (hr : r ∈ aggregateObservations sort obs) (v : Int) (hv : r.revisit = some v) :
    ∃ pre p post, aggregateObservations sort obs = pre ++ p :: r :: post ∧ p.pointId = r.pointId ∧ v = r.start - p.end_ := by
  obtain ⟨-, hfirst, hrev, -⟩ := C03_access_revisit sort obs hwf
  obtain ⟨pre, post, he⟩ := List.append_of_mem hr
  rcases List.eq_nil_or_concat pre with rfl | ⟨pre', p, rfl⟩
  · have := hfirst r post he
    rw [hv] at this
    exact absurd this (by simp)
  · rw [List.concat_eq_append, List.append_assoc] at he
    have h := hrev pre' p r post he
    by_cases hp : p.pointId = r.pointId
    · obtain ⟨v', h1, h2, -⟩ := h.2 hp
      rw [hv] at h1
      exact ⟨pre', p, post, he, hp, by rw [Option.some.inj h1]; exact h2⟩
    · have := h.1 hp
      rw [hv] at this
      exact absurd this (by simp)

/-- **C157, revisit.** No revisit of a point is longer than `T` exactly if, between the first and the last time at which it
is observed, every period of length `T` includes an instant at which it is observed. -/
theorem C157_revisit (sort : SortValues Obs.start) (obs : List Obs) (hwf : ∀ o ∈ obs, o.start ≤ o.end_) (k T : Int)
    (hT : 0 ≤ T) :
    (∀ r ∈ aggregateObservations sort obs, r.pointId = k → ∀ v, r.revisit = some v → v ≤ T) ↔ SeenEvery obs k T := by
  have hTq : (0 : ℚ) ≤ T := by exact_mod_cast hT
  constructor
  · rintro hall t ⟨t₀, ht₀, o₀, ho₀, hk₀, h1, h2⟩ ⟨t₁, ht₁, o₁, ho₁, hk₁, h3, h4⟩
    by_contra hno
    have hgap : ∀ o ∈ obs, o.pointId = k → (o.end_ : ℚ) < t ∨ t + T < o.start := by
      intro o ho hk
      by_contra hcon
      push Not at hcon
      have hw : (o.start : ℚ) ≤ o.end_ := by exact_mod_cast hwf o ho
      refine hno ⟨max t o.start, le_max_left _ _, max_le (by linarith) hcon.2, o, ho, hk, le_max_right _ _,
        max_le hcon.1 hw⟩
    have hlow : ∀ n : Int, (n : ℚ) < t → n ≤ ⌈t⌉ - 1 := by
      intro n hn
      have := Int.lt_ceil.mpr hn
      omega
    have hup : ∀ n : Int, t + T < (n : ℚ) → ⌊t + T⌋ + 1 ≤ n := by
      intro n hn
      have := Int.floor_lt.mpr hn
      omega
    have ha : ((⌈t⌉ - 1 : Int) : ℚ) < t := by
      have := Int.ceil_lt_add_one t
      push_cast
      linarith
    have hb : t + T < ((⌊t + T⌋ + 1 : Int) : ℚ) := by
      have := Int.lt_floor_add_one (t + (T : ℚ))
      push_cast
      linarith
    have hba : ⌈t⌉ - 1 + T < ⌊t + T⌋ + 1 := by
      have : ((⌈t⌉ - 1 + T : Int) : ℚ) < ((⌊t + T⌋ + 1 : Int) : ℚ) := by
        push_cast at ha hb ⊢
        linarith
      exact_mod_cast this
    obtain ⟨r, hr, hk, v, hv, hle⟩ := gap_in_revisit sort obs hwf k (⌈t⌉ - 1) (⌊t + T⌋ + 1) (by omega)
      (by
        intro o ho hk
        rcases hgap o ho hk with h | h
        · exact .inl (hlow _ h)
        · exact .inr (hup _ h))
      ⟨o₀, ho₀, hk₀, by
        rcases hgap o₀ ho₀ hk₀ with h | h
        · exact hlow _ h
        · exfalso; linarith⟩
      ⟨o₁, ho₁, hk₁, by
        rcases hgap o₁ ho₁ hk₁ with h | h
        · exfalso; linarith
        · exact hup _ h⟩
    have := hall r hr hk v hv
    omega
  · intro hseen r hr hk v hv
    by_contra hlt
    push Not at hlt
    obtain ⟨pre, p, post, he, hpk, hval⟩ := revisit_prev sort obs hwf r hr v hv
    have hc := C01_components sort obs hwf
    have hsep := hc.separated
    rw [List.pairwise_map] at hsep
    have hne : ∀ r ∈ aggregateObservations sort obs, r.start ≤ r.end_ := fun r hr =>
      hc.nonempty _ (List.mem_map_of_mem (f := fun r : AggRow => (⟨r.pointId, r.start, r.end_⟩ : PInterval)) hr)
    have hp : p ∈ aggregateObservations sort obs := by rw [he]; simp
    have hobs : ∀ q ∈ aggregateObservations sort obs, q.pointId = k → ∀ t : ℚ, (q.start : ℚ) ≤ t → t ≤ q.end_ →
        ObservedAt obs k t := by
      intro q hq hqk t h1 h2
      obtain ⟨_, ho0, hpo, h3, h4⟩ := hc.covered _ (List.mem_map_of_mem (f := fun r : AggRow =>
          (⟨r.pointId, r.start, r.end_⟩ : PInterval)) hq) t ⟨h1, h2⟩
      obtain ⟨o, ho, rfl⟩ := List.mem_map.mp ho0
      exact ⟨o, ho, hpo.trans hqk, h3, h4⟩
    have hpw : (p.start : ℚ) ≤ p.end_ := by exact_mod_cast hne p hp
    have hrw : (r.start : ℚ) ≤ r.end_ := by exact_mod_cast hne r hr
    have hv' : (v : ℚ) = r.start - p.end_ := by rw [hval]; push_cast; ring
    have hlt' : (T : ℚ) < v := by exact_mod_cast hlt
    obtain ⟨t', ht1, ht2, o, ho, hok, h1, h2⟩ := hseen ((p.end_ : ℚ) + (v - T) / 2)
      ⟨p.end_, by linarith, hobs p hp (hpk.trans hk) _ hpw le_rfl⟩
      ⟨r.start, by linarith, hobs r hr hk _ le_rfl hrw⟩
    obtain ⟨_, hr0, hpp, hs, hee⟩ := hc.covers _ (List.mem_map_of_mem (f := fun o : Obs =>
        (⟨o.pointId, o.start, o.end_⟩ : PInterval)) ho)
    obtain ⟨q, hq, rfl⟩ := List.mem_map.mp hr0
    simp only at hpp hs hee
    have hq1 : (q.start : ℚ) < r.start := by
      have : (q.start : ℚ) ≤ o.start := by exact_mod_cast hs
      linarith
    have hq2 : (p.end_ : ℚ) < q.end_ := by
      have : (o.end_ : ℚ) ≤ q.end_ := by exact_mod_cast hee
      linarith
    have hq1' : q.start < r.start := by exact_mod_cast hq1
    have hq2' : p.end_ < q.end_ := by exact_mod_cast hq2
    have hwq := hne q hq
    have hwr := hne r hr
    have hwp := hne p hp
    rw [he] at hsep hq
    obtain ⟨-, hpost, hcross⟩ := List.pairwise_append.mp hsep
    obtain ⟨-, hpost2⟩ := List.pairwise_cons.mp hpost
    obtain ⟨hrp, -⟩ := List.pairwise_cons.mp hpost2
    rcases List.mem_append.mp hq with h | h
    · have := hcross q h p List.mem_cons_self
      simp only at this
      omega
    · rcases List.mem_cons.mp h with rfl | h
      · omega
      · rcases List.mem_cons.mp h with rfl | h
        · omega
        · have := hrp q h
          simp only at this
          omega

/-- **C157, mean revisit.** So a point that is seen every `b` microseconds has a mean revisit of at most that. -/
theorem C157_mean_revisit (sort : SortValues Obs.start) (obs : List Obs) (hwf : ∀ o ∈ obs, o.start ≤ o.end_) (b : Int)
    (hb : 0 ≤ b) (s : RedRow) (hs : s ∈ reduceObservations (aggregateObservations sort obs))
    (hseen : SeenEvery obs s.pointId ((1000 * b : Int) : ℚ)) (v : Int) (hv : s.revisit = some v) : 0 ≤ v ∧ v ≤ b := by
  obtain ⟨-, -, -, -, -, hrev⟩ := (C06_reduce (aggregateObservations sort obs)).2.2.2 s hs
  refine (hrev v hv).2 0 b ?_
  intro x hx
  obtain ⟨r, hr, hrx⟩ := List.mem_filterMap.mp hx
  obtain ⟨hr, hk⟩ := List.mem_filter.mp hr
  have hk' : r.pointId = s.pointId := by simpa using hk
  refine ⟨?_, (C157_revisit sort obs hwf s.pointId (1000 * b) (by omega)).mpr hseen r hr hk' x hrx⟩
  obtain ⟨pre, p, post, he, hpk, hval⟩ := revisit_prev sort obs hwf r hr x hrx
  obtain ⟨w, h1, -, h3⟩ := ((C03_access_revisit sort obs hwf).2.2.1 pre p r post he).2 hpk
  rw [hrx] at h1
  have := Option.some.inj h1
  omega

variable (sortEnd : SortValues Obs.end_) (sortStart : SortValues Downlink.start)
  (sortObserved : SortValues LatRow.observed)

/-- **C157, latency.** If a contact of the satellite that is long enough begins within `W` of the end of an observation,
and no contact lasts longer than `L`, then the observation is delivered, and at most the time from its middle to its end,
`W` and half of `L` later. -/
theorem C157_latency (observations : List Obs) (sortD : SortValues Downlink.start) (satellite : String)
    (stations : List (Station × List Interval)) (W L : Int) (row : LatRow)
    (hrow : row ∈ computeLatencies sortEnd sortStart sortObserved observations (collectDownlinks sortD satellite stations))
    (hsat : row.obs.satellite = satellite)
    (hcontact : ∃ sp ∈ stations, ∃ p ∈ sp.2, 1000 * sp.1.minAccess ≤ p.right - p.left ∧ row.obs.end_ ≤ p.left ∧
      p.left ≤ row.obs.end_ + W)
    (hlong : ∀ sp ∈ stations, ∀ p ∈ sp.2, p.right - p.left ≤ L) :
    ∃ l, row.latency = some l ∧ l ≤ (row.obs.end_ - row.obs.epoch) + W + (L : ℚ) / 2 := by
  obtain ⟨-, source, hperm, hall⟩ := C73_downlinks sortD satellite stations
  obtain ⟨sp, hsp, p, hp, hmin, hs1, hs2⟩ := hcontact
  have hmem : (sp.1, p) ∈ source := hperm.mem_iff.mpr (List.mem_flatMap.mpr ⟨sp, hsp,
    List.mem_map.mpr ⟨p, List.mem_filter.mpr ⟨hp, by simpa using hmin⟩, rfl⟩⟩)
  obtain ⟨i, hi, he⟩ := List.mem_iff_getElem.mp hmem
  have hlen := hall.length_eq
  have hd := List.forall₂_iff_get.mp hall |>.2 i hi (by omega)
  rw [List.get_eq_getElem, List.get_eq_getElem, he] at hd
  have hne : collectDownlinks sortD satellite stations ≠ [] := by
    intro h0
    rw [h0] at hlen
    simp only [List.length_nil] at hlen
    omega
  have hdm : (collectDownlinks sortD satellite stations)[i]'(by omega) ∈ collectDownlinks sortD satellite stations :=
    List.getElem_mem _
  set d₀ := (collectDownlinks sortD satellite stations)[i]'(by omega) with hd₀
  have hel : Eligible row.obs d₀ := ⟨hd.2.1.trans hsat.symm, by rw [hd.2.2.1]; exact hs1⟩
  obtain ⟨d, ⟨hdm', hdel, hmin'⟩, hrep⟩ :=
    ((C12_earliest_downlink_partial sortEnd sortStart sortObserved observations _ hne).2 row hrow).1 ⟨d₀, hdm, hel⟩
  obtain ⟨hobs, hlat⟩ := (C13_latency sortEnd sortStart sortObserved observations _).1 row hrow
  refine ⟨d.epoch - row.obs.epoch, by rw [hlat, hrep.2, hobs]; rfl, ?_⟩
  have hle : d.start ≤ row.obs.end_ + W := by
    have := hmin' d₀ hdm hel
    have h2 := hd.2.2.1
    simp only at h2
    omega
  obtain ⟨j, hj, he'⟩ := List.mem_iff_getElem.mp hdm'
  have hdj := List.forall₂_iff_get.mp hall |>.2 j (by omega) hj
  rw [List.get_eq_getElem, List.get_eq_getElem, he'] at hdj
  obtain ⟨-, -, hst, -, hep⟩ := hdj
  have hsrc : source[j]'(by omega) ∈ source := List.getElem_mem _
  obtain ⟨sp', hsp', hq⟩ := List.mem_flatMap.mp (hperm.mem_iff.mp hsrc)
  obtain ⟨q, hq, hqe⟩ := List.mem_map.mp hq
  have hqL := hlong sp' hsp' q (List.mem_filter.mp hq).1
  rw [← hqe] at hst hep
  simp only at hst hep
  have h1 : (d.start : ℚ) ≤ row.obs.end_ + W := by exact_mod_cast hle
  have h2 : (q.right : ℚ) - q.left ≤ L := by exact_mod_cast hqL
  have h3 : (d.start : ℚ) = q.left := by exact_mod_cast hst
  rcases hep with h | h <;> linarith

/-- **C157, mean latency.** So if this holds of all observations of a point, and none lasts longer than `A` after its
epoch, its mean latency is at most the sum (microseconds), and it has one. -/
theorem C157_mean_latency (observations : List Obs) (sortD : SortValues Downlink.start) (satellite : String)
    (stations : List (Station × List Interval)) (W L b : Int) (A : ℚ) (s : RedLat)
    (hs : s ∈ reduceLatencies
      (computeLatencies sortEnd sortStart sortObserved observations (collectDownlinks sortD satellite stations)))
    (hsat : ∀ o ∈ observations, o.pointId = s.pointId → o.satellite = satellite ∧ o.end_ - o.epoch ≤ A)
    (hcontact : ∀ o ∈ observations, o.pointId = s.pointId → ∃ sp ∈ stations, ∃ p ∈ sp.2,
      1000 * sp.1.minAccess ≤ p.right - p.left ∧ o.end_ ≤ p.left ∧ p.left ≤ o.end_ + W)
    (hlong : ∀ sp ∈ stations, ∀ p ∈ sp.2, p.right - p.left ≤ L)
    (hb : A + W + (L : ℚ) / 2 ≤ ((1000 * b : Int) : ℚ)) :
    ∃ v, s.latency = some v ∧ v ≤ b := by
  obtain ⟨hcount, hpos, hnone, hval⟩ := (C15_reduce (computeLatencies sortEnd sortStart sortObserved observations
    (collectDownlinks sortD satellite stations))).2.2.2 s hs
  set rows := computeLatencies sortEnd sortStart sortObserved observations (collectDownlinks sortD satellite stations)
    with hrows
  have hall : ∀ row ∈ rows, row.obs.pointId = s.pointId → ∃ l, row.latency = some l ∧ l ≤ ((1000 * b : Int) : ℚ) := by
    intro row hrow hk
    obtain ⟨o, ho, he⟩ := mem_computeLatencies sortEnd sortStart sortObserved hrow
    have heo : row.obs = o := by rw [he]; rfl
    have hk' : o.pointId = s.pointId := heo ▸ hk
    obtain ⟨l, hl, hle⟩ := C157_latency sortEnd sortStart sortObserved observations sortD satellite stations W L row hrow
      (by rw [heo]; exact (hsat o ho hk').1) (by rw [heo]; exact hcontact o ho hk') hlong
    refine ⟨l, hl, ?_⟩
    have := (hsat o ho hk').2
    rw [heo] at hle
    linarith
  obtain ⟨row, hrow⟩ := List.exists_mem_of_length_pos (hcount ▸ hpos)
  obtain ⟨hrow, hk⟩ := List.mem_filter.mp hrow
  obtain ⟨l, hl, -⟩ := hall row hrow (by simpa using hk)
  have hsome : s.latency ≠ none := by
    intro h
    have := hnone.mp h
    have hmem : l ∈ (rows.filter fun r => r.obs.pointId = s.pointId).filterMap (·.latency) :=
      List.mem_filterMap.mpr ⟨row, List.mem_filter.mpr ⟨hrow, hk⟩, hl⟩
    rw [this] at hmem
    exact absurd hmem (by simp)
  obtain ⟨v, hv⟩ := Option.ne_none_iff_exists'.mp hsome
  refine ⟨v, hv, ?_⟩
  have hlow : ∀ xs : List ℚ, ∃ a : Int, ∀ x ∈ xs, ((1000 * a : Int) : ℚ) ≤ x := by
    intro xs
    induction xs with
    | nil => exact ⟨0, by simp⟩
    | cons x t ih =>
      obtain ⟨a, ha⟩ := ih
      refine ⟨min a ⌊x / 1000⌋, ?_⟩
      intro y hy
      have hm1 : ((min a ⌊x / 1000⌋ : Int) : ℚ) ≤ a := by exact_mod_cast min_le_left _ _
      have hm2 : ((min a ⌊x / 1000⌋ : Int) : ℚ) ≤ ⌊x / 1000⌋ := by exact_mod_cast min_le_right _ _
      rcases List.mem_cons.mp hy with rfl | hy
      · have := Int.floor_le (y / 1000)
        rw [Int.cast_mul]
        push_cast at this ⊢
        push_cast at hm2
        linarith
      · have := ha y hy
        rw [Int.cast_mul] at this ⊢
        push_cast at this ⊢
        push_cast at hm1
        linarith
  obtain ⟨a, ha⟩ := hlow ((rows.filter fun r => r.obs.pointId = s.pointId).filterMap (·.latency))
  refine ((hval v hv).2 a b ?_).2
  intro x hx
  obtain ⟨r, hr, hrx⟩ := List.mem_filterMap.mp hx
  obtain ⟨hr, hkr⟩ := List.mem_filter.mp hr
  obtain ⟨l', hl', hle'⟩ := hall r hr (by simpa using hkr)
  rw [hl'] at hrx
  have := ha x hx
  rw [← Option.some.inj hrx] at this ⊢
  push_cast at this hle' ⊢
  exact ⟨this, hle'⟩

/-- Three observations of a point, with gaps of 20 and of 50 ticks: no revisit is longer than 50, and the condition holds
with 50 and not with 49. -/
def threeObs : List Obs := [⟨1, "A", "i", 0, 5, 10⟩, ⟨1, "B", "i", 30, 35, 40⟩, ⟨1, "A", "i", 90, 95, 100⟩]

theorem threeObs_wf : ∀ o ∈ threeObs, o.start ≤ o.end_ := by decide

example : SeenEvery threeObs 1 50 ∧ ¬ SeenEvery threeObs 1 49 := by
  constructor
  · have := (C157_revisit (SortValues.insertion _) threeObs threeObs_wf 1 50 (by norm_num)).mp (by decide +kernel)
    exact_mod_cast this
  · intro h
    have := (C157_revisit (SortValues.insertion _) threeObs threeObs_wf 1 49 (by norm_num)).mpr (by exact_mod_cast h)
    exact absurd this (by decide +kernel)

/-- An observation until 10, a contact of 40 from 30 on that is long enough: at most 5 + 20 + 20 after its epoch. -/
example : ∀ row ∈ computeLatencies (SortValues.insertion _) (SortValues.insertion _) (SortValues.insertion _)
      [⟨1, "A", "i", 0, 5, 10⟩] (collectDownlinks (SortValues.insertion _) "A" [(⟨"g", 0⟩, [⟨30, 70⟩])]),
    ∃ l, row.latency = some l ∧ l ≤ 45 := by
  intro row hrow
  obtain ⟨o, ho, he⟩ := mem_computeLatencies _ _ _ hrow
  have heo : row.obs = o := by rw [he]; rfl
  rw [List.mem_singleton] at ho
  obtain ⟨l, h1, h2⟩ := C157_latency _ _ _ _ _ _ _ 20 40 row hrow (by rw [heo, ho])
    ⟨_, List.mem_singleton_self _, _, List.mem_singleton_self _, by norm_num, by rw [heo, ho]; norm_num,
      by rw [heo, ho]; norm_num⟩
    (by
      intro sp hsp p hp
      rw [List.mem_singleton] at hsp
      subst hsp
      rw [List.mem_singleton] at hp
      subst hp
      norm_num)
  refine ⟨l, h1, ?_⟩
  rw [heo, ho] at h2
  norm_num at h2
  exact h2

end Tatc.Props
