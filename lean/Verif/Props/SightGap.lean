import Verif.Props.PassRows
import Verif.Props.Promise
import Verif.Props.Symmetry

/-!
# C171: a revisit is a time during which no satellite sees the point
-/

namespace Tatc.Props
open Tatc Tatc.Num Tatc.Geometry Tatc.Spec Tatc.Orbit Tatc.Coverage Tatc.Pandas

/-- At the middle of the tick, some instrument sees the point. -/
def SeenDuring (lat lon : ℝ) (satellites : List (List Craft)) (t : Int) : Prop :=
  ∃ s ∈ satellites, ∃ c ∈ s, ∃ l ∈ c.instruments,
    c.flight.Sees (l.fieldOfRegard / 2) meanRadius siderealDay lat lon ((t : ℚ) + 1 / 2)

/-- The middle of the tick is within the tolerance of a rise or set of some instrument. -/
def NearAny (tolerance : Int) (satellites : List (List Craft)) (t : Int) : Prop :=
  ∃ s ∈ satellites, ∃ c ∈ s, ∃ l ∈ c.instruments, Near tolerance l ((t : ℚ) + 1 / 2)

theorem pairIntervals_strict (end_ : Int) (l : List Int) (hs : l.Pairwise (· < ·)) (hin : ∀ c ∈ l, c < end_) :
    ∀ I ∈ pairIntervals end_ l, I.left < I.right := by
  induction l using pairIntervals.induct with
  | case1 => intro I hI; simp [pairIntervals] at hI
  | case2 r =>
    intro I hI
    simp only [pairIntervals, List.mem_singleton] at hI
    subst hI
    exact hin r (by simp)
  | case3 a b l ih =>
    intro I hI
    rw [pairIntervals] at hI
    have h1 := List.pairwise_cons.mp hs
    have h2 := List.pairwise_cons.mp h1.2
    rcases List.mem_cons.mp hI with rfl | hI
    · exact h1.1 b (by simp)
    · exact ih h2.2 (fun x hx => hin x (by simp [hx])) I hI

theorem visibleIntervals_strict {start end_ M : Int} {b : Bool} {cs : List Int} {events : List (Int × EventKind)}
    (h : SignalEvents start end_ M b cs events) (hse : start < end_) :
    ∀ I ∈ visibleIntervals start end_ M events, I.left < I.right := by
  rw [visibleIntervals_alternating start end_ M b cs events h.events_eq h.increasing h.inside h.culminates h.short]
  cases b with
  | false => exact pairIntervals_strict end_ cs h.increasing fun c hc => (h.inside c hc).2
  | true =>
    cases cs with
    | nil =>
      intro I hI
      simp only [List.mem_singleton] at hI
      subst hI
      exact hse
    | cons s u =>
      intro I hI
      have hpw := List.pairwise_cons.mp h.increasing
      rcases List.mem_cons.mp hI with rfl | hI
      · exact (h.inside s (by simp)).1
      · exact pairIntervals_strict end_ u hpw.2 (fun c hc => (h.inside c (List.mem_cons_of_mem _ hc)).2) I hI

/-- The rows are of the point, in the window, and none is empty. -/
theorem rows_window {sort : SortValues Obs.start} {k start end_ tolerance : Int} {lat lon : ℝ}
    {satellites : List (List Craft)} {rows : List Obs} (hse : start < end_) (ht : 0 ≤ tolerance)
    (h : ∀ s ∈ satellites, ∀ c ∈ s, Analysed start end_ tolerance lat lon c)
    (hrun : collectMultiObservations sort k (satellites.map fun s => s.map (Craft.member start end_)) = .ok rows)
    (o : Obs) (ho : o ∈ rows) : o.pointId = k ∧ start ≤ o.start ∧ o.start < o.end_ ∧ o.end_ ≤ end_ := by
  rw [mem_collectMulti hrun] at ho
  obtain ⟨_, hs', _, hm, _, hr, ho⟩ := ho
  obtain ⟨s, hs, rfl⟩ := List.mem_map.1 hs'
  obtain ⟨c, hc, rfl⟩ := List.mem_map.1 hm
  obtain ⟨l, hl, rfl⟩ := List.mem_map.1 hr
  have ha := h s hs c hc
  obtain ⟨h1, p, hp, h3, h4⟩ := collect_notFixed (r := instrumentRun c.altitude start end_ l) (ha.counts l hl).2.1 ho
  obtain ⟨f0, f1⟩ := ha.looks l hl
  have hR := meanRadius_gt
  have hb := C47_bounds c.altitude 0 l.fieldOfRegard ⟨by linarith, ha.low.above⟩ f0.le (by linarith)
  obtain ⟨b, cs, hs, -, -⟩ := signal_of_reported c ha.low (regardThreshold c.altitude l.fieldOfRegard) hb.2.2.1 hb.2.2.2
    lat lon start end_ tolerance ht (ha.enough l hl) l.events (ha.reported l hl)
  obtain ⟨w1, w2, w3⟩ := visibleIntervals_window hs hse.le p hp
  have w4 := visibleIntervals_strict hs hse p hp
  omega

/-- So are the aggregated rows. -/
theorem aggregated_window {sort' : SortValues Obs.start} {k start end_ : Int} {rows : List Obs}
    (h : ∀ o ∈ rows, o.pointId = k ∧ start ≤ o.start ∧ o.start < o.end_ ∧ o.end_ ≤ end_)
    (a : AggRow) (ha : a ∈ aggregateObservations sort' rows) :
    a.pointId = k ∧ start ≤ a.start ∧ a.start ≤ a.end_ ∧ a.end_ ≤ end_ := by
  have hcomp := C01_components sort' rows fun o ho => (h o ho).2.2.1.le
  have hm := List.mem_map_of_mem (f := fun r : AggRow => (⟨r.pointId, r.start, r.end_⟩ : PInterval)) ha
  have hne := hcomp.nonempty _ hm
  simp only at hne
  have hq : (a.start : ℚ) ≤ a.end_ := by exact_mod_cast hne
  obtain ⟨_, ho', e1, o1, o2⟩ := hcomp.covered _ hm a.start ⟨le_rfl, hq⟩
  obtain ⟨o, ho, rfl⟩ := List.mem_map.1 ho'
  obtain ⟨_, ho₂', e2, p1, p2⟩ := hcomp.covered _ hm a.end_ ⟨hq, le_rfl⟩
  obtain ⟨o₂, ho₂, rfl⟩ := List.mem_map.1 ho₂'
  simp only at e1 e2 o1 o2 p1 p2
  have h1 := h o ho
  have h2 := h o₂ ho₂
  have o1 : o.start ≤ a.start := by exact_mod_cast o1
  have p2 : a.end_ ≤ o₂.end_ := by exact_mod_cast p2
  omega

/-- **C171 (revisits are gaps).** During a revisit time no instrument sees the point, except within the tolerance of its own
rises and sets. -/
theorem C171_revisit (sort sort' : SortValues Obs.start) (k start end_ tolerance : Int) (lat lon : ℝ)
    (satellites : List (List Craft)) (rows : List Obs) (hse : start < end_) (ht : 0 ≤ tolerance)
    (h : ∀ s ∈ satellites, ∀ c ∈ s, Analysed start end_ tolerance lat lon c)
    (hrun : collectMultiObservations sort k (satellites.map fun s => s.map (Craft.member start end_)) = .ok rows)
    (r : AggRow) (hr : r ∈ aggregateObservations sort' rows) (v : Int) (hv : r.revisit = some v) :
    0 < v ∧ start ≤ r.start - v ∧ r.start ≤ end_ ∧
    ∀ t : Int, r.start - v ≤ t → t + 1 ≤ r.start → ∀ s ∈ satellites, ∀ c ∈ s, ∀ l ∈ c.instruments,
      ¬ Near tolerance l ((t : ℚ) + 1 / 2) →
      ¬ c.flight.Sees (l.fieldOfRegard / 2) meanRadius siderealDay lat lon ((t : ℚ) + 1 / 2) := by
  have hrows := rows_window hse ht h hrun
  have hwf : ∀ o ∈ rows, o.start ≤ o.end_ := fun o ho => (hrows o ho).2.2.1.le
  have hin := aggregated_window (sort' := sort') hrows
  obtain ⟨pre, p, post, he, hpk, hval⟩ := revisit_prev sort' rows hwf r hr v hv
  obtain ⟨w, h1, h2, h3⟩ := ((C03_access_revisit sort' rows hwf).2.2.1 pre p r post he).2 hpk
  have hp := hin p (by rw [he]; simp)
  have hrw := hin r hr
  have hvw : v = w := by rw [hv] at h1; exact Option.some.inj h1
  refine ⟨by omega, by omega, by omega, ?_⟩
  intro t t1 t2 s hs c hc l hl hn hsee
  obtain ⟨a, ha, -, a1, a2⟩ := (C160_observed sort sort' k start end_ tolerance lat lon satellites rows hse.le ht h hrun t
    (by omega) (by omega)).1 ⟨s, hs, c, hc, l, hl, hn, hsee⟩
  have hsep := (C01_components sort' rows hwf).separated
  rw [he] at ha hsep
  have hk : ∀ x ∈ pre ++ p :: r :: post, x.pointId = k := fun x hx => (hin x (by rw [he]; exact hx)).1
  have hpos : ∀ x ∈ pre ++ p :: r :: post, x.start ≤ x.end_ := fun x hx => (hin x (by rw [he]; exact hx)).2.2.1
  rw [List.map_append, List.map_cons, List.map_cons, List.pairwise_append, List.pairwise_cons, List.pairwise_cons] at hsep
  obtain ⟨-, ⟨-, hs2, -⟩, hs3⟩ := hsep
  simp only [List.mem_append, List.mem_cons] at ha
  rcases ha with ha | rfl | rfl | ha
  · have := hs3 _ (List.mem_map_of_mem ha) _ (List.mem_cons_self)
    have k1 := hk a (by simp [ha])
    have k2 := hk p (by simp)
    have k3 := hpos p (by simp)
    simp only at this
    omega
  · omega
  · omega
  · have := hs2 _ (List.mem_map_of_mem ha)
    have k1 := hk a (by simp [ha])
    have k3 := hpos r (by simp)
    simp only at this
    omega

/-- **C171 (gaps are revisits).** When the point is seen before and after, but not between two times, and no rise or set is
nearer than the tolerance, there is a revisit time at least as long. -/
theorem C171_gap (sort sort' : SortValues Obs.start) (k start end_ tolerance : Int) (lat lon : ℝ)
    (satellites : List (List Craft)) (rows : List Obs) (ht : 0 ≤ tolerance)
    (h : ∀ s ∈ satellites, ∀ c ∈ s, Analysed start end_ tolerance lat lon c)
    (hrun : collectMultiObservations sort k (satellites.map fun s => s.map (Craft.member start end_)) = .ok rows)
    (a t₁ t₂ b : Int) (h0 : start ≤ a) (h1 : a < t₁) (h2 : t₁ < t₂) (h3 : t₂ ≤ b) (h4 : b + 1 ≤ end_)
    (ha : SeenDuring lat lon satellites a) (ha' : ¬ NearAny tolerance satellites a)
    (hb : SeenDuring lat lon satellites b) (hb' : ¬ NearAny tolerance satellites b)
    (hgap : ∀ t, t₁ ≤ t → t < t₂ → ¬ SeenDuring lat lon satellites t ∧ ¬ NearAny tolerance satellites t) :
    ∃ r ∈ aggregateObservations sort' rows, ∃ v, r.revisit = some v ∧ t₂ - t₁ ≤ v := by
  have hse : start < end_ := by omega
  have hrows := rows_window hse ht h hrun
  have hwf : ∀ o ∈ rows, o.start ≤ o.end_ := fun o ho => (hrows o ho).2.2.1.le
  obtain ⟨-, hobs⟩ := mem_collected hrun h hse.le ht
  have hsee : ∀ t, start ≤ t → t + 1 ≤ end_ → SeenDuring lat lon satellites t → ¬ NearAny tolerance satellites t →
      t ∈ observedTicks rows k := by
    rintro t w1 w2 ⟨s, hs, c, hc, l, hl, hx⟩ hn
    exact (hobs t).2 ⟨s, hs, c, hc, l, hl, ((period_ticks hse.le ht (h s hs c hc).watched hl t).2
      (fun hx => hn ⟨s, hs, c, hc, l, hl, hx⟩) w1 w2).2 hx⟩
  have hnot : ∀ t, t₁ ≤ t → t < t₂ → t ∉ observedTicks rows k := by
    intro t w1 w2 hx
    obtain ⟨s, hs, c, hc, l, hl, hp⟩ := (hobs t).1 hx
    obtain ⟨g1, g2⟩ := hgap t w1 w2
    exact g1 ⟨s, hs, c, hc, l, hl, ((period_ticks hse.le ht (h s hs c hc).watched hl t).2
      (fun hx => g2 ⟨s, hs, c, hc, l, hl, hx⟩) (by omega) (by omega)).1 hp⟩
  by_contra hno
  push Not at hno
  have hevery := (C157_revisit sort' rows hwf k (t₂ - t₁ - 1) (by omega)).1 (by
    intro r hr _ v hv
    have := hno r hr v hv
    omega)
  obtain ⟨o, ho, hk, o1, o2⟩ := hsee a h0 (by omega) ha ha'
  obtain ⟨o', ho', hk', p1, p2⟩ := hsee b (by omega) h4 hb hb'
  have q1 : (o.start : ℚ) ≤ a := by exact_mod_cast o1
  have q2 : (a : ℚ) + 1 ≤ o.end_ := by exact_mod_cast o2
  have q3 : (o'.start : ℚ) ≤ b := by exact_mod_cast p1
  have q4 : (b : ℚ) + 1 ≤ o'.end_ := by exact_mod_cast p2
  have q5 : (a : ℚ) + 1 ≤ t₁ := by exact_mod_cast h1
  have q6 : (t₂ : ℚ) ≤ b := by exact_mod_cast h3
  obtain ⟨x, x1, x2, o, ho, hk, x3, x4⟩ := hevery ((t₁ : ℚ) + 1 / 2) ⟨a, by linarith, o, ho, hk, q1, by linarith⟩
    ⟨b, by push_cast; linarith, o', ho', hk', q3, by linarith⟩
  have hs := (hrows o ho).2.2.1
  push_cast at x2
  have y1 : t₁ < o.end_ := by
    have : (t₁ : ℚ) < o.end_ := by linarith
    exact_mod_cast this
  have y2 : o.start < t₂ := by
    have : (o.start : ℚ) < t₂ := by linarith
    exact_mod_cast this
  exact hnot (max t₁ o.start) (le_max_left _ _) (max_lt h2 y2) ⟨o, ho, hk, le_max_right _ _, by
    rcases max_cases t₁ o.start with ⟨e, -⟩ | ⟨e, -⟩ <;> rw [e] <;> omega⟩

/-- A satellite one radius above the equator that is over the place `τ` seconds later than the one of C160. -/
noncomputable def laterCraft (τ : ℝ) (events : List (Int × EventKind)) : Craft :=
  let φ := 2 * Real.pi * τ / orbitPeriodSeconds meanRadius - 2 * Real.pi * τ / siderealDay
  ⟨"b", meanRadius, ⟨Real.cos φ, -Real.sin φ, 0⟩, ⟨Real.sin φ, Real.cos φ, 0⟩, [⟨⟨"x", 0, false⟩, 180, fun _ => true, events⟩]⟩

theorem later_elevation (τ : ℝ) (events : List (Int × EventKind)) (e t : ℝ) :
    ElevationAtLeast e
      (circularPosition (meanRadius + (laterCraft τ events).altitude) (orbitPeriodSeconds (laterCraft τ events).altitude)
        (laterCraft τ events).u (laterCraft τ events).v t) (turningAt meanRadius 0 0 siderealDay t) ↔
    ElevationAtLeast e (circularPosition (meanRadius + meanRadius) (orbitPeriodSeconds meanRadius) ⟨1, 0, 0⟩ ⟨0, 1, 0⟩ (t - τ))
      (turning meanRadius siderealDay (t - τ)) := by
  have e0 : 2 * τ / siderealDay * 180 * Real.pi / 180 = 2 * Real.pi * τ / siderealDay := by ring
  have e1 : turningAt meanRadius 0 0 siderealDay t =
      moved (2 * τ / siderealDay * 180) 1 (turning meanRadius siderealDay (t - τ)) := by
    simp only [turningAt, turning, moved, cosDeg, sinDeg, e0, V3.mk.injEq]
    have : 2 * Real.pi * t / siderealDay + 0 = 2 * Real.pi * (t - τ) / siderealDay + 2 * Real.pi * τ / siderealDay := by ring
    rw [this, Real.cos_add, Real.sin_add, Real.cos_zero, Real.sin_zero]
    refine ⟨?_, ?_, ?_⟩ <;> ring
  have e2 : circularPosition (meanRadius + (laterCraft τ events).altitude) (orbitPeriodSeconds (laterCraft τ events).altitude)
        (laterCraft τ events).u (laterCraft τ events).v t = moved (2 * τ / siderealDay * 180) 1
          (circularPosition (meanRadius + meanRadius) (orbitPeriodSeconds meanRadius) ⟨1, 0, 0⟩ ⟨0, 1, 0⟩ (t - τ)) := by
    simp only [laterCraft, circularPosition, moved, V3.add, V3.smul, cosDeg, sinDeg, e0, V3.mk.injEq]
    have h1 : 2 * Real.pi * t / orbitPeriodSeconds meanRadius =
        2 * Real.pi * (t - τ) / orbitPeriodSeconds meanRadius + 2 * Real.pi * τ / orbitPeriodSeconds meanRadius := by ring
    generalize 2 * Real.pi * (t - τ) / orbitPeriodSeconds meanRadius = A at *
    generalize 2 * Real.pi * τ / orbitPeriodSeconds meanRadius = B at *
    generalize 2 * Real.pi * τ / siderealDay = C at *
    have hB := Real.cos_sq_add_sin_sq B
    rw [h1, Real.cos_add, Real.sin_add, Real.cos_sub, Real.sin_sub]
    refine ⟨?_, ?_, ?_⟩
    · linear_combination (meanRadius + meanRadius) * (Real.cos A * Real.cos C - Real.sin A * Real.sin C) * hB
    · linear_combination (meanRadius + meanRadius) * (Real.cos A * Real.sin C + Real.sin A * Real.cos C) * hB
    · ring
  rw [e1, e2, moved_elevation _ (by norm_num)]

/-- Such satellites are analysed as C160 asks, if rises and sets are reported of the times at which they are less than `T`
seconds from being overhead. -/
theorem later_analysed : ∃ T : ℝ, 2000 < T ∧ T < 3500 ∧ ∀ (start end_ : Int) (τ : ℝ) (events : List (Int × EventKind)),
    |(start : ℝ) / 10 ^ 9 - τ| ≤ 5000 → |(end_ : ℝ) / 10 ^ 9 - τ| ≤ 5000 →
    Reported start end_ 1 (fun t => |(t : ℝ) / 10 ^ 9 - τ| ≤ T) events →
    Analysed start end_ 1 0 0 (laterCraft τ events) ∧ ∀ t : ℚ, start < t → t < end_ →
      ((laterCraft τ events).flight.Sees (180 / 2) meanRadius siderealDay 0 0 t ↔ |(t : ℝ) / 10 ^ 9 - τ| ≤ T) := by
  obtain ⟨T, hT1, hT2, hT⟩ := pass_iff
  obtain ⟨c, -, -, hp⟩ := passing_analysed
  refine ⟨T, hT1, hT2, fun start end_ τ events hs he hr => ?_⟩
  let l₀ : Looking := ⟨⟨"x", 0, false⟩, 180, fun _ => true, [(-c, .rise), (0, .culminate), (c, .set)]⟩
  have hl₀ : l₀ ∈ (passingCraft c).instruments := List.mem_singleton_self _
  have hthr : regardThreshold meanRadius 180 = 0 := by
    unfold regardThreshold minElevation
    have hR := meanRadius_gt
    have e1 : radians 180 / 2 = Real.pi / 2 := by unfold radians; ring
    have e2 : sinRho meanRadius 0 = 1 / 2 := by
      unfold sinRho
      rw [div_eq_div_iff (by linarith) (by norm_num)]
      ring
    rw [e1, Real.sin_pi_div_two, e2]
    norm_num
  have hlow : (laterCraft τ events).Low := by
    refine ⟨hp.low.above, hp.low.below, ?_, ?_, ?_⟩
    · simp only [laterCraft, V3.dot]
      nlinarith [Real.cos_sq_add_sin_sq (2 * Real.pi * τ / orbitPeriodSeconds meanRadius - 2 * Real.pi * τ / siderealDay)]
    · simp only [laterCraft, V3.dot]
      nlinarith [Real.cos_sq_add_sin_sq (2 * Real.pi * τ / orbitPeriodSeconds meanRadius - 2 * Real.pi * τ / siderealDay)]
    · simp only [laterCraft, V3.dot]
      ring
  have hel : ∀ t : ℚ, start < t → t < end_ → (ElevationAtLeast (regardThreshold (laterCraft τ events).altitude 180)
      (circularPosition (meanRadius + (laterCraft τ events).altitude) (orbitPeriodSeconds (laterCraft τ events).altitude)
        (laterCraft τ events).u (laterCraft τ events).v ((t : ℝ) / 10 ^ 9))
      (turningAt meanRadius 0 0 siderealDay ((t : ℝ) / 10 ^ 9)) ↔ |(t : ℝ) / 10 ^ 9 - τ| ≤ T) := by
    intro t t1 t2
    rw [later_elevation]
    simp only [laterCraft, hthr]
    have u1 : ((start : ℤ) : ℝ) < (t : ℝ) := by exact_mod_cast t1
    have u2 : (t : ℝ) < ((end_ : ℤ) : ℝ) := by exact_mod_cast t2
    rw [abs_le] at hs he
    rw [hT]
    rw [abs_le]
    have : (start : ℝ) / 10 ^ 9 < t / 10 ^ 9 := div_lt_div_of_pos_right u1 (by norm_num)
    have : (t : ℝ) / 10 ^ 9 < end_ / 10 ^ 9 := div_lt_div_of_pos_right u2 (by norm_num)
    constructor <;> linarith
  refine ⟨⟨hlow, ?_, ?_, ?_, ?_⟩, fun t t1 t2 => ?_⟩
  · intro l hl
    rw [List.mem_singleton.1 hl]
    exact hp.looks l₀ hl₀
  · intro l hl
    rw [List.mem_singleton.1 hl]
    exact hp.enough l₀ hl₀
  · intro l hl
    rw [List.mem_singleton.1 hl]
    exact ⟨rfl, rfl, fun _ => rfl⟩
  · intro l hl
    rw [List.mem_singleton.1 hl]
    obtain ⟨b, cs, h1, h2, h3, h4, h5⟩ := hr.signal
    refine ⟨b, cs, h1, h2, h3, h4, fun t t1 t2 t3 => ?_⟩
    rw [h5 t t1 t2 t3]
    exact (hel t t1 t2).symm
  · rw [← sees_iff hlow (by norm_num) (by norm_num)]
    exact hel t t1 t2

/-- A satellite that sets at a time `c` of the window, and another that rises 1000 s later. -/
theorem gap_analysed : ∃ (T : ℝ) (c : Int), 2000 < T ∧ T < 3500 ∧ T * 10 ^ 9 ≤ c ∧ (c : ℝ) < T * 10 ^ 9 + 1 ∧
    2000000000000 < c ∧ c ≤ 3500000000000 ∧
    Analysed (2 * c - 4000000000000) 5000000000000 1 0 0 (laterCraft 0 [(c, .set)]) ∧
    (∀ t : ℚ, ((2 * c - 4000000000000 : Int) : ℚ) < t → t < ((5000000000000 : Int) : ℚ) →
      ((laterCraft 0 [(c, .set)]).flight.Sees (180 / 2) meanRadius siderealDay 0 0 t ↔ |(t : ℝ) / 10 ^ 9 - 0| ≤ T)) ∧
    Analysed (2 * c - 4000000000000) 5000000000000 1 0 0
      (laterCraft (T + (c + 1000000000000 : ℝ) / 10 ^ 9) [(c + 1000000000000, .rise)]) ∧
    ∀ t : ℚ, ((2 * c - 4000000000000 : Int) : ℚ) < t → t < ((5000000000000 : Int) : ℚ) →
      ((laterCraft (T + (c + 1000000000000 : ℝ) / 10 ^ 9) [(c + 1000000000000, .rise)]).flight.Sees (180 / 2) meanRadius
        siderealDay 0 0 t ↔ |(t : ℝ) / 10 ^ 9 - (T + (c + 1000000000000 : ℝ) / 10 ^ 9)| ≤ T) := by
  obtain ⟨T, hT1, hT2, hT⟩ := later_analysed
  have hc1 : T * 10 ^ 9 ≤ ⌈T * 10 ^ 9⌉ := Int.le_ceil _
  have hc2 : (⌈T * 10 ^ 9⌉ : ℝ) < T * 10 ^ 9 + 1 := Int.ceil_lt_add_one _
  generalize ⌈T * 10 ^ 9⌉ = c at *
  have hcl : 2000000000000 < c := by
    have : ((2000000000000 : Int) : ℝ) < c := by push_cast; linarith
    exact_mod_cast this
  have hcu : c ≤ 3500000000000 := by
    have : (c : ℝ) < ((3500000000001 : Int) : ℝ) := by push_cast; linarith
    have : c < 3500000000001 := by exact_mod_cast this
    omega
  have hcl' : (2000000000000 : ℝ) < c := by exact_mod_cast hcl
  have hcu' : (c : ℝ) ≤ 3500000000000 := by exact_mod_cast hcu
  have hcq : (2000000000000 : ℚ) < c := by exact_mod_cast hcl
  have hcq' : (c : ℚ) ≤ 3500000000000 := by exact_mod_cast hcu
  obtain ⟨hA, hAs⟩ := hT (2 * c - 4000000000000) 5000000000000 0 [(c, .set)] (by
    push_cast; rw [abs_le]; constructor <;> linarith) (by norm_num) (by
    refine ⟨true, [c], by simp, by simp; omega, by simp [isCrossing, alternating], by simp, ?_⟩
    intro t t1 t2 t3
    have a1 := t3 c (by simp)
    have u1 : ((2 * c - 4000000000000 : ℤ) : ℚ) < t := t1
    push_cast at u1
    have u0 : (0 : ℚ) < t := by linarith
    have u0' : (0 : ℝ) < t := by exact_mod_cast u0
    have hkey : |(t : ℝ) / 10 ^ 9 - 0| ≤ T ↔ t < (c : ℚ) := by
      rw [sub_zero, abs_of_pos (by positivity), div_le_iff₀ (by norm_num)]
      constructor
      · intro k
        have k : (t : ℝ) ≤ c := by linarith
        have k : t ≤ (c : ℚ) := by exact_mod_cast k
        exact lt_of_le_of_ne k a1.1
      · intro k
        have b2 := a1.2
        rw [abs_of_neg (by linarith)] at b2
        have b2 : (1 : ℝ) ≤ -((t : ℝ) - c) := by exact_mod_cast b2
        linarith
    rw [hkey]
    unfold visibleAt
    by_cases k : (c : ℚ) ≤ t
    · simp [k]
    · simp [k, not_le.1 k])
  obtain ⟨hB, hBs⟩ := hT (2 * c - 4000000000000) 5000000000000 (T + (c + 1000000000000 : ℝ) / 10 ^ 9)
    [(c + 1000000000000, .rise)] (by
    push_cast; rw [abs_le]; constructor <;> linarith) (by push_cast; rw [abs_le]; constructor <;> linarith) (by
    refine ⟨false, [c + 1000000000000], by simp, by simp; omega, by simp [isCrossing, alternating], by simp, ?_⟩
    intro t t1 t2 t3
    have a1 := t3 (c + 1000000000000) (by simp)
    have u2 : t < ((5000000000000 : ℤ) : ℚ) := t2
    push_cast at u2
    have u0' : (t : ℝ) < 5000000000000 := by exact_mod_cast u2
    have hkey : |(t : ℝ) / 10 ^ 9 - (T + (c + 1000000000000 : ℝ) / 10 ^ 9)| ≤ T ↔ ((c + 1000000000000 : ℤ) : ℚ) ≤ t := by
      rw [abs_le]
      constructor
      · rintro ⟨k, -⟩
        have k : ((c + 1000000000000 : ℤ) : ℝ) ≤ t := by push_cast; linarith
        exact_mod_cast k
      · intro k
        have k : ((c + 1000000000000 : ℤ) : ℝ) ≤ t := by exact_mod_cast k
        push_cast at k
        constructor <;> linarith
    rw [hkey]
    unfold visibleAt
    generalize (c + 1000000000000 : ℤ) = d
    by_cases k : (d : ℚ) ≤ t
    · simp [k]
    · simp [k])
  exact ⟨T, c, hT1, hT2, hc1, hc2, hcl, hcu, hA, hAs, hB, hBs⟩

/-- Two satellites, of which the first sets 1000 s before the second rises: there is a revisit time that long (to two
nanoseconds). -/
example (sort sort' : SortValues Obs.start) : ∃ (c d : Craft) (start : Int) (rows : List Obs),
    collectMultiObservations sort 1 [[c.member start 5000000000000], [d.member start 5000000000000]] = .ok rows ∧
    ∃ r ∈ aggregateObservations sort' rows, ∃ v, r.revisit = some v ∧ 999999999998 ≤ v := by
  obtain ⟨T, c, hT1, hT2, hc1, hc2, hcl, hcu, hA, hAs, hB, hBs⟩ := gap_analysed
  have hcl' : (2000000000000 : ℝ) < c := by exact_mod_cast hcl
  have hcu' : (c : ℝ) ≤ 3500000000000 := by exact_mod_cast hcu
  have hcq : (2000000000000 : ℚ) < c := by exact_mod_cast hcl
  have hcq' : (c : ℚ) ≤ 3500000000000 := by exact_mod_cast hcu
  have hall : ∀ s ∈ [[laterCraft 0 [(c, .set)]], [laterCraft (T + (c + 1000000000000 : ℝ) / 10 ^ 9) [(c + 1000000000000, .rise)]]],
      ∀ x ∈ s, Analysed (2 * c - 4000000000000) 5000000000000 1 0 0 x := by
    intro s hs x hx
    simp only [List.mem_cons, List.not_mem_nil, or_false] at hs
    rcases hs with rfl | rfl
    · rw [List.mem_singleton.1 hx]; exact hA
    · rw [List.mem_singleton.1 hx]; exact hB
  have hnear : ∀ t : Int, (t ≤ c - 2 ∨ c + 1 ≤ t) → (t ≤ c + 999999999998 ∨ c + 1000000000001 ≤ t) → ¬ NearAny 1
      [[laterCraft 0 [(c, .set)]], [laterCraft (T + (c + 1000000000000 : ℝ) / 10 ^ 9) [(c + 1000000000000, .rise)]]] t := by
    rintro t n1 n2 ⟨s, hs, x, hx, l, hl, e, he, -, h2⟩
    have far : ∀ d : Int, (t ≤ d - 2 ∨ d + 1 ≤ t) → ¬ |(t : ℚ) + 1 / 2 - d| < ((1 : Int) : ℚ) := by
      intro d hd h
      rw [abs_lt] at h
      push_cast at h
      rcases hd with hd | hd
      · have : (t : ℚ) ≤ d - 2 := by exact_mod_cast hd
        linarith
      · have : (d : ℚ) + 1 ≤ t := by exact_mod_cast hd
        linarith
    simp only [List.mem_cons, List.not_mem_nil, or_false] at hs
    rcases hs with rfl | rfl
    · rw [List.mem_singleton] at hx
      subst hx
      simp only [laterCraft, List.mem_singleton] at hl
      subst hl
      rw [List.mem_singleton] at he
      subst he
      exact far c n1 h2
    · rw [List.mem_singleton] at hx
      subst hx
      simp only [laterCraft, List.mem_singleton] at hl
      subst hl
      rw [List.mem_singleton] at he
      subst he
      exact far (c + 1000000000000) (by omega) h2
  obtain ⟨rows, hrows⟩ : ∃ rows, collectMultiObservations sort 1
      [[(laterCraft 0 [(c, .set)]).member (2 * c - 4000000000000) 5000000000000],
        [(laterCraft (T + (c + 1000000000000 : ℝ) / 10 ^ 9) [(c + 1000000000000, .rise)]).member
          (2 * c - 4000000000000) 5000000000000]] = .ok rows := ⟨_, rfl⟩
  refine ⟨_, _, _, rows, hrows, ?_⟩
  have hsA : ∀ t : Int, 2 * c - 4000000000000 ≤ t → t + 1 ≤ 5000000000000 →
      ((laterCraft 0 [(c, .set)]).flight.Sees (180 / 2) meanRadius siderealDay 0 0 ((t : ℚ) + 1 / 2) ↔
        |(((t : ℚ) + 1 / 2 : ℚ) : ℝ) / 10 ^ 9 - 0| ≤ T) := by
    intro t w1 w2
    have w1 : ((2 * c - 4000000000000 : ℤ) : ℚ) ≤ t := by exact_mod_cast w1
    have w2 : (t : ℚ) + 1 ≤ ((5000000000000 : ℤ) : ℚ) := by exact_mod_cast w2
    push_cast at w1 w2
    exact hAs _ (by push_cast; linarith) (by push_cast; linarith)
  have hsB : ∀ t : Int, 2 * c - 4000000000000 ≤ t → t + 1 ≤ 5000000000000 →
      ((laterCraft (T + (c + 1000000000000 : ℝ) / 10 ^ 9) [(c + 1000000000000, .rise)]).flight.Sees (180 / 2) meanRadius
        siderealDay 0 0 ((t : ℚ) + 1 / 2) ↔
        |(((t : ℚ) + 1 / 2 : ℚ) : ℝ) / 10 ^ 9 - (T + (c + 1000000000000 : ℝ) / 10 ^ 9)| ≤ T) := by
    intro t w1 w2
    have w1 : ((2 * c - 4000000000000 : ℤ) : ℚ) ≤ t := by exact_mod_cast w1
    have w2 : (t : ℚ) + 1 ≤ ((5000000000000 : ℤ) : ℚ) := by exact_mod_cast w2
    push_cast at w1 w2
    exact hBs _ (by push_cast; linarith) (by push_cast; linarith)
  obtain ⟨r, hr, v, hv, hle⟩ := C171_gap sort sort' 1 _ _ 1 0 0 _ rows (by norm_num) hall hrows (2 * c - 4000000000000) (c + 1)
    (c + 999999999999) 4999999999999 le_rfl (by omega) (by omega) (by omega) (by norm_num)
    ⟨_, List.mem_cons_self, _, List.mem_cons_self, _, List.mem_cons_self, (hsA _ le_rfl (by omega)).2 (by
      push_cast; rw [abs_le]; constructor <;> linarith)⟩ (hnear _ (by omega) (by omega))
    ⟨_, List.mem_cons_of_mem _ List.mem_cons_self, _, List.mem_cons_self, _, List.mem_cons_self,
      (hsB _ (by omega) (by omega)).2 (by push_cast; rw [abs_le]; constructor <;> linarith)⟩ (hnear _ (by omega) (by omega))
    (by
      intro t t1 t2
      refine ⟨?_, hnear _ (by omega) (by omega)⟩
      have u1 : (c : ℝ) + 1 ≤ t := by exact_mod_cast t1
      have u2 : (t : ℝ) + 1 ≤ c + 999999999999 := by exact_mod_cast t2
      rintro ⟨s, hs, x, hx, l, hl, hsee⟩
      simp only [List.mem_cons, List.not_mem_nil, or_false] at hs
      rcases hs with rfl | rfl
      · rw [List.mem_singleton] at hx
        subst hx
        simp only [laterCraft, List.mem_singleton] at hl
        subst hl
        have := (hsA t (by omega) (by omega)).1 hsee
        rw [abs_le] at this
        push_cast at this
        linarith [this.2]
      · rw [List.mem_singleton] at hx
        subst hx
        simp only [laterCraft, List.mem_singleton] at hl
        subst hl
        have := (hsB t (by omega) (by omega)).1 hsee
        rw [abs_le] at this
        push_cast at this
        linarith [this.1])
  exact ⟨r, hr, v, hv, by omega⟩

end Tatc.Props
