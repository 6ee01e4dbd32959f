import Verif.Spec.Passes
import Verif.Props.LongPass
import Verif.Props.EndToEnd
import Verif.Props.Swath

/-!
# C160: what is observed is what the satellites see
-/

namespace Tatc.Props
open Tatc Tatc.Num Tatc.Geometry Tatc.Spec Tatc.Orbit Tatc.Coverage Tatc.Pandas

/-- A satellite with instruments, on a circular orbit in the plane of `u` and `v`. -/
structure Craft where
  name : String
  altitude : ℝ
  u : V3
  v : V3
  instruments : List Looking

namespace Craft

/-- What is collected with it. -/
noncomputable def member (start end_ : Int) (c : Craft) : Member :=
  ⟨c.name, c.instruments.map (instrumentRun c.altitude start end_)⟩

/-- How it moves. -/
noncomputable def flight (c : Craft) : Flight := ⟨meanRadius + c.altitude, orbitPeriodSeconds c.altitude, c.u, c.v⟩

/-- Its orbit is up to 10000 km high, and the directions are orthonormal. -/
structure Low (c : Craft) : Prop where
  above : 0 < c.altitude
  below : c.altitude ≤ 10000000
  unit_u : c.u.dot c.u = 1
  unit_v : c.v.dot c.v = 1
  orthogonal : c.u.dot c.v = 0

end Craft

theorem continuous_circular (a p : ℝ) (u v : V3) :
    Continuous (fun t => (circularPosition a p u v t).x) ∧ Continuous (fun t => (circularPosition a p u v t).y) ∧
      Continuous (fun t => (circularPosition a p u v t).z) := by
  unfold circularPosition V3.add V3.smul
  refine ⟨?_, ?_, ?_⟩ <;> fun_prop

theorem continuous_turning (r lat lon day : ℝ) :
    Continuous (fun t => (turningAt r lat lon day t).x) ∧ Continuous (fun t => (turningAt r lat lon day t).y) ∧
      Continuous (fun t => (turningAt r lat lon day t).z) := by
  unfold turningAt
  refine ⟨?_, ?_, ?_⟩ <;> fun_prop

/-- The times at which a satellite is high enough form a closed set. -/
theorem closed_elevation (e a p r lat lon day : ℝ) (u v : V3) :
    IsClosed {t : ℝ | ElevationAtLeast e (circularPosition a p u v t) (turningAt r lat lon day t)} := by
  obtain ⟨h1, h2, h3⟩ := continuous_circular a p u v
  obtain ⟨k1, k2, k3⟩ := continuous_turning r lat lon day
  unfold ElevationAtLeast len sub V3.dot
  apply isClosed_le <;> fun_prop

/-- What holds at rational times between two real ones, and is closed, holds at all times between. -/
theorem closed_of_rat {S : Set ℝ} (hS : IsClosed S) {a b : ℝ} (hab : a < b)
    (h : ∀ q : ℚ, a < q → (q : ℝ) < b → (q : ℝ) ∈ S) (t : ℝ) (h1 : a ≤ t) (h2 : t ≤ b) : t ∈ S := by
  have hd : Dense (Set.range ((↑) : ℚ → ℝ)) := Rat.denseRange_cast
  have h3 : Set.Ioo a b ⊆ S := by
    refine (hd.open_subset_closure_inter isOpen_Ioo).trans ?_
    refine closure_minimal ?_ hS
    rintro _ ⟨⟨x1, x2⟩, q, rfl⟩
    exact h q x1 x2
  have h4 : closure (Set.Ioo a b) ⊆ S := closure_minimal h3 hS
  rw [closure_Ioo hab.ne] at h4
  exact h4 ⟨h1, h2⟩

/-- A pass of a low satellite, from which rise and set differ by less than `tolerance`, is shorter than the limit. -/
theorem pass_short (c : Craft) (hc : c.Low) (e : ℝ) (he0 : 0 ≤ e) (he1 : e ≤ 90) (lat lon : ℝ) (tolerance r s : Int)
    (ht : 0 ≤ tolerance) (hT : (3 * (tolerance : ℝ) + 2000) / 10 ^ 9 ≤ maxAccessTime c.altitude e)
    (pass : ∀ t : ℚ, (r : ℚ) < t → t < s → (tolerance : ℚ) ≤ t - r → (tolerance : ℚ) ≤ s - t →
      ElevationAtLeast e (circularPosition (meanRadius + c.altitude) (orbitPeriodSeconds c.altitude) c.u c.v ((t : ℝ) / 10 ^ 9))
        (turningAt meanRadius lat lon siderealDay ((t : ℝ) / 10 ^ 9))) :
    s - r < 2 * accessLimit c.altitude e := by
  have hround := abs_le.1 (abs_round_sub (maxAccessTime c.altitude e * 1000000))
  have ht' : (0 : ℝ) ≤ tolerance := by exact_mod_cast ht
  rw [div_le_iff₀ (by norm_num)] at hT
  suffices h : ((s - r : Int) : ℝ) ≤ 4 / 3 * maxAccessTime c.altitude e * 10 ^ 9 + 2 * tolerance by
    unfold accessLimit
    generalize maxAccessTime c.altitude e = m at *
    generalize Num.roundHalfEven (m * 1000000) = k at *
    have h4 : ((s - r : Int) : ℝ) < ((2 * (1000 * k) : Int) : ℝ) := by
      push_cast at h ⊢
      linarith [hround.1]
    exact_mod_cast h4
  rcases le_or_gt (s - r) (2 * tolerance) with hle | hlt
  · have : ((s - r : Int) : ℝ) ≤ ((2 * tolerance : Int) : ℝ) := by exact_mod_cast hle
    push_cast at this ⊢
    linarith
  · have hlt' : ((2 * tolerance : Int) : ℝ) < ((s - r : Int) : ℝ) := by exact_mod_cast hlt
    push_cast at hlt'
    have hab : ((r : ℝ) + tolerance) / 10 ^ 9 < ((s : ℝ) - tolerance) / 10 ^ 9 := by
      apply div_lt_div_of_pos_right _ (by norm_num)
      linarith
    have := C112_inclined c.altitude e hc.above hc.below he0 he1 c.u c.v hc.unit_u hc.unit_v hc.orthogonal lat lon
      (((r : ℝ) + tolerance) / 10 ^ 9) (((s : ℝ) - tolerance) / 10 ^ 9) hab.le (by
        intro t h1 h2
        refine closed_of_rat (closed_elevation e (meanRadius + c.altitude) (orbitPeriodSeconds c.altitude) meanRadius lat lon
          siderealDay c.u c.v) hab ?_ t h1 h2
        intro q hq1 hq2
        rw [div_lt_iff₀ (by norm_num)] at hq1
        rw [lt_div_iff₀ (by norm_num)] at hq2
        have hp := pass (q * 10 ^ 9) (by
            have : (r : ℝ) < ((q * 10 ^ 9 : ℚ) : ℝ) := by push_cast; linarith
            exact_mod_cast this) (by
            have : ((q * 10 ^ 9 : ℚ) : ℝ) < (s : ℝ) := by push_cast; linarith
            exact_mod_cast this) (by
            have : ((tolerance : ℚ) : ℝ) ≤ ((q * 10 ^ 9 - r : ℚ) : ℝ) := by push_cast; linarith
            exact_mod_cast this) (by
            have : ((tolerance : ℚ) : ℝ) ≤ ((s - q * 10 ^ 9 : ℚ) : ℝ) := by push_cast; linarith
            exact_mod_cast this)
        have e1 : ((q * 10 ^ 9 : ℚ) : ℝ) / 10 ^ 9 = q := by push_cast; field_simp
        rw [e1] at hp
        exact hp)
    rw [← sub_div, div_le_iff₀ (by norm_num)] at this
    push_cast
    linarith

/-- The state between two crossings. -/
theorem visible_between {b : Bool} {pre post : List Int} {r : Int} {t : ℚ} (hinc : (pre ++ r :: post).Pairwise (· < ·))
    (hstate : (b ^^ decide (pre.length % 2 = 1)) = false) (h1 : (r : ℚ) < t) (h2 : ∀ x ∈ post, t < x) :
    visibleAt b (pre ++ r :: post) t = true := by
  have hp := List.pairwise_append.1 hinc
  have e1 : (pre.filter fun c : Int => decide ((c : ℚ) ≤ t)) = pre := by
    rw [List.filter_eq_self]
    intro x hx
    have : x < r := hp.2.2 x hx r List.mem_cons_self
    have : (x : ℚ) < r := by exact_mod_cast this
    simp only [decide_eq_true_eq]
    linarith
  have e2 : (post.filter fun c : Int => decide ((c : ℚ) ≤ t)) = [] := by
    rw [List.filter_eq_nil_iff]
    intro x hx
    have := h2 x hx
    simp only [decide_eq_true_eq]
    linarith
  unfold visibleAt
  rw [List.filter_append, e1, List.filter_cons, if_pos (by simp only [decide_eq_true_eq]; exact h1.le), e2,
    List.length_append, List.length_singleton]
  rcases Nat.mod_two_eq_zero_or_one pre.length with h | h <;> cases b <;> simp_all [Nat.add_mod]

theorem passesShort_of {M : Int} {b : Bool} {cs : List Int} (hinc : cs.Pairwise (· < ·))
    (h : ∀ (r s : Int), r ∈ cs → s ∈ cs → r < s → (∀ x ∈ cs, x ≤ r ∨ s ≤ x) →
      (∀ t : ℚ, (r : ℚ) < t → t < s → visibleAt b cs t = true) → s - r < 2 * M) :
    ∀ (n : Nat) (pre l : List Int), l.length ≤ n → cs = pre ++ l → (b ^^ decide (pre.length % 2 = 1)) = false →
      PassesShort M l := by
  intro n
  induction n with
  | zero =>
    intro pre l hl _ _
    rw [List.length_eq_zero_iff.1 (Nat.le_zero.1 hl)]
    trivial
  | succ n ih =>
    intro pre l hl hcs hst
    match l, hl, hcs with
    | [], _, _ => trivial
    | [_], _, _ => trivial
    | r :: s :: t, hl, hcs =>
      have hinc' := hinc
      rw [hcs] at hinc'
      have hp := List.pairwise_append.1 hinc'
      have h1 := List.pairwise_cons.1 hp.2.1
      have h2 := List.pairwise_cons.1 h1.2
      refine ⟨h r s (by simp [hcs]) (by simp [hcs]) (h1.1 s List.mem_cons_self) ?_ ?_, ?_⟩
      · intro x hx
        rw [hcs] at hx
        rcases List.mem_append.1 hx with hx | hx
        · exact .inl (hp.2.2 x hx r List.mem_cons_self).le
        · rcases List.mem_cons.1 hx with rfl | hx
          · exact .inl le_rfl
          · rcases List.mem_cons.1 hx with rfl | hx
            · exact .inr le_rfl
            · exact .inr (h2.1 x hx).le
      · intro q hq1 hq2
        rw [hcs]
        refine visible_between hinc' hst hq1 ?_
        intro x hx
        rcases List.mem_cons.1 hx with rfl | hx
        · exact hq2
        · have : (s : ℚ) < x := by exact_mod_cast h2.1 x hx
          linarith
      · refine ih (pre ++ [r, s]) t (by simp only [List.length_cons] at hl ⊢; omega) (by simp [hcs]) ?_
        rw [← hst]
        simp

/-- So the reported events are those of a signal with passes that are short enough. -/
theorem signal_of_reported (c : Craft) (hc : c.Low) (e : ℝ) (he0 : 0 ≤ e) (he1 : e ≤ 90) (lat lon : ℝ)
    (start end_ tolerance : Int) (ht : 0 ≤ tolerance)
    (hT : (3 * (tolerance : ℝ) + 2000) / 10 ^ 9 ≤ maxAccessTime c.altitude e) (events : List (Int × EventKind))
    (h : Reported start end_ tolerance (fun t => ElevationAtLeast e
      (circularPosition (meanRadius + c.altitude) (orbitPeriodSeconds c.altitude) c.u c.v ((t : ℝ) / 10 ^ 9))
      (turningAt meanRadius lat lon siderealDay ((t : ℝ) / 10 ^ 9))) events) :
    ∃ initial crossings, SignalEvents start end_ (accessLimit c.altitude e) initial crossings events ∧
      crossings = (events.filter isCrossing).map Prod.fst ∧
      ∀ t : ℚ, start < t → t < end_ → (∀ c ∈ crossings, t ≠ c ∧ (tolerance : ℚ) ≤ |t - c|) →
        (visibleAt initial crossings t = true ↔ ElevationAtLeast e
          (circularPosition (meanRadius + c.altitude) (orbitPeriodSeconds c.altitude) c.u c.v ((t : ℝ) / 10 ^ 9))
          (turningAt meanRadius lat lon siderealDay ((t : ℝ) / 10 ^ 9))) := by
  obtain ⟨b, cs, hinc, hin, hev, hcul, hag⟩ := h.signal
  have hshort : ∀ (r s : Int), r ∈ cs → s ∈ cs → r < s → (∀ x ∈ cs, x ≤ r ∨ s ≤ x) →
      (∀ t : ℚ, (r : ℚ) < t → t < s → visibleAt b cs t = true) → s - r < 2 * accessLimit c.altitude e := by
    intro r s hr hs hrs hno hvis
    refine pass_short c hc e he0 he1 lat lon tolerance r s ht hT ?_
    intro t h1 h2 h3 h4
    have hr1 := hin r hr
    have hs1 := hin s hs
    have q1 : (start : ℚ) < r := by exact_mod_cast hr1.1
    have q2 : (s : ℚ) < end_ := by exact_mod_cast hs1.2
    refine (hag t (by linarith) (by linarith) ?_).1 (hvis t h1 h2)
    intro x hx
    rcases hno x hx with hx | hx
    · have : (x : ℚ) ≤ r := by exact_mod_cast hx
      exact ⟨by intro e; linarith, le_trans (by linarith) (le_abs_self _)⟩
    · have : (s : ℚ) ≤ x := by exact_mod_cast hx
      exact ⟨by intro e; linarith, le_trans (by linarith) (neg_le_abs _)⟩
  have hmap : ∀ (l : List Int) (b : Bool), (alternating b l).map Prod.fst = l := by
    intro l
    induction l with
    | nil => intro b; rfl
    | cons x l ih => intro b; simp [alternating, ih]
  refine ⟨b, cs, ⟨hinc, hin, hev, hcul, ?_⟩, ?_, hag⟩
  · cases b with
    | false => exact passesShort_of hinc hshort cs.length [] cs le_rfl (by simp) (by simp)
    | true =>
      cases cs with
      | nil => trivial
      | cons x l => exact passesShort_of hinc hshort l.length [x] l le_rfl (by simp) (by simp)
  · rw [hev, hmap]

/-- A craft of the analysis: its orbit is low, its instruments look at up to half a turn and long enough (three times as long
as rises and sets are uncertain, and two microseconds), every period counts, and events are reported as they happen (to
within `tolerance` nanoseconds) of the minimum elevation angle. -/
structure Analysed (start end_ tolerance : Int) (lat lon : ℝ) (c : Craft) : Prop where
  low : c.Low
  looks : ∀ l ∈ c.instruments, 0 < l.fieldOfRegard ∧ l.fieldOfRegard ≤ 180
  enough : ∀ l ∈ c.instruments,
    (3 * (tolerance : ℝ) + 2000) / 10 ^ 9 ≤ maxAccessTime c.altitude (regardThreshold c.altitude l.fieldOfRegard)
  counts : ∀ l ∈ c.instruments, l.spec.minAccess = 0 ∧ l.spec.fixed = false ∧ ∀ p, l.valid p = true
  reported : ∀ l ∈ c.instruments, Reported start end_ tolerance (fun t =>
    ElevationAtLeast (regardThreshold c.altitude l.fieldOfRegard)
      (circularPosition (meanRadius + c.altitude) (orbitPeriodSeconds c.altitude) c.u c.v ((t : ℝ) / 10 ^ 9))
      (turningAt meanRadius lat lon siderealDay ((t : ℝ) / 10 ^ 9))) l.events

/-- As above, with any minimum access time, fixed access time and tests. -/
structure Watched (start end_ tolerance : Int) (lat lon : ℝ) (c : Craft) : Prop where
  low : c.Low
  looks : ∀ l ∈ c.instruments, 0 < l.fieldOfRegard ∧ l.fieldOfRegard ≤ 180
  enough : ∀ l ∈ c.instruments,
    (3 * (tolerance : ℝ) + 2000) / 10 ^ 9 ≤ maxAccessTime c.altitude (regardThreshold c.altitude l.fieldOfRegard)
  reported : ∀ l ∈ c.instruments, Reported start end_ tolerance (fun t =>
    ElevationAtLeast (regardThreshold c.altitude l.fieldOfRegard)
      (circularPosition (meanRadius + c.altitude) (orbitPeriodSeconds c.altitude) c.u c.v ((t : ℝ) / 10 ^ 9))
      (turningAt meanRadius lat lon siderealDay ((t : ℝ) / 10 ^ 9))) l.events

theorem Analysed.watched {start end_ tolerance : Int} {lat lon : ℝ} {c : Craft} (h : Analysed start end_ tolerance lat lon c) :
    Watched start end_ tolerance lat lon c := ⟨h.low, h.looks, h.enough, h.reported⟩

/-- The time is within `tolerance` of a rise or set. -/
def Near (tolerance : Int) (l : Looking) (t : ℚ) : Prop := ∃ e ∈ l.events, isCrossing e ∧ |t - e.1| < tolerance

theorem len_turning (lat lon t : ℝ) : len (turningAt meanRadius lat lon siderealDay t) = meanRadius := by
  have hR := meanRadius_gt
  unfold len
  rw [turning_scale, smul_dot_smul, turning_unit]
  simp only [sub_self, Real.cos_zero, mul_one, Real.cos_sq_add_sin_sq]
  rw [← sq, Real.sqrt_sq (by linarith)]

theorem len_circular {c : Craft} (hc : c.Low) (t : ℝ) :
    len (circularPosition (meanRadius + c.altitude) (orbitPeriodSeconds c.altitude) c.u c.v t) = meanRadius + c.altitude := by
  have hR := meanRadius_gt
  have := hc.above
  unfold len
  rw [circular_scale, smul_dot_smul, circular_unit hc.unit_u hc.unit_v hc.orthogonal]
  simp only [sub_self, Real.cos_zero, mul_one]
  rw [← sq, Real.sqrt_sq (by linarith)]

/-- High enough is seen. -/
theorem sees_iff {c : Craft} (hc : c.Low) {f : ℝ} (h0 : 0 < f) (h1 : f ≤ 180) (lat lon : ℝ) (t : ℚ) :
    ElevationAtLeast (regardThreshold c.altitude f)
      (circularPosition (meanRadius + c.altitude) (orbitPeriodSeconds c.altitude) c.u c.v ((t : ℝ) / 10 ^ 9))
      (turningAt meanRadius lat lon siderealDay ((t : ℝ) / 10 ^ 9)) ↔
    c.flight.Sees (f / 2) meanRadius siderealDay lat lon t := by
  rw [← C120_track f c.altitude _ _ hc.above h0 (by linarith) (len_circular hc _) (len_turning _ _ _)]
  exact C120_regard f c.altitude _ _ hc.above h0 h1 (len_circular hc _) (len_turning _ _ _)

/-- The ticks of the periods of an instrument. -/
theorem period_ticks {start end_ tolerance : Int} (hse : start ≤ end_) (ht : 0 ≤ tolerance) {lat lon : ℝ} {c : Craft}
    (h : Watched start end_ tolerance lat lon c) {l : Looking} (hl : l ∈ c.instruments) (t : Int) :
    ((∃ p ∈ (instrumentRun c.altitude start end_ l).periods, p.left ≤ t ∧ t + 1 ≤ p.right) → start ≤ t ∧ t + 1 ≤ end_) ∧
    (¬ Near tolerance l ((t : ℚ) + 1 / 2) → start ≤ t → t + 1 ≤ end_ →
      ((∃ p ∈ (instrumentRun c.altitude start end_ l).periods, p.left ≤ t ∧ t + 1 ≤ p.right) ↔
        c.flight.Sees (l.fieldOfRegard / 2) meanRadius siderealDay lat lon ((t : ℚ) + 1 / 2))) := by
  obtain ⟨f0, f1⟩ := h.looks l hl
  have hR := meanRadius_gt
  have hb := C47_bounds c.altitude 0 l.fieldOfRegard ⟨by linarith, h.low.above⟩ f0.le (by linarith)
  obtain ⟨b, cs, hs, hcs, hag⟩ := signal_of_reported c h.low (regardThreshold c.altitude l.fieldOfRegard) hb.2.2.1 hb.2.2.2
    lat lon start end_ tolerance ht (h.enough l hl) l.events (h.reported l hl)
  have hseen : SeenAs start end_ (b, cs) (instrumentRun c.altitude start end_ l) := ⟨_, _, hs, rfl⟩
  have htick := tick_in_period hse hseen t
  refine ⟨fun hp => ?_, ?_⟩
  · have := htick.1 hp
    exact ⟨this.1, this.2.1⟩
  · intro hnear h1 h2
    have q1 : (start : ℚ) ≤ t := by exact_mod_cast h1
    have q2 : (t : ℚ) + 1 ≤ end_ := by exact_mod_cast h2
    rw [htick, ← sees_iff h.low f0 f1 lat lon, ← hag ((t : ℚ) + 1 / 2) (by linarith) (by linarith) ?_]
    · exact ⟨fun x => x.2.2, fun x => ⟨h1, h2, x⟩⟩
    · intro x hx
      constructor
      · intro he
        have : (2 * t + 1 : ℤ) = 2 * x := by
          have : ((2 * t + 1 : ℤ) : ℚ) = ((2 * x : ℤ) : ℚ) := by push_cast; linarith
          exact_mod_cast this
        omega
      · rw [hcs] at hx
        obtain ⟨e, he, rfl⟩ := List.mem_map.1 hx
        obtain ⟨he1, he2⟩ := List.mem_filter.1 he
        by_contra hlt
        exact hnear ⟨e, he1, he2, not_le.1 hlt⟩

/-- The rows that are collected. -/
theorem mem_collected {sort : SortValues Obs.start} {k start end_ tolerance : Int} {lat lon : ℝ}
    {satellites : List (List Craft)} {rows : List Obs}
    (hrun : collectMultiObservations sort k (satellites.map fun s => s.map (Craft.member start end_)) = .ok rows)
    (h : ∀ s ∈ satellites, ∀ c ∈ s, Analysed start end_ tolerance lat lon c) (hse : start ≤ end_) (ht : 0 ≤ tolerance) :
    (∀ o ∈ rows, o.pointId = k ∧ o.start ≤ o.end_) ∧
    ∀ t, t ∈ observedTicks rows k ↔ ∃ s ∈ satellites, ∃ c ∈ s, ∃ l ∈ c.instruments,
      ∃ p ∈ (instrumentRun c.altitude start end_ l).periods, p.left ≤ t ∧ t + 1 ≤ p.right := by
  have hmem : ∀ o, o ∈ rows ↔ ∃ s ∈ satellites, ∃ c ∈ s, ∃ l ∈ c.instruments,
      o ∈ collectObservations k c.name l.spec l.valid (instrumentRun c.altitude start end_ l).periods := by
    intro o
    rw [mem_collectMulti hrun]
    constructor
    · rintro ⟨_, hs', _, hm, _, hr, ho⟩
      obtain ⟨s, hs, rfl⟩ := List.mem_map.1 hs'
      obtain ⟨c, hc, rfl⟩ := List.mem_map.1 hm
      obtain ⟨l, hl, rfl⟩ := List.mem_map.1 hr
      exact ⟨s, hs, c, hc, l, hl, ho⟩
    · rintro ⟨s, hs, c, hc, l, hl, ho⟩
      exact ⟨_, List.mem_map_of_mem hs, _, List.mem_map_of_mem hc, _, List.mem_map_of_mem hl, ho⟩
  have hsig : ∀ s ∈ satellites, ∀ c ∈ s, ∀ l ∈ c.instruments, ∃ signal,
      SeenAs start end_ signal (instrumentRun c.altitude start end_ l) := by
    intro s hs c hc l hl
    have ha := h s hs c hc
    obtain ⟨f0, f1⟩ := ha.looks l hl
    have hR := meanRadius_gt
    have hb := C47_bounds c.altitude 0 l.fieldOfRegard ⟨by linarith, ha.low.above⟩ f0.le (by linarith)
    obtain ⟨b, cs, hs, -, -⟩ := signal_of_reported c ha.low (regardThreshold c.altitude l.fieldOfRegard) hb.2.2.1 hb.2.2.2
      lat lon start end_ tolerance ht (ha.enough l hl) l.events (ha.reported l hl)
    exact ⟨(b, cs), ⟨_, _, hs, rfl⟩⟩
  have hwf : ∀ s ∈ satellites, ∀ c ∈ s, ∀ l ∈ c.instruments, ∀ p ∈ (instrumentRun c.altitude start end_ l).periods,
      p.left ≤ p.right := by
    intro s hs c hc l hl p hp
    obtain ⟨signal, M, events, he, hpe⟩ := hsig s hs c hc l hl
    exact (visibleIntervals_window he hse p (hpe ▸ hp)).2.1
  refine ⟨?_, ?_⟩
  · intro o ho
    obtain ⟨s, hs, c, hc, l, hl, ho⟩ := (hmem o).1 ho
    have hf := ((h s hs c hc).counts l hl).2.1
    obtain ⟨h1, p, hp, h2, h3⟩ := collect_notFixed (r := instrumentRun c.altitude start end_ l) hf ho
    exact ⟨h1, by rw [h2, h3]; exact hwf s hs c hc l hl p hp⟩
  · intro t
    constructor
    · rintro ⟨o, ho, -, h1, h2⟩
      obtain ⟨s, hs, c, hc, l, hl, ho⟩ := (hmem o).1 ho
      have hf := ((h s hs c hc).counts l hl).2.1
      obtain ⟨-, p, hp, h3, h4⟩ := collect_notFixed (r := instrumentRun c.altitude start end_ l) hf ho
      exact ⟨s, hs, c, hc, l, hl, p, hp, by omega, by omega⟩
    · rintro ⟨s, hs, c, hc, l, hl, p, hp, h1, h2⟩
      obtain ⟨hm, hf, hv⟩ := (h s hs c hc).counts l hl
      refine ⟨observationRecord k c.name l.spec p, (hmem _).2 ⟨s, hs, c, hc, l, hl, ?_⟩, rfl, ?_, ?_⟩
      · refine List.mem_map_of_mem (List.mem_filter.2 ⟨hp, ?_⟩)
        simp only [hm, hv, Bool.and_true, decide_eq_true_eq]
        omega
      · simpa [observationRecord, hf] using h1
      · simpa [observationRecord, hf] using h2

/-- **C160.** A point is observed when a satellite sees it: every tick at which the point is in the field of regard of an
instrument (of a satellite on any circular orbit up to 10000 km, any place on the turning Earth), and that is not within the
tolerance of a rise or set, is in a row of the aggregated frame; and every tick in a row is one at which an instrument sees
the point or which is within the tolerance of a rise or set. -/
theorem C160_observed (sort sort' : SortValues Obs.start) (k start end_ tolerance : Int) (lat lon : ℝ)
    (satellites : List (List Craft)) (rows : List Obs) (hse : start ≤ end_) (ht : 0 ≤ tolerance)
    (h : ∀ s ∈ satellites, ∀ c ∈ s, Analysed start end_ tolerance lat lon c)
    (hrun : collectMultiObservations sort k (satellites.map fun s => s.map (Craft.member start end_)) = .ok rows)
    (t : Int) (h1 : start ≤ t) (h2 : t + 1 ≤ end_) :
    ((∃ s ∈ satellites, ∃ c ∈ s, ∃ l ∈ c.instruments, ¬ Near tolerance l ((t : ℚ) + 1 / 2) ∧
        c.flight.Sees (l.fieldOfRegard / 2) meanRadius siderealDay lat lon ((t : ℚ) + 1 / 2)) →
      ∃ a ∈ aggregateObservations sort' rows, a.pointId = k ∧ a.start ≤ t ∧ t + 1 ≤ a.end_) ∧
    ((∃ a ∈ aggregateObservations sort' rows, a.start ≤ t ∧ t + 1 ≤ a.end_) →
      ∃ s ∈ satellites, ∃ c ∈ s, ∃ l ∈ c.instruments, Near tolerance l ((t : ℚ) + 1 / 2) ∨
        c.flight.Sees (l.fieldOfRegard / 2) meanRadius siderealDay lat lon ((t : ℚ) + 1 / 2)) := by
  obtain ⟨hwf, hobs⟩ := mem_collected hrun h hse ht
  have hcomp := C01_components sort' rows fun o ho => (hwf o ho).2
  constructor
  · rintro ⟨s, hs, c, hc, l, hl, hn, hsee⟩
    obtain ⟨p, hp, p1, p2⟩ := ((period_ticks hse ht (h s hs c hc).watched hl t).2 hn h1 h2).2 hsee
    obtain ⟨o, ho, hk, o1, o2⟩ := (hobs t).2 ⟨s, hs, c, hc, l, hl, p, hp, p1, p2⟩
    obtain ⟨_, hr, r1, r2, r3⟩ := hcomp.covers _ (List.mem_map_of_mem (f := fun o : Obs => (⟨o.pointId, o.start, o.end_⟩ : PInterval)) ho)
    obtain ⟨a, ha, rfl⟩ := List.mem_map.1 hr
    simp only at r1 r2 r3
    exact ⟨a, ha, r1.trans hk, by omega, by omega⟩
  · rintro ⟨a, ha, a1, a2⟩
    have q1 : (a.start : ℚ) ≤ t := by exact_mod_cast a1
    have q2 : (t : ℚ) + 1 ≤ a.end_ := by exact_mod_cast a2
    obtain ⟨_, ho', -, o1, o2⟩ := hcomp.covered _ (List.mem_map_of_mem (f := fun r : AggRow =>
      (⟨r.pointId, r.start, r.end_⟩ : PInterval)) ha) ((t : ℚ) + 1 / 2) ⟨by simp only; linarith, by simp only; linarith⟩
    obtain ⟨o, ho, rfl⟩ := List.mem_map.1 ho'
    simp only at o1 o2
    have o1 : o.start ≤ t := by
      have : (o.start : ℚ) < ((t + 1 : ℤ) : ℚ) := by push_cast; linarith
      have : o.start < t + 1 := by exact_mod_cast this
      omega
    have o2 : t + 1 ≤ o.end_ := by
      have : ((t : ℤ) : ℚ) < o.end_ := by linarith
      have : t < o.end_ := by exact_mod_cast this
      omega
    obtain ⟨s, hs, c, hc, l, hl, hp⟩ := (hobs t).1 ⟨o, ho, (hwf o ho).1, o1, o2⟩
    refine ⟨s, hs, c, hc, l, hl, ?_⟩
    by_cases hn : Near tolerance l ((t : ℚ) + 1 / 2)
    · exact .inl hn
    · exact .inr (((period_ticks hse ht (h s hs c hc).watched hl t).2 hn h1 h2).1 hp)

/-- The ticks of the window in whose middle an instrument sees the point. -/
def seenTicks (start end_ : Int) (lat lon : ℝ) (satellites : List (List Craft)) : Set Int :=
  {t | start ≤ t ∧ t + 1 ≤ end_ ∧ ∃ s ∈ satellites, ∃ c ∈ s, ∃ l ∈ c.instruments,
    c.flight.Sees (l.fieldOfRegard / 2) meanRadius siderealDay lat lon ((t : ℚ) + 1 / 2)}

/-- The rises and sets of all instruments. -/
def crossingsOf (satellites : List (List Craft)) : List (Int × EventKind) :=
  satellites.flatten.flatMap fun c => c.instruments.flatMap fun l => l.events.filter isCrossing

theorem near_card (tolerance : Int) (ht : 0 ≤ tolerance) (cs : List Int) :
    {t : Int | ∃ c ∈ cs, |((t : ℚ) + 1 / 2) - c| < tolerance}.Finite ∧
    ({t : Int | ∃ c ∈ cs, |((t : ℚ) + 1 / 2) - c| < tolerance}.ncard : Int) ≤ 2 * tolerance * cs.length := by
  induction cs with
  | nil => simp
  | cons x cs ih =>
    have hone : {t : Int | |((t : ℚ) + 1 / 2) - x| < tolerance} = ↑(Finset.Ico (x - tolerance) (x + tolerance)) := by
      ext t
      simp only [Set.mem_ofPred_eq, Finset.coe_Ico, Set.mem_Ico, abs_lt]
      constructor
      · rintro ⟨h1, h2⟩
        have h1 : ((x - tolerance : ℤ) : ℚ) < ((t + 1 : ℤ) : ℚ) := by push_cast; linarith
        have h2 : (t : ℚ) < ((x + tolerance : ℤ) : ℚ) := by push_cast; linarith
        have h1 : x - tolerance < t + 1 := by exact_mod_cast h1
        exact ⟨by omega, by exact_mod_cast h2⟩
      · rintro ⟨h1, h2⟩
        have h1 : ((x - tolerance : ℤ) : ℚ) ≤ t := by exact_mod_cast h1
        have h2 : ((t + 1 : ℤ) : ℚ) ≤ ((x + tolerance : ℤ) : ℚ) := by exact_mod_cast h2
        push_cast at h1 h2
        constructor <;> linarith
    have hsplit : {t : Int | ∃ c ∈ x :: cs, |((t : ℚ) + 1 / 2) - c| < tolerance} =
        {t : Int | |((t : ℚ) + 1 / 2) - x| < tolerance} ∪ {t : Int | ∃ c ∈ cs, |((t : ℚ) + 1 / 2) - c| < tolerance} := by
      ext t
      simp
    rw [hsplit]
    refine ⟨(hone ▸ Finset.finite_toSet _).union ih.1, ?_⟩
    have h1 : ({t : Int | |((t : ℚ) + 1 / 2) - x| < tolerance}.ncard : Int) = 2 * tolerance := by
      rw [hone, Set.ncard_coe_finset, Int.card_Ico]
      omega
    have h2 := Set.ncard_union_le {t : Int | |((t : ℚ) + 1 / 2) - x| < tolerance}
      {t : Int | ∃ c ∈ cs, |((t : ℚ) + 1 / 2) - c| < tolerance}
    have h3 : (({t : Int | |((t : ℚ) + 1 / 2) - x| < tolerance} ∪
      {t : Int | ∃ c ∈ cs, |((t : ℚ) + 1 / 2) - c| < tolerance}).ncard : Int) ≤
      {t : Int | |((t : ℚ) + 1 / 2) - x| < tolerance}.ncard + {t : Int | ∃ c ∈ cs, |((t : ℚ) + 1 / 2) - c| < tolerance}.ncard := by
      exact_mod_cast h2
    rw [h1] at h3
    simp only [List.length_cons]
    push_cast
    nlinarith [ih.2]

/-- **C160 (total access).** The total access time of a point is the time for which an instrument of one of the satellites
sees it (nanoseconds), to within twice the tolerance for every rise and set; and just that time, if rises and sets are
reported exactly. -/
theorem C160_total (sort sort' : SortValues Obs.start) (k start end_ tolerance : Int) (lat lon : ℝ)
    (satellites : List (List Craft)) (rows : List Obs) (hse : start ≤ end_) (ht : 0 ≤ tolerance)
    (h : ∀ s ∈ satellites, ∀ c ∈ s, Analysed start end_ tolerance lat lon c)
    (hrun : collectMultiObservations sort k (satellites.map fun s => s.map (Craft.member start end_)) = .ok rows) :
    |totalAccess (aggregateObservations sort' rows) k - (seenTicks start end_ lat lon satellites).ncard| ≤
      2 * tolerance * (crossingsOf satellites).length := by
  obtain ⟨hwf, hobs⟩ := mem_collected hrun h hse ht
  rw [C96_total_access sort' rows fun o ho => (hwf o ho).2]
  obtain ⟨hfin, hcard⟩ := near_card tolerance ht ((crossingsOf satellites).map Prod.fst)
  rw [List.length_map] at hcard
  set N := {t : Int | ∃ c ∈ (crossingsOf satellites).map Prod.fst, |((t : ℚ) + 1 / 2) - c| < tolerance} with hN
  have hnear : ∀ s ∈ satellites, ∀ c ∈ s, ∀ l ∈ c.instruments, ∀ t : Int, Near tolerance l ((t : ℚ) + 1 / 2) → t ∈ N := by
    rintro s hs c hc l hl t ⟨e, he, he1, he2⟩
    refine ⟨e.1, List.mem_map_of_mem ?_, he2⟩
    unfold crossingsOf
    simp only [List.mem_flatMap, List.mem_flatten, List.mem_filter]
    exact ⟨c, ⟨s, hs, hc⟩, l, hl, he, he1⟩
  have hA : observedTicks rows k ⊆ seenTicks start end_ lat lon satellites ∪ N := by
    intro t htk
    obtain ⟨s, hs, c, hc, l, hl, hp⟩ := (hobs t).1 htk
    have hw := (period_ticks hse ht (h s hs c hc).watched hl t).1 hp
    by_cases hn : Near tolerance l ((t : ℚ) + 1 / 2)
    · exact .inr (hnear s hs c hc l hl t hn)
    · exact .inl ⟨hw.1, hw.2, s, hs, c, hc, l, hl, ((period_ticks hse ht (h s hs c hc).watched hl t).2 hn hw.1 hw.2).1 hp⟩
  have hB : seenTicks start end_ lat lon satellites ⊆ observedTicks rows k ∪ N := by
    rintro t ⟨h1, h2, s, hs, c, hc, l, hl, hsee⟩
    by_cases hn : Near tolerance l ((t : ℚ) + 1 / 2)
    · exact .inr (hnear s hs c hc l hl t hn)
    · exact .inl ((hobs t).2 ⟨s, hs, c, hc, l, hl, ((period_ticks hse ht (h s hs c hc).watched hl t).2 hn h1 h2).2 hsee⟩)
  have hSfin : (seenTicks start end_ lat lon satellites).Finite := by
    refine Set.Finite.subset (Finset.finite_toSet (Finset.Ico start end_)) ?_
    rintro t ⟨h1, h2, -⟩
    simp only [Finset.mem_coe, Finset.mem_Ico]
    omega
  have hOfin := observedTicks_finite rows k
  have c1 : ((observedTicks rows k).ncard : Int) ≤ (seenTicks start end_ lat lon satellites).ncard + N.ncard := by
    exact_mod_cast (Set.ncard_le_ncard hA (hSfin.union hfin)).trans (Set.ncard_union_le _ _)
  have c2 : ((seenTicks start end_ lat lon satellites).ncard : Int) ≤ (observedTicks rows k).ncard + N.ncard := by
    exact_mod_cast (Set.ncard_le_ncard hB (hOfin.union hfin)).trans (Set.ncard_union_le _ _)
  rw [abs_le]
  constructor <;> linarith

/-- Every field of regard from 0.3 degrees looks long enough if rises and sets are right to a second. -/
theorem C160_settings (altitude f : ℝ) (tolerance : Int) (h0 : 0 < altitude) (hf0 : 0.3 ≤ f) (hf1 : f ≤ 180)
    (ht : tolerance ≤ 1000000000) :
    (3 * (tolerance : ℝ) + 2000) / 10 ^ 9 ≤ maxAccessTime altitude (regardThreshold altitude f) := by
  have hR := meanRadius_gt
  have hpi := Real.pi_pos
  obtain ⟨hk0, hk1⟩ := sinRho_range (h := altitude) (z := 0) ⟨by linarith, h0⟩
  have hthr : regardThreshold altitude f ≤ 90 - f / 2 := by
    unfold regardThreshold minElevation
    have e1 : radians f / 2 = Real.pi / 2 - (Real.pi / 2 - f * Real.pi / 360) := by unfold radians; ring
    have hs : Real.sin (radians f / 2) = Real.cos (Real.pi / 2 - f * Real.pi / 360) := by
      rw [e1, Real.sin_pi_div_two_sub]
    simp only
    split_ifs with h
    · linarith
    · have hnn : 0 ≤ Real.cos (Real.pi / 2 - f * Real.pi / 360) := by
        apply Real.cos_nonneg_of_neg_pi_div_two_le_of_le
        · nlinarith
        · nlinarith
      have hge : Real.cos (Real.pi / 2 - f * Real.pi / 360) ≤ Real.sin (radians f / 2) / sinRho altitude 0 := by
        rw [hs, le_div_iff₀ hk0]
        nlinarith
      have hle := Real.arccos_le_arccos hge
      rw [Real.arccos_cos (by nlinarith) (by nlinarith)] at hle
      unfold degrees
      rw [← mul_div_assoc, div_le_iff₀ hpi]
      nlinarith
  rw [maxAccess_eq (by linarith)]
  have hP : (5000 : ℝ) ≤ orbitPeriodSeconds altitude := by
    have hw1 : 0 < Real.sqrt (mu / (meanRadius + altitude) ^ 3) := rate_pos (by linarith)
    have hw2 : Real.sqrt (mu / (meanRadius + altitude) ^ 3) ≤ 0.00125 := by
      rw [Real.sqrt_le_left (by norm_num), div_le_iff₀ (by positivity)]
      have h1 : (6371000 : ℝ) ≤ meanRadius + altitude := by
        have : (6371000 : ℝ) < meanRadius := by unfold meanRadius equatorialRadius polarRadius; norm_num
        linarith
      have h2 : (6371000 : ℝ) ^ 3 ≤ (meanRadius + altitude) ^ 3 := pow_le_pow_left₀ (by norm_num) h1 3
      have h3 : mu ≤ 0.00125 ^ 2 * (6371000 : ℝ) ^ 3 := by unfold mu; norm_num
      nlinarith
    have hP : orbitPeriodSeconds altitude = 2 * Real.pi / Real.sqrt (mu / (meanRadius + altitude) ^ 3) := rfl
    rw [hP, le_div_iff₀ hw1]
    have := Real.pi_gt_d2
    nlinarith
  have ht' : (tolerance : ℝ) ≤ 1000000000 := by exact_mod_cast ht
  rw [div_le_iff₀ (by norm_num)]
  have h1 : (0.15 : ℝ) ≤ 90 - regardThreshold altitude f := by linarith
  have h2 : 5000 * (0.15 : ℝ) ≤ orbitPeriodSeconds altitude * (90 - regardThreshold altitude f) :=
    mul_le_mul hP h1 (by norm_num) (by linarith)
  have h3 : orbitPeriodSeconds altitude * ((90 - regardThreshold altitude f) / 180) =
    orbitPeriodSeconds altitude * (90 - regardThreshold altitude f) / 180 := by ring
  rw [h3]
  linarith

/-- A satellite one radius above the equator that looks everywhere, and the events of its pass over a place at the equator. -/
noncomputable def passingCraft (c : Int) : Craft :=
  ⟨"a", meanRadius, ⟨1, 0, 0⟩, ⟨0, 1, 0⟩,
    [⟨⟨"x", 0, false⟩, 180, fun _ => true, [(-c, .rise), (0, .culminate), (c, .set)]⟩]⟩

/-- The hypotheses hold of it, over 10000 s, with rise and set rounded to nanoseconds: they are more than 4000 s apart. -/
theorem passing_analysed : ∃ c : Int, 2000000000000 < c ∧ c < 3600000000000 ∧
    Analysed (-5000000000000) 5000000000000 1 0 0 (passingCraft c) := by
  obtain ⟨T, hT1, hT2, hT⟩ := pass_iff
  have hR := meanRadius_gt
  have hc1 : T * 10 ^ 9 ≤ ⌈T * 10 ^ 9⌉ := Int.le_ceil _
  have hc2 : (⌈T * 10 ^ 9⌉ : ℝ) < T * 10 ^ 9 + 1 := Int.ceil_lt_add_one _
  generalize ⌈T * 10 ^ 9⌉ = c at *
  have hcl : 2000000000000 < c := by
    have : ((2000000000000 : Int) : ℝ) < c := by push_cast; linarith
    exact_mod_cast this
  have hcu : c < 3600000000000 := by
    have : (c : ℝ) < ((3600000000000 : Int) : ℝ) := by push_cast; linarith
    exact_mod_cast this
  have hthr : regardThreshold meanRadius 180 = 0 := by
    unfold regardThreshold minElevation
    have e1 : radians 180 / 2 = Real.pi / 2 := by unfold radians; ring
    have e2 : sinRho meanRadius 0 = 1 / 2 := by
      unfold sinRho
      rw [div_eq_div_iff (by linarith) (by norm_num)]
      ring
    rw [e1, Real.sin_pi_div_two, e2]
    norm_num
  have hlow : (passingCraft c).Low :=
    ⟨by simp only [passingCraft]; linarith,
      by simp only [passingCraft]; unfold meanRadius equatorialRadius polarRadius; norm_num,
      by simp [passingCraft, V3.dot], by simp [passingCraft, V3.dot], by simp [passingCraft, V3.dot]⟩
  refine ⟨c, hcl, hcu, hlow, ?_, ?_, ?_, ?_⟩
  · intro l hl
    simp only [passingCraft, List.mem_singleton] at hl
    subst hl
    norm_num
  · intro l hl
    simp only [passingCraft, List.mem_singleton] at hl
    subst hl
    simp only [passingCraft]
    rw [hthr, maxAccess_eq (by linarith)]
    have hP : (1 : ℝ) ≤ orbitPeriodSeconds meanRadius := by
      have hw2 : Real.sqrt (mu / (meanRadius + meanRadius) ^ 3) < 0.0005 := by
        rw [Real.sqrt_lt' (by norm_num)]
        unfold mu meanRadius equatorialRadius polarRadius
        norm_num
      have hw1 : 0 < Real.sqrt (mu / (meanRadius + meanRadius) ^ 3) := rate_pos (by linarith)
      have hP : orbitPeriodSeconds meanRadius = 2 * Real.pi / Real.sqrt (mu / (meanRadius + meanRadius) ^ 3) := rfl
      rw [hP, le_div_iff₀ hw1]
      have := Real.pi_gt_three
      linarith
    norm_num
    linarith
  · intro l hl
    simp only [passingCraft, List.mem_singleton] at hl
    subst hl
    exact ⟨rfl, rfl, fun _ => rfl⟩
  · intro l hl
    simp only [passingCraft, List.mem_singleton] at hl
    subst hl
    refine ⟨false, [-c, c], by simp; omega, by simp; omega, by simp [isCrossing, alternating], by simp, ?_⟩
    intro t h1 h2 h3
    have a1 := h3 (-c) (by simp)
    have a2 := h3 c (by simp)
    simp only [passingCraft]
    have e : turningAt meanRadius 0 0 siderealDay ((t : ℝ) / 10 ^ 9) = turning meanRadius siderealDay ((t : ℝ) / 10 ^ 9) := by
      simp [turningAt, turning]
    have habs : |(t : ℝ) / 10 ^ 9| ≤ 5000 := by
      have h1 : ((-5000000000000 : ℤ) : ℝ) < (t : ℝ) := by exact_mod_cast h1
      have h2 : (t : ℝ) < ((5000000000000 : ℤ) : ℝ) := by exact_mod_cast h2
      push_cast at h1 h2
      rw [abs_le]
      constructor
      · rw [le_div_iff₀ (by norm_num)]; linarith
      · rw [div_le_iff₀ (by norm_num)]; linarith
    rw [hthr, e, hT _ habs, abs_div, abs_of_pos (by norm_num : (0 : ℝ) < 10 ^ 9), div_le_iff₀ (by norm_num)]
    have hcq : (2000000000000 : ℚ) < c := by exact_mod_cast hcl
    push_cast at a1 a2
    have hkey : |(t : ℝ)| ≤ T * 10 ^ 9 ↔ -(c : ℚ) < t ∧ t < c := by
      rw [abs_le]
      constructor
      · rintro ⟨k1, k2⟩
        have k1 : -(c : ℝ) ≤ t := by linarith
        have k2 : (t : ℝ) ≤ c := by linarith
        have k1 : -(c : ℚ) ≤ t := by exact_mod_cast k1
        have k2 : t ≤ (c : ℚ) := by exact_mod_cast k2
        exact ⟨lt_of_le_of_ne k1 (Ne.symm a1.1), lt_of_le_of_ne k2 a2.1⟩
      · rintro ⟨k1, k2⟩
        have b1 := a1.2
        have b2 := a2.2
        rw [abs_of_pos (by linarith)] at b1
        rw [abs_of_neg (by linarith)] at b2
        have b1 : (1 : ℝ) ≤ t - -(c : ℝ) := by exact_mod_cast b1
        have b2 : (1 : ℝ) ≤ -((t : ℝ) - c) := by exact_mod_cast b2
        constructor <;> linarith
    rw [hkey]
    unfold visibleAt
    by_cases k1 : (-(c : ℚ)) ≤ t
    · have k1' : -(c : ℚ) < t := lt_of_le_of_ne k1 (Ne.symm a1.1)
      by_cases k2 : (c : ℚ) ≤ t
      · simp [k1, k2]
      · have k2' : t < c := not_le.1 k2
        simp [k1, k2, k1', k2']
    · have k2 : ¬ (c : ℚ) ≤ t := by intro h; exact k1 (by linarith)
      have k1' : ¬ -(c : ℚ) < t := fun h => k1 h.le
      simp [k1, k2, k1']

/-- Its total access time is the time for which it sees the place, to four nanoseconds; and the place is observed at 0. -/
example (sort sort' : SortValues Obs.start) : ∃ c rows,
    collectMultiObservations sort 1 [[(passingCraft c).member (-5000000000000) 5000000000000]] = .ok rows ∧
    |totalAccess (aggregateObservations sort' rows) 1 -
      (seenTicks (-5000000000000) 5000000000000 0 0 [[passingCraft c]]).ncard| ≤ 4 ∧
    ∃ a ∈ aggregateObservations sort' rows, a.pointId = 1 ∧ a.start ≤ 0 ∧ 0 + 1 ≤ a.end_ := by
  obtain ⟨c, hc, -, h⟩ := passing_analysed
  have hall : ∀ s ∈ [[passingCraft c]], ∀ x ∈ s, Analysed (-5000000000000) 5000000000000 1 0 0 x := by
    intro s hs x hx
    rw [List.mem_singleton.1 hs] at hx
    rw [List.mem_singleton.1 hx]
    exact h
  obtain ⟨rows, hrows⟩ : ∃ rows, collectMultiObservations sort 1
      [[(passingCraft c).member (-5000000000000) 5000000000000]] = .ok rows := ⟨_, rfl⟩
  refine ⟨c, rows, hrows, ?_, ?_⟩
  · exact C160_total sort sort' 1 _ _ 1 0 0 [[passingCraft c]] rows (by norm_num) (by norm_num) hall hrows
  · refine (C160_observed sort sort' 1 _ _ 1 0 0 [[passingCraft c]] rows (by norm_num) (by norm_num) hall hrows 0 (by norm_num)
      (by norm_num)).1 ⟨_, List.mem_singleton_self _, _, List.mem_singleton_self _, _, List.mem_singleton_self _, ?_, ?_⟩
    · rintro ⟨e, he, h1, h2⟩
      have hcq : (2000000000000 : ℚ) < c := by exact_mod_cast hc
      simp only [List.mem_cons, List.not_mem_nil, or_false] at he
      rw [abs_lt] at h2
      rcases he with rfl | rfl | rfl
      · push_cast at h2; linarith [h2.2]
      · simp [isCrossing] at h1
      · push_cast at h2; linarith [h2.1]
    · have hl : (⟨⟨"x", 0, false⟩, 180, fun _ => true, [(-c, .rise), (0, .culminate), (c, .set)]⟩ : Looking) ∈
        (passingCraft c).instruments := List.mem_singleton_self _
      rw [← sees_iff h.low (by norm_num) (by norm_num)]
      obtain ⟨T, hT1, -, hT⟩ := pass_iff
      have hthr : regardThreshold meanRadius 180 = 0 := by
        unfold regardThreshold minElevation
        have hR := meanRadius_gt
        have e1 : radians 180 / 2 = Real.pi / 2 := by unfold radians; ring
        have e2 : sinRho meanRadius 0 = 1 / 2 := by
          unfold sinRho
          rw [div_eq_div_iff (by linarith) (by norm_num)]
          ring
        rw [e1, Real.sin_pi_div_two, e2]
        norm_num
      simp only [passingCraft, hthr]
      have e : ∀ x, turningAt meanRadius 0 0 siderealDay x = turning meanRadius siderealDay x := by
        intro x; simp [turningAt, turning]
      rw [e, hT]
      · rw [abs_of_nonneg (by norm_num)]; norm_num; linarith
      · rw [abs_of_nonneg (by norm_num)]; norm_num

end Tatc.Props
