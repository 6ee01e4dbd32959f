import Verif.Spec.Symmetry
import Verif.Props.InView
import Verif.Props.Approach

/-!
# C169: total access does not depend on the meridian or hemisphere
-/

namespace Tatc.Props
open Tatc Tatc.Num Tatc.Geometry Tatc.Spec Tatc.Orbit Tatc.Coverage Tatc.Pandas

/-- Two satellites at the same height, with instruments of the same fields of regard, the second of which has its node
`turn` degrees further and starts `shift` degrees further along its orbit. -/
structure Shifted (turn shift : ℝ) (c c' : Craft) : Prop where
  altitude : c'.altitude = c.altitude
  regard : c'.instruments.map Looking.fieldOfRegard = c.instruments.map Looking.fieldOfRegard
  orbit : ∃ inclination raan fromNode, StartsAt inclination raan fromNode c.u c.v ∧
    StartsAt inclination (raan + turn) (fromNode + shift) c'.u c'.v

/-- A turn about the axis of the Earth, after which north is `s` times north. -/
noncomputable def moved (turn s : ℝ) (a : V3) : V3 :=
  ⟨cosDeg turn * a.x - sinDeg turn * a.y, sinDeg turn * a.x + cosDeg turn * a.y, s * a.z⟩

theorem moved_dot (turn : ℝ) {s : ℝ} (hs : s ^ 2 = 1) (a b : V3) : (moved turn s a).dot (moved turn s b) = a.dot b := by
  have h : cosDeg turn ^ 2 + sinDeg turn ^ 2 = 1 := Real.cos_sq_add_sin_sq _
  simp only [moved, V3.dot]
  linear_combination (a.x * b.x + a.y * b.y) * h + a.z * b.z * hs

theorem moved_sub (turn s : ℝ) (a b : V3) : sub (moved turn s a) (moved turn s b) = moved turn s (sub a b) := by
  simp only [moved, sub, V3.mk.injEq]
  refine ⟨?_, ?_, ?_⟩ <;> ring

theorem moved_smul (turn s c : ℝ) (a : V3) : (moved turn s a).smul c = moved turn s (a.smul c) := by
  simp only [moved, V3.smul, V3.mk.injEq]
  refine ⟨?_, ?_, ?_⟩ <;> ring

theorem moved_circular (turn s a p : ℝ) (u v : V3) (t : ℝ) :
    circularPosition a p (moved turn s u) (moved turn s v) t = moved turn s (circularPosition a p u v t) := by
  simp only [circularPosition, moved, V3.smul, V3.add, V3.mk.injEq]
  refine ⟨?_, ?_, ?_⟩ <;> ring

theorem moved_turning (turn r lat lon day t : ℝ) :
    turningAt r lat (lon + turn * Real.pi / 180) day t = moved turn 1 (turningAt r lat lon day t) := by
  simp only [turningAt, moved, V3.mk.injEq, ← add_assoc, Real.cos_add _ (turn * Real.pi / 180),
    Real.sin_add _ (turn * Real.pi / 180), cosDeg, sinDeg]
  refine ⟨?_, ?_, ?_⟩ <;> ring

theorem mirrored_turning (r lat lon day t : ℝ) :
    turningAt r (-lat) lon day t = moved 0 (-1) (turningAt r lat lon day t) := by
  simp [turningAt, moved, cosDeg, sinDeg]

theorem moved_elevation (turn : ℝ) {s : ℝ} (hs : s ^ 2 = 1) (e : ℝ) (a b : V3) :
    ElevationAtLeast e (moved turn s a) (moved turn s b) ↔ ElevationAtLeast e a b := by
  simp only [ElevationAtLeast, len, moved_sub, moved_dot turn hs]

theorem moved_nadir (turn : ℝ) {s : ℝ} (hs : s ^ 2 = 1) (e : ℝ) (a b : V3) :
    OffNadirAtMost e (moved turn s a) (moved turn s b) ↔ OffNadirAtMost e a b := by
  simp only [OffNadirAtMost, len, moved_sub, moved_smul, moved_dot turn hs]

theorem moved_direction (turn inclination raan w : ℝ) :
    perigeeDirection inclination (raan + turn) w = moved turn 1 (perigeeDirection inclination raan w) := by
  simp only [perigeeDirection, moved, cosDeg_add, sinDeg_add, V3.mk.injEq]
  refine ⟨?_, ?_, ?_⟩ <;> ring

theorem half_turn : cosDeg 180 = -1 ∧ sinDeg 180 = 0 := by
  unfold cosDeg sinDeg
  rw [show (180 : ℝ) * Real.pi / 180 = Real.pi by ring]
  exact ⟨Real.cos_pi, Real.sin_pi⟩

theorem mirrored_direction (inclination raan w : ℝ) :
    perigeeDirection inclination (raan + 180) (w + 180) = moved 0 (-1) (perigeeDirection inclination raan w) := by
  have h0 : cosDeg 0 = 1 ∧ sinDeg 0 = 0 := by simp [cosDeg, sinDeg]
  simp only [perigeeDirection, moved, cosDeg_add, sinDeg_add, V3.mk.injEq, half_turn, h0]
  refine ⟨?_, ?_, ?_⟩ <;> ring

/-- A satellite that is moved sees a place that is moved in the same way, when the satellite sees the place. -/
theorem sees_moved (turn : ℝ) {s : ℝ} (hs : s ^ 2 = 1) {c c' : Craft} (ha : c'.altitude = c.altitude)
    (hu : c'.u = moved turn s c.u) (hv : c'.v = moved turn s c.v) {lat lon lat' lon' : ℝ}
    (hp : ∀ t, turningAt meanRadius lat' lon' siderealDay t = moved turn s (turningAt meanRadius lat lon siderealDay t))
    (angle : ℝ) (t : ℚ) :
    c'.flight.Sees angle meanRadius siderealDay lat' lon' t ↔ c.flight.Sees angle meanRadius siderealDay lat lon t := by
  simp only [Flight.Sees, Craft.flight, ha, hu, hv, hp, moved_circular, moved_elevation turn hs, moved_nadir turn hs]

/-- The places seen by constellations that are moved. -/
theorem seen_moved (turn : ℝ) {s : ℝ} (hs : s ^ 2 = 1) {lat lon lat' lon' : ℝ} (start end_ : Int)
    (hp : ∀ t, turningAt meanRadius lat' lon' siderealDay t = moved turn s (turningAt meanRadius lat lon siderealDay t))
    {satellites satellites' : List (List Craft)}
    (h : List.Forall₂ (List.Forall₂ fun c c' => c'.altitude = c.altitude ∧
      c'.instruments.map Looking.fieldOfRegard = c.instruments.map Looking.fieldOfRegard ∧
      c'.u = moved turn s c.u ∧ c'.v = moved turn s c.v) satellites satellites') :
    seenTicks start end_ lat' lon' satellites' = seenTicks start end_ lat lon satellites := by
  have hc : ∀ t : ℚ, ∀ c c' : Craft, (c'.altitude = c.altitude ∧
      c'.instruments.map Looking.fieldOfRegard = c.instruments.map Looking.fieldOfRegard ∧
      c'.u = moved turn s c.u ∧ c'.v = moved turn s c.v) →
      ((∃ l ∈ c'.instruments, c'.flight.Sees (l.fieldOfRegard / 2) meanRadius siderealDay lat' lon' t) ↔
        ∃ l ∈ c.instruments, c.flight.Sees (l.fieldOfRegard / 2) meanRadius siderealDay lat lon t) := by
    rintro t c c' ⟨ha, hf, hu, hv⟩
    simp only [sees_moved turn hs ha hu hv hp]
    have e : ∀ ls : List Looking, (∃ l ∈ ls, c.flight.Sees (l.fieldOfRegard / 2) meanRadius siderealDay lat lon t) ↔
        ∃ f ∈ ls.map Looking.fieldOfRegard, c.flight.Sees (f / 2) meanRadius siderealDay lat lon t := by
      intro ls
      simp
    rw [e, e, hf]
  have hl : ∀ t : ℚ, ∀ l l' : List Craft, List.Forall₂ (fun c c' => c'.altitude = c.altitude ∧
      c'.instruments.map Looking.fieldOfRegard = c.instruments.map Looking.fieldOfRegard ∧
      c'.u = moved turn s c.u ∧ c'.v = moved turn s c.v) l l' →
      ((∃ c ∈ l', ∃ l ∈ c.instruments, c.flight.Sees (l.fieldOfRegard / 2) meanRadius siderealDay lat' lon' t) ↔
        ∃ c ∈ l, ∃ l ∈ c.instruments, c.flight.Sees (l.fieldOfRegard / 2) meanRadius siderealDay lat lon t) := by
    intro t l l' h
    induction h with
    | nil => simp
    | cons h1 _ ih => simp only [List.exists_mem_cons_iff, ih, hc t _ _ h1]
  have hs : ∀ t : ℚ, (∃ s ∈ satellites', ∃ c ∈ s, ∃ l ∈ c.instruments,
      c.flight.Sees (l.fieldOfRegard / 2) meanRadius siderealDay lat' lon' t) ↔
      ∃ s ∈ satellites, ∃ c ∈ s, ∃ l ∈ c.instruments,
        c.flight.Sees (l.fieldOfRegard / 2) meanRadius siderealDay lat lon t := by
    intro t
    induction h with
    | nil => simp
    | cons h1 _ ih => simp only [List.exists_mem_cons_iff, ih, hl t _ _ h1]
  unfold seenTicks
  simp only [hs]

theorem shifted_moved {turn : ℝ} {c c' : Craft} (h : Shifted turn 0 c c') : c'.altitude = c.altitude ∧
    c'.instruments.map Looking.fieldOfRegard = c.instruments.map Looking.fieldOfRegard ∧
    c'.u = moved turn 1 c.u ∧ c'.v = moved turn 1 c.v := by
  obtain ⟨ha, hf, i, r, w, ⟨h1, h2⟩, h3, h4⟩ := h
  rw [h1, h2, h3, h4, moved_direction, moved_direction, add_zero]
  exact ⟨ha, hf, rfl, rfl⟩

theorem mirrored_moved {c c' : Craft} (h : Shifted 180 180 c c') : c'.altitude = c.altitude ∧
    c'.instruments.map Looking.fieldOfRegard = c.instruments.map Looking.fieldOfRegard ∧
    c'.u = moved 0 (-1) c.u ∧ c'.v = moved 0 (-1) c.v := by
  obtain ⟨ha, hf, i, r, w, ⟨h1, h2⟩, h3, h4⟩ := h
  rw [h1, h2, h3, h4, add_right_comm w 180 90, mirrored_direction, mirrored_direction]
  exact ⟨ha, hf, rfl, rfl⟩

theorem abs_apart {a b c x y : Int} (h1 : |a - c| ≤ x) (h2 : |b - c| ≤ y) : |b - a| ≤ x + y := by
  rw [abs_le] at *
  omega

/-- **C169 (longitude).** The nodes of all satellites and the longitude of the point are turned by the same angle: the total
access time is the same, to within twice the tolerance for every rise and set of the two analyses. -/
theorem C169_longitude (sort sort' sort₂ sort₂' : SortValues Obs.start) (k k' start end_ tolerance : Int) (lat lon turn : ℝ)
    (satellites satellites' : List (List Craft)) (rows rows' : List Obs) (hse : start ≤ end_) (ht : 0 ≤ tolerance)
    (hturn : List.Forall₂ (List.Forall₂ (Shifted turn 0)) satellites satellites')
    (h : ∀ s ∈ satellites, ∀ c ∈ s, Analysed start end_ tolerance lat lon c)
    (h' : ∀ s ∈ satellites', ∀ c ∈ s, Analysed start end_ tolerance lat (lon + turn * Real.pi / 180) c)
    (hrun : collectMultiObservations sort k (satellites.map fun s => s.map (Craft.member start end_)) = .ok rows)
    (hrun' : collectMultiObservations sort₂ k' (satellites'.map fun s => s.map (Craft.member start end_)) = .ok rows') :
    |totalAccess (aggregateObservations sort₂' rows') k' - totalAccess (aggregateObservations sort' rows) k| ≤
      2 * tolerance * (crossingsOf satellites).length + 2 * tolerance * (crossingsOf satellites').length := by
  have e := seen_moved turn (s := 1) (by norm_num) start end_ (moved_turning turn meanRadius lat lon siderealDay)
    (hturn.imp fun _ _ h => h.imp fun _ _ h => shifted_moved h)
  have h1 := C160_total sort sort' k start end_ tolerance lat lon satellites rows hse ht h hrun
  have h2 := C160_total sort₂ sort₂' k' start end_ tolerance lat _ satellites' rows' hse ht h' hrun'
  rw [e] at h2
  exact abs_apart h1 h2

/-- **C169 (hemisphere).** Node and start of all satellites are opposite, and the point is as far south as it was north: the
total access time is the same, to within twice the tolerance for every rise and set of the two analyses. -/
theorem C169_hemisphere (sort sort' sort₂ sort₂' : SortValues Obs.start) (k k' start end_ tolerance : Int) (lat lon : ℝ)
    (satellites satellites' : List (List Craft)) (rows rows' : List Obs) (hse : start ≤ end_) (ht : 0 ≤ tolerance)
    (hmirror : List.Forall₂ (List.Forall₂ (Shifted 180 180)) satellites satellites')
    (h : ∀ s ∈ satellites, ∀ c ∈ s, Analysed start end_ tolerance lat lon c)
    (h' : ∀ s ∈ satellites', ∀ c ∈ s, Analysed start end_ tolerance (-lat) lon c)
    (hrun : collectMultiObservations sort k (satellites.map fun s => s.map (Craft.member start end_)) = .ok rows)
    (hrun' : collectMultiObservations sort₂ k' (satellites'.map fun s => s.map (Craft.member start end_)) = .ok rows') :
    |totalAccess (aggregateObservations sort₂' rows') k' - totalAccess (aggregateObservations sort' rows) k| ≤
      2 * tolerance * (crossingsOf satellites).length + 2 * tolerance * (crossingsOf satellites').length := by
  have e := seen_moved 0 (s := -1) (by norm_num) start end_ (mirrored_turning meanRadius lat lon siderealDay)
    (hmirror.imp fun _ _ h => h.imp fun _ _ h => mirrored_moved h)
  have h1 := C160_total sort sort' k start end_ tolerance lat lon satellites rows hse ht h hrun
  have h2 := C160_total sort₂ sort₂' k' start end_ tolerance _ lon satellites' rows' hse ht h' hrun'
  rw [e] at h2
  exact abs_apart h1 h2

/-- What is reported of a satellite and a place is reported of both when they are moved. -/
theorem analysed_moved (turn : ℝ) {s : ℝ} (hs : s ^ 2 = 1) {start end_ tolerance : Int} {c c' : Craft}
    (ha : c'.altitude = c.altitude) (hi : c'.instruments = c.instruments)
    (hu : c'.u = moved turn s c.u) (hv : c'.v = moved turn s c.v) {lat lon lat' lon' : ℝ}
    (hp : ∀ t, turningAt meanRadius lat' lon' siderealDay t = moved turn s (turningAt meanRadius lat lon siderealDay t))
    (h : Analysed start end_ tolerance lat lon c) : Analysed start end_ tolerance lat' lon' c' := by
  obtain ⟨⟨a1, a2, a3, a4, a5⟩, h2, h3, h4, h5⟩ := h
  refine ⟨⟨by rwa [ha], by rwa [ha], by rwa [hu, moved_dot turn hs], by rwa [hv, moved_dot turn hs],
    by rwa [hu, hv, moved_dot turn hs]⟩, by rwa [hi], by rwa [hi, ha], by rwa [hi], ?_⟩
  simp only [ha, hu, hv, hp, moved_circular, moved_elevation turn hs, hi]
  exact h5

/-- A satellite that passes over a place of the equator, one turned by any angle that passes over the place turned by the same
angle, and one that is mirrored: their total access times differ by at most eight nanoseconds. -/
example (sort sort' : SortValues Obs.start) (turn : ℝ) : ∃ (c c' d : Craft) (rows rows' rows₂ : List Obs),
    Shifted turn 0 c c' ∧ Shifted 180 180 c d ∧ c.instruments ≠ [] ∧
    collectMultiObservations sort 1 [[c.member (-5000000000000) 5000000000000]] = .ok rows ∧
    collectMultiObservations sort 1 [[c'.member (-5000000000000) 5000000000000]] = .ok rows' ∧
    collectMultiObservations sort 1 [[d.member (-5000000000000) 5000000000000]] = .ok rows₂ ∧
    |totalAccess (aggregateObservations sort' rows') 1 - totalAccess (aggregateObservations sort' rows) 1| ≤ 8 ∧
    |totalAccess (aggregateObservations sort' rows₂) 1 - totalAccess (aggregateObservations sort' rows) 1| ≤ 8 := by
  obtain ⟨T, -, -, h⟩ := passing_analysed
  have h90 : cosDeg 90 = 0 ∧ sinDeg 90 = 1 := by
    unfold cosDeg sinDeg
    rw [show (90 : ℝ) * Real.pi / 180 = Real.pi / 2 by ring]
    exact ⟨Real.cos_pi_div_two, Real.sin_pi_div_two⟩
  have h0 : cosDeg 0 = 1 ∧ sinDeg 0 = 0 := by simp [cosDeg, sinDeg]
  have hst : StartsAt 0 0 0 (passingCraft T).u (passingCraft T).v := by
    simp [StartsAt, passingCraft, perigeeDirection, h90, h0]
  have hone : ∀ lat lon (c : Craft), Analysed (-5000000000000) 5000000000000 1 lat lon c →
      ∀ s ∈ [[c]], ∀ x ∈ s, Analysed (-5000000000000) 5000000000000 1 lat lon x := by
    intro lat lon c hc s hs x hx
    rw [List.mem_singleton.1 hs] at hx
    rwa [List.mem_singleton.1 hx]
  let c' : Craft := { passingCraft T with u := perigeeDirection 0 (0 + turn) (0 + 0), v := perigeeDirection 0 (0 + turn) (0 + 0 + 90) }
  let d : Craft := { passingCraft T with u := perigeeDirection 0 (0 + 180) (0 + 180), v := perigeeDirection 0 (0 + 180) (0 + 180 + 90) }
  have hc' : Shifted turn 0 (passingCraft T) c' := ⟨rfl, rfl, 0, 0, 0, hst, rfl, rfl⟩
  have hd : Shifted 180 180 (passingCraft T) d := ⟨rfl, rfl, 0, 0, 0, hst, rfl, rfl⟩
  have hac := analysed_moved turn (s := 1) (by norm_num) (c := passingCraft T) (c' := c') rfl rfl (shifted_moved hc').2.2.1 (shifted_moved hc').2.2.2
    (moved_turning turn meanRadius 0 0 siderealDay) h
  have had := analysed_moved 0 (s := -1) (by norm_num) (c := passingCraft T) (c' := d) rfl rfl (mirrored_moved hd).2.2.1 (mirrored_moved hd).2.2.2
    (mirrored_turning meanRadius 0 0 siderealDay) h
  refine ⟨passingCraft T, c', d, _, _, _, hc', hd, by simp [passingCraft], rfl, rfl, rfl, ?_, ?_⟩
  · exact C169_longitude sort sort' sort sort' 1 1 _ _ 1 0 0 turn [[passingCraft T]] [[c']] _ _ (by norm_num) (by norm_num)
      (.cons (.cons hc' .nil) .nil) (hone _ _ _ h) (hone _ _ _ hac) rfl rfl
  · exact C169_hemisphere sort sort' sort sort' 1 1 _ _ 1 0 0 [[passingCraft T]] [[d]] _ _ (by norm_num) (by norm_num)
      (.cons (.cons hd .nil) .nil) (hone _ _ _ h) (hone _ _ _ had) rfl rfl

end Tatc.Props
