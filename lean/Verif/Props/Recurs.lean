import Verif.Props.Symmetry
import Verif.Props.SightGap

/-!
# C172: access recurs with the orbits
-/

namespace Tatc.Props
open Tatc Tatc.Num Tatc.Geometry Tatc.Spec Tatc.Orbit Tatc.Coverage Tatc.Pandas

/-- The same satellite in another analysis: the same orbit and fields of regard. -/
structure SameCraft (c c' : Craft) : Prop where
  altitude : c'.altitude = c.altitude
  start : c'.u = c.u
  ahead : c'.v = c.v
  regard : c'.instruments.map Looking.fieldOfRegard = c.instruments.map Looking.fieldOfRegard

/-- `delay` (nanoseconds) is a whole number of orbits of the satellite. -/
def WholeOrbits (delay : Int) (c : Craft) : Prop := ∃ n : ℤ, (delay : ℝ) / 10 ^ 9 = n * orbitPeriodSeconds c.altitude

theorem circular_recurs {a p : ℝ} (hp : p ≠ 0) (u v : V3) (n : ℤ) (t : ℝ) :
    circularPosition a p u v (t + n * p) = circularPosition a p u v t := by
  unfold circularPosition
  rw [show 2 * Real.pi * (t + n * p) / p = 2 * Real.pi * t / p + n * (2 * Real.pi) by field_simp, Real.cos_add_int_mul_two_pi,
    Real.sin_add_int_mul_two_pi]

theorem turning_later (r lat lon day d t : ℝ) :
    turningAt r lat lon day (t + d) = turningAt r lat (lon + 2 * Real.pi * d / day) day t := by
  unfold turningAt
  rw [show 2 * Real.pi * (t + d) / day + lon = 2 * Real.pi * t / day + (lon + 2 * Real.pi * d / day) by ring]

/-- After whole orbits the satellite sees what it saw where the Earth has turned to. -/
theorem sees_later {c c' : Craft} (hs : SameCraft c c') (hP : orbitPeriodSeconds c.altitude ≠ 0) {delay : Int}
    (hw : WholeOrbits delay c) (angle lat lon : ℝ) (t : ℚ) :
    c'.flight.Sees angle meanRadius siderealDay lat lon (t + delay) ↔
      c.flight.Sees angle meanRadius siderealDay lat (lon + 2 * Real.pi * (delay / 10 ^ 9) / siderealDay) t := by
  obtain ⟨n, hn⟩ := hw
  have e : (((t + delay : ℚ) : ℚ) : ℝ) / 10 ^ 9 = (t : ℝ) / 10 ^ 9 + (delay : ℝ) / 10 ^ 9 := by push_cast; ring
  simp only [Flight.Sees, Craft.flight, hs.altitude, hs.start, hs.ahead, e, turning_later]
  rw [hn, circular_recurs hP]

theorem period_ne {c : Craft} (hc : c.Low) : orbitPeriodSeconds c.altitude ≠ 0 := by
  have hR := meanRadius_gt
  have hw : 0 < Real.sqrt (mu / (meanRadius + c.altitude) ^ 3) := rate_pos (by linarith [hc.above])
  have hP : orbitPeriodSeconds c.altitude = 2 * Real.pi / Real.sqrt (mu / (meanRadius + c.altitude) ^ 3) := rfl
  rw [hP]
  have := Real.pi_pos
  positivity

theorem seen_later {lat lon : ℝ} (start end_ delay : Int) {satellites satellites' : List (List Craft)}
    (h : List.Forall₂ (List.Forall₂ SameCraft) satellites satellites')
    (hlow : ∀ s ∈ satellites, ∀ c ∈ s, c.Low ∧ WholeOrbits delay c) :
    seenTicks (start + delay) (end_ + delay) lat lon satellites' =
      (fun t => t + delay) '' seenTicks start end_ lat (lon + 2 * Real.pi * (delay / 10 ^ 9) / siderealDay) satellites := by
  have hc : ∀ t : ℚ, ∀ c c' : Craft, SameCraft c c' → c.Low ∧ WholeOrbits delay c →
      ((∃ l ∈ c'.instruments, c'.flight.Sees (l.fieldOfRegard / 2) meanRadius siderealDay lat lon (t + delay)) ↔
        ∃ l ∈ c.instruments, c.flight.Sees (l.fieldOfRegard / 2) meanRadius siderealDay lat
          (lon + 2 * Real.pi * (delay / 10 ^ 9) / siderealDay) t) := by
    intro t c c' hs hw
    simp only [sees_later hs (period_ne hw.1) hw.2]
    generalize lon + 2 * Real.pi * (delay / 10 ^ 9) / siderealDay = lon'
    have e : ∀ ls : List Looking, (∃ l ∈ ls, c.flight.Sees (l.fieldOfRegard / 2) meanRadius siderealDay lat lon' t) ↔
        ∃ f ∈ ls.map Looking.fieldOfRegard, c.flight.Sees (f / 2) meanRadius siderealDay lat lon' t := by
      intro ls
      simp
    rw [e, e, hs.regard]
  have hl : ∀ t : ℚ, ∀ l l' : List Craft, List.Forall₂ SameCraft l l' → (∀ c ∈ l, c.Low ∧ WholeOrbits delay c) →
      ((∃ c ∈ l', ∃ l ∈ c.instruments, c.flight.Sees (l.fieldOfRegard / 2) meanRadius siderealDay lat lon (t + delay)) ↔
        ∃ c ∈ l, ∃ l ∈ c.instruments, c.flight.Sees (l.fieldOfRegard / 2) meanRadius siderealDay lat
          (lon + 2 * Real.pi * (delay / 10 ^ 9) / siderealDay) t) := by
    intro t l l' h hlow
    induction h with
    | nil => simp
    | cons h1 _ ih =>
      simp only [List.exists_mem_cons_iff, hc t _ _ h1 (hlow _ List.mem_cons_self),
        ih fun c hc => hlow c (List.mem_cons_of_mem _ hc)]
  have hs : ∀ t : ℚ, (∃ s ∈ satellites', ∃ c ∈ s, ∃ l ∈ c.instruments,
      c.flight.Sees (l.fieldOfRegard / 2) meanRadius siderealDay lat lon (t + delay)) ↔
      ∃ s ∈ satellites, ∃ c ∈ s, ∃ l ∈ c.instruments,
        c.flight.Sees (l.fieldOfRegard / 2) meanRadius siderealDay lat
          (lon + 2 * Real.pi * (delay / 10 ^ 9) / siderealDay) t := by
    intro t
    induction h with
    | nil => simp
    | cons h1 _ ih =>
      simp only [List.exists_mem_cons_iff, hl t _ _ h1 (hlow _ List.mem_cons_self),
        ih fun s hs => hlow s (List.mem_cons_of_mem _ hs)]
  ext t
  simp only [seenTicks, Set.mem_image, Set.mem_ofPred_eq]
  constructor
  · rintro ⟨h1, h2, h3⟩
    refine ⟨t - delay, ⟨by omega, by omega, (hs _).1 ?_⟩, by ring⟩
    rw [show ((t - delay : ℤ) : ℚ) + 1 / 2 + delay = (t : ℚ) + 1 / 2 by push_cast; ring]
    exact h3
  · rintro ⟨x, ⟨h1, h2, h3⟩, rfl⟩
    refine ⟨by omega, by omega, ?_⟩
    rw [show ((x + delay : ℤ) : ℚ) + 1 / 2 = (x : ℚ) + 1 / 2 + delay by push_cast; ring]
    exact (hs _).2 h3

/-- **C172 (orbits).** After a whole number of orbits of every satellite, the total access time of a point is that which a
point had before, at the longitude to which the Earth has turned in the meantime, to within twice the tolerance for every rise
and set of the two analyses. -/
theorem C172_orbits (sort sort' sort₂ sort₂' : SortValues Obs.start) (k k' start end_ tolerance delay : Int) (lat lon : ℝ)
    (satellites satellites' : List (List Craft)) (rows rows' : List Obs) (hse : start ≤ end_) (ht : 0 ≤ tolerance)
    (hsame : List.Forall₂ (List.Forall₂ SameCraft) satellites satellites')
    (hwhole : ∀ s ∈ satellites, ∀ c ∈ s, WholeOrbits delay c)
    (h : ∀ s ∈ satellites, ∀ c ∈ s, Analysed start end_ tolerance lat
      (lon + 2 * Real.pi * (delay / 10 ^ 9) / siderealDay) c)
    (h' : ∀ s ∈ satellites', ∀ c ∈ s, Analysed (start + delay) (end_ + delay) tolerance lat lon c)
    (hrun : collectMultiObservations sort k (satellites.map fun s => s.map (Craft.member start end_)) = .ok rows)
    (hrun' : collectMultiObservations sort₂ k'
      (satellites'.map fun s => s.map (Craft.member (start + delay) (end_ + delay))) = .ok rows') :
    |totalAccess (aggregateObservations sort₂' rows') k' - totalAccess (aggregateObservations sort' rows) k| ≤
      2 * tolerance * (crossingsOf satellites).length + 2 * tolerance * (crossingsOf satellites').length := by
  have e := seen_later (lat := lat) (lon := lon) start end_ delay hsame fun s hs c hc =>
    ⟨(h s hs c hc).low, hwhole s hs c hc⟩
  have h1 := C160_total sort sort' k start end_ tolerance lat _ satellites rows hse ht h hrun
  have h2 := C160_total sort₂ sort₂' k' (start + delay) (end_ + delay) tolerance lat lon satellites' rows' (by omega) ht h' hrun'
  rw [e, Set.ncard_image_of_injective _ (add_left_injective delay)] at h2
  exact abs_apart h1 h2

theorem turning_days {day : ℝ} (hd : day ≠ 0) (r lat lon : ℝ) (n : ℤ) (t : ℝ) :
    turningAt r lat (lon + 2 * Real.pi * (n * day) / day) day t = turningAt r lat lon day t := by
  unfold turningAt
  rw [show 2 * Real.pi * t / day + (lon + 2 * Real.pi * (n * day) / day) = 2 * Real.pi * t / day + lon + n * (2 * Real.pi) by
    field_simp; ring, Real.cos_add_int_mul_two_pi, Real.sin_add_int_mul_two_pi]

/-- **C172 (repeating tracks).** After a whole number of orbits of every satellite that is also a whole number of sidereal
days, the total access time of every point is as before, to within twice the tolerance for every rise and set. -/
theorem C172_cycle (sort sort' sort₂ sort₂' : SortValues Obs.start) (k k' start end_ tolerance delay : Int) (lat lon : ℝ)
    (satellites satellites' : List (List Craft)) (rows rows' : List Obs) (hse : start ≤ end_) (ht : 0 ≤ tolerance)
    (hsame : List.Forall₂ (List.Forall₂ SameCraft) satellites satellites')
    (hwhole : ∀ s ∈ satellites, ∀ c ∈ s, WholeOrbits delay c)
    (hdays : ∃ n : ℤ, (delay : ℝ) / 10 ^ 9 = n * siderealDay)
    (h : ∀ s ∈ satellites, ∀ c ∈ s, Analysed start end_ tolerance lat lon c)
    (h' : ∀ s ∈ satellites', ∀ c ∈ s, Analysed (start + delay) (end_ + delay) tolerance lat lon c)
    (hrun : collectMultiObservations sort k (satellites.map fun s => s.map (Craft.member start end_)) = .ok rows)
    (hrun' : collectMultiObservations sort₂ k'
      (satellites'.map fun s => s.map (Craft.member (start + delay) (end_ + delay))) = .ok rows') :
    |totalAccess (aggregateObservations sort₂' rows') k' - totalAccess (aggregateObservations sort' rows) k| ≤
      2 * tolerance * (crossingsOf satellites).length + 2 * tolerance * (crossingsOf satellites').length := by
  obtain ⟨n, hn⟩ := hdays
  refine C172_orbits sort sort' sort₂ sort₂' k k' start end_ tolerance delay lat lon satellites satellites' rows rows' hse ht
    hsame hwhole (fun s hs c hc => ?_) h' hrun hrun'
  have ha := h s hs c hc
  have hd : siderealDay ≠ 0 := by unfold siderealDay; norm_num
  refine ⟨ha.low, ha.looks, ha.enough, ha.counts, ?_⟩
  intro l hl
  have := ha.reported l hl
  simp only [hn, turning_days hd]
  exact this

/-- A height at which there are twelve orbits in a sidereal day. -/
theorem twelfth_height : ∃ altitude : ℝ, 1000000 < altitude ∧ altitude ≤ 10000000 ∧ orbitPeriodSeconds altitude = siderealDay / 12 := by
  have p1 := Real.pi_gt_d2
  have p2 := Real.pi_lt_d2
  have hq : 0 < siderealDay / 12 / (2 * Real.pi) := by unfold siderealDay; positivity
  have q1 : 1100 < siderealDay / 12 / (2 * Real.pi) := by
    rw [lt_div_iff₀ (by positivity)]; unfold siderealDay; linarith
  have q2 : siderealDay / 12 / (2 * Real.pi) < 1200 := by
    rw [div_lt_iff₀ (by positivity)]; unfold siderealDay; linarith
  have e0 : siderealDay / 12 = 2 * Real.pi * (siderealDay / 12 / (2 * Real.pi)) := by field_simp
  rw [e0]
  generalize siderealDay / 12 / (2 * Real.pi) = q at *
  have hmu : 0 < mu := by unfold mu; norm_num
  have h3 : ((mu * q ^ 2) ^ ((1 : ℝ) / 3)) ^ 3 = mu * q ^ 2 := by
    rw [← Real.rpow_natCast, ← Real.rpow_mul (by positivity)]
    norm_num
  have hpos : 0 < (mu * q ^ 2) ^ ((1 : ℝ) / 3) := by positivity
  generalize (mu * q ^ 2) ^ ((1 : ℝ) / 3) = a at *
  have hR := meanRadius_gt
  have r2 : 1100 ^ 2 < q ^ 2 := by nlinarith
  have r3 : q ^ 2 < 1200 ^ 2 := by nlinarith
  have a1 : meanRadius + 1000000 < a := by
    by_contra h
    have := pow_le_pow_left₀ hpos.le (not_lt.1 h) 3
    have hb : (meanRadius + 1000000) ^ 3 < mu * 1100 ^ 2 := by
      unfold mu meanRadius equatorialRadius polarRadius; norm_num
    nlinarith
  have a2 : a ≤ meanRadius + 10000000 := by
    by_contra h
    have := pow_le_pow_left₀ (by linarith) (not_le.1 h).le 3
    have hb : mu * 1200 ^ 2 < (meanRadius + 10000000) ^ 3 := by
      unfold mu meanRadius equatorialRadius polarRadius; norm_num
    nlinarith
  refine ⟨a - meanRadius, by linarith, by linarith, ?_⟩
  unfold orbitPeriodSeconds
  simp only
  rw [show meanRadius + (a - meanRadius) = a by ring, h3, show mu / (mu * q ^ 2) = (1 / q) ^ 2 by field_simp,
    Real.sqrt_sq (by positivity)]
  field_simp

/-- A satellite over the poles and its pass over the North pole at the time `middle`. -/
noncomputable def polarCraft (altitude : ℝ) (c middle : Int) : Craft :=
  ⟨"p", altitude, ⟨0, 0, 1⟩, ⟨1, 0, 0⟩,
    [⟨⟨"x", 0, false⟩, 180, fun _ => true, [(middle - c, .rise), (middle, .culminate), (middle + c, .set)]⟩]⟩

theorem day_ticks : ((86164090500000 : Int) : ℝ) / 10 ^ 9 = siderealDay := by unfold siderealDay; norm_num

/-- The hypotheses hold of it on two days. -/
theorem polar_analysed : ∃ (altitude : ℝ) (c : Int), orbitPeriodSeconds altitude = siderealDay / 12 ∧
    (∀ n : Int, Analysed (-3000000000000 + n * 86164090500000) (3000000000000 + n * 86164090500000) 1 (Real.pi / 2) 0
      (polarCraft altitude c (n * 86164090500000))) ∧
    (polarCraft altitude c 0).flight.Sees (180 / 2) meanRadius siderealDay (Real.pi / 2) 0 (((0 : Int) : ℚ) + 1 / 2) := by
  obtain ⟨a, h00, h1, hP⟩ := twelfth_height
  have h0 : 0 < a := by linarith
  have hR := meanRadius_gt
  have hpi := Real.pi_pos
  have hday : 0 < siderealDay := by unfold siderealDay; norm_num
  have hk0 : 0 < meanRadius / (meanRadius + a) := by positivity
  have hk1 : meanRadius / (meanRadius + a) < 1 := by rw [div_lt_one (by linarith)]; linarith
  have A0 := Real.arccos_pos.2 hk1
  have A1 := Real.arccos_lt_pi_div_two.2 hk0
  have hA := Real.cos_arccos (by linarith) hk1.le
  have hthr : regardThreshold a 180 = 0 := by
    unfold regardThreshold minElevation
    have e1 : radians 180 / 2 = Real.pi / 2 := by unfold radians; ring
    obtain ⟨s0, s1⟩ := sinRho_range (h := a) (z := 0) ⟨by linarith, h0⟩
    rw [e1, Real.sin_pi_div_two]
    simp only
    rw [if_pos]
    rw [gt_iff_lt, lt_div_iff₀ s0]
    linarith
  have hel : ∀ x : ℝ, |x| ≤ 3000 → ∀ n : ℤ, (ElevationAtLeast 0
      (circularPosition (meanRadius + a) (orbitPeriodSeconds a) ⟨0, 0, 1⟩ ⟨1, 0, 0⟩ (x + n * siderealDay))
      (turningAt meanRadius (Real.pi / 2) 0 siderealDay (x + n * siderealDay)) ↔
        |x| ≤ Real.arccos (meanRadius / (meanRadius + a)) * (siderealDay / 12) / (2 * Real.pi)) := by
    intro x hx n
    have e : x + n * siderealDay = x + ((12 * n : ℤ) : ℝ) * (siderealDay / 12) := by push_cast; ring
    rw [turningAt, Real.cos_pi_div_two, hP, e, circular_recurs (by positivity)]
    have e2 : |x| ≤ Real.arccos (meanRadius / (meanRadius + a)) * (siderealDay / 12) / (2 * Real.pi) ↔
        |2 * Real.pi * x / (siderealDay / 12)| ≤ Real.arccos (meanRadius / (meanRadius + a)) := by
      rw [abs_div, abs_mul, abs_of_pos (by positivity : 0 < 2 * Real.pi), abs_of_pos (by positivity : 0 < siderealDay / 12),
        le_div_iff₀ (by positivity), div_le_iff₀ (by positivity), mul_comm]
    rw [e2]
    have hb : |2 * Real.pi * x / (siderealDay / 12)| ≤ Real.pi := by
      rw [abs_div, abs_mul, abs_of_pos (by positivity : 0 < 2 * Real.pi), abs_of_pos (by positivity : 0 < siderealDay / 12),
        div_le_iff₀ (by positivity)]
      have : (6000 : ℝ) ≤ siderealDay / 12 := by unfold siderealDay; norm_num
      nlinarith
    have e3 : |2 * Real.pi * x / (siderealDay / 12)| ≤ Real.arccos (meanRadius / (meanRadius + a)) ↔
        meanRadius / (meanRadius + a) ≤ Real.cos (2 * Real.pi * x / (siderealDay / 12)) := by
      rw [← Real.cos_abs]
      constructor
      · intro h
        rw [← hA]
        exact Real.cos_le_cos_of_nonneg_of_le_pi (abs_nonneg _) (by linarith) h
      · intro h
        have := Real.arccos_le_arccos h
        rwa [Real.arccos_cos (abs_nonneg _) hb] at this
    rw [e3, div_le_iff₀ (by linarith)]
    simp only [ElevationAtLeast, circularPosition, sinDeg, V3.add, V3.smul, V3.dot, sub, Real.sin_pi_div_two]
    simp only [zero_mul, zero_div, Real.sin_zero]
    generalize Real.cos (2 * Real.pi * x / (siderealDay / 12)) = C
    generalize Real.sin (2 * Real.pi * x / (siderealDay / 12)) = S
    constructor
    · intro h
      by_contra hc
      have hc := not_le.1 hc
      nlinarith
    · intro h
      nlinarith
  have hT0 : 0 < Real.arccos (meanRadius / (meanRadius + a)) * (siderealDay / 12) / (2 * Real.pi) := by positivity
  have hT2 : Real.arccos (meanRadius / (meanRadius + a)) * (siderealDay / 12) / (2 * Real.pi) < 2000 := by
    rw [div_lt_iff₀ (by positivity)]
    have : siderealDay / 12 < 8000 := by unfold siderealDay; norm_num
    nlinarith
  have hT1 : 1 < Real.arccos (meanRadius / (meanRadius + a)) * (siderealDay / 12) / (2 * Real.pi) := by
    have hk : meanRadius / (meanRadius + a) < 0.9 := by
      rw [div_lt_iff₀ (by linarith)]
      have : meanRadius < 6400000 := by unfold meanRadius equatorialRadius polarRadius; norm_num
      linarith
    have hA2 : 0.1 < Real.arccos (meanRadius / (meanRadius + a)) := by
      by_contra hc
      have h2 := Real.one_sub_sq_div_two_le_cos (x := Real.arccos (meanRadius / (meanRadius + a)))
      rw [hA] at h2
      nlinarith
    rw [lt_div_iff₀ (by positivity)]
    have : 7000 < siderealDay / 12 := by unfold siderealDay; norm_num
    have := Real.pi_lt_d2
    nlinarith
  generalize Real.arccos (meanRadius / (meanRadius + a)) * (siderealDay / 12) / (2 * Real.pi) = T at *
  have hc1 : T * 10 ^ 9 ≤ ⌈T * 10 ^ 9⌉ := Int.le_ceil _
  have hc2 : (⌈T * 10 ^ 9⌉ : ℝ) < T * 10 ^ 9 + 1 := Int.ceil_lt_add_one _
  generalize ⌈T * 10 ^ 9⌉ = c at *
  have hcl : 0 < c := by
    have : ((0 : Int) : ℝ) < c := by push_cast; linarith
    exact_mod_cast this
  have hcu : c < 3000000000000 := by
    have : (c : ℝ) < ((3000000000000 : Int) : ℝ) := by push_cast; linarith
    exact_mod_cast this
  have hlow : ∀ m, (polarCraft a c m).Low := fun m => ⟨h0, h1, by simp [polarCraft, V3.dot], by simp [polarCraft, V3.dot],
    by simp [polarCraft, V3.dot]⟩
  refine ⟨a, c, hP, fun n => ?_, ?_⟩
  · refine ⟨hlow _, ?_, ?_, ?_, ?_⟩
    · intro l hl
      rw [List.mem_singleton.1 hl]
      norm_num
    · intro l hl
      rw [List.mem_singleton.1 hl]
      exact C160_settings a 180 1 h0 (by norm_num) (by norm_num) (by norm_num)
    · intro l hl
      rw [List.mem_singleton.1 hl]
      exact ⟨rfl, rfl, fun _ => rfl⟩
    · intro l hl
      rw [List.mem_singleton.1 hl]
      refine ⟨false, [n * 86164090500000 - c, n * 86164090500000 + c], by simp; omega, by simp; omega,
        by simp [isCrossing, alternating], by simp, ?_⟩
      intro t h1 h2 h3
      have a1 := h3 (n * 86164090500000 - c) (by simp)
      have a2 := h3 (n * 86164090500000 + c) (by simp)
      obtain ⟨x, rfl⟩ : ∃ x : ℚ, t = x + n * 86164090500000 := ⟨t - n * 86164090500000, by ring⟩
      push_cast at h1 h2 a1 a2
      have hx1 : -3000000000000 < x := by linarith
      have hx2 : x < 3000000000000 := by linarith
      have hsplit : ((x + n * 86164090500000 : ℚ) : ℝ) / 10 ^ 9 = (x : ℝ) / 10 ^ 9 + n * siderealDay := by
        rw [← day_ticks]; push_cast; ring
      have habs : |(x : ℝ) / 10 ^ 9| ≤ 3000 := by
        have h1 : ((-3000000000000 : ℚ) : ℝ) < (x : ℝ) := by exact_mod_cast hx1
        have h2 : (x : ℝ) < ((3000000000000 : ℚ) : ℝ) := by exact_mod_cast hx2
        push_cast at h1 h2
        rw [abs_le]
        constructor
        · rw [le_div_iff₀ (by norm_num)]; linarith
        · rw [div_le_iff₀ (by norm_num)]; linarith
      simp only [polarCraft]
      rw [hthr, hsplit, hel _ habs, abs_div, abs_of_pos (by norm_num : (0 : ℝ) < 10 ^ 9), div_le_iff₀ (by norm_num)]
      rw [show x + n * 86164090500000 - (n * 86164090500000 - c) = x - -c by ring] at a1
      rw [show x + n * 86164090500000 - (n * 86164090500000 + c) = x - c by ring] at a2
      have n1 : x ≠ -c := by rintro rfl; exact a1.1 (by ring)
      have n2 : x ≠ c := by rintro rfl; exact a2.1 (by ring)
      have hcq : (0 : ℚ) < c := by exact_mod_cast hcl
      have hkey : |(x : ℝ)| ≤ T * 10 ^ 9 ↔ -(c : ℚ) < x ∧ x < c := by
        rw [abs_le]
        constructor
        · rintro ⟨k1, k2⟩
          have k1 : -(c : ℝ) ≤ x := by linarith
          have k2 : (x : ℝ) ≤ c := by linarith
          have k1 : -(c : ℚ) ≤ x := by exact_mod_cast k1
          have k2 : x ≤ (c : ℚ) := by exact_mod_cast k2
          exact ⟨lt_of_le_of_ne k1 (Ne.symm n1), lt_of_le_of_ne k2 n2⟩
        · rintro ⟨k1, k2⟩
          have b1 := a1.2
          have b2 := a2.2
          rw [abs_of_pos (by linarith)] at b1
          rw [abs_of_neg (by linarith)] at b2
          have b1 : (1 : ℝ) ≤ x - -(c : ℝ) := by exact_mod_cast b1
          have b2 : (1 : ℝ) ≤ -((x : ℝ) - c) := by exact_mod_cast b2
          constructor <;> linarith
      rw [hkey]
      unfold visibleAt
      by_cases k1 : (-(c : ℚ)) ≤ x
      · have k1' : -(c : ℚ) < x := lt_of_le_of_ne k1 (Ne.symm n1)
        have i1 : (n : ℚ) * 86164090500000 - c ≤ x + n * 86164090500000 := by linarith
        by_cases k2 : (c : ℚ) ≤ x
        · have i2 : (n : ℚ) * 86164090500000 + c ≤ x + n * 86164090500000 := by linarith
          simp [i1, i2, k2]
        · have i2 : ¬ (n : ℚ) * 86164090500000 + c ≤ x + n * 86164090500000 := by intro h; exact k2 (by linarith)
          have k2' : x < c := not_le.1 k2
          simp [i1, i2, k1', k2']
      · have i1 : ¬ (n : ℚ) * 86164090500000 - c ≤ x + n * 86164090500000 := by intro h; exact k1 (by linarith)
        have i2 : ¬ (n : ℚ) * 86164090500000 + c ≤ x + n * 86164090500000 := by intro h; exact k1 (by linarith)
        have k1' : ¬ -(c : ℚ) < x := fun h => k1 h.le
        simp [i1, i2, k1']
  · have := hel ((((0 : Int) : ℚ) + 1 / 2 : ℚ) / 10 ^ 9) (by rw [abs_of_nonneg (by norm_num)]; norm_num) 0
    have hl : (⟨⟨"x", 0, false⟩, 180, fun _ => true, [(0 - c, .rise), (0, .culminate), (0 + c, .set)]⟩ : Looking) ∈
        (polarCraft a c 0).instruments := List.mem_singleton_self _
    rw [← sees_iff (hlow 0) (by norm_num) (by norm_num)]
    simp only [polarCraft, hthr]
    have z : ((0 : Int) : ℝ) * siderealDay = 0 := by simp
    rw [z, add_zero] at this
    refine this.2 ?_
    rw [abs_of_nonneg (by norm_num)]
    refine le_trans ?_ hT1.le
    norm_num

/-- A satellite with twelve orbits a day has the same access over the North pole on any day, to eight nanoseconds, and sees it. -/
example (sort sort' : SortValues Obs.start) (n : Int) : ∃ (altitude : ℝ) (c : Int) (rows rows' : List Obs),
    collectMultiObservations sort 1 [[(polarCraft altitude c 0).member (-3000000000000) 3000000000000]] = .ok rows ∧
    collectMultiObservations sort 1 [[(polarCraft altitude c (n * 86164090500000)).member
      (-3000000000000 + n * 86164090500000) (3000000000000 + n * 86164090500000)]] = .ok rows' ∧
    |totalAccess (aggregateObservations sort' rows') 1 - totalAccess (aggregateObservations sort' rows) 1| ≤ 8 ∧
    0 ∈ seenTicks (-3000000000000) 3000000000000 (Real.pi / 2) 0 [[polarCraft altitude c 0]] := by
  obtain ⟨a, c, hP, h, hsee⟩ := polar_analysed
  have h0 := h 0
  rw [zero_mul, add_zero, add_zero] at h0
  obtain ⟨rows, hrows⟩ : ∃ rows, collectMultiObservations sort 1
    [[(polarCraft a c 0).member (-3000000000000) 3000000000000]] = .ok rows := ⟨_, rfl⟩
  obtain ⟨rows', hrows'⟩ : ∃ rows, collectMultiObservations sort 1 [[(polarCraft a c (n * 86164090500000)).member
      (-3000000000000 + n * 86164090500000) (3000000000000 + n * 86164090500000)]] = .ok rows := ⟨_, rfl⟩
  have hd : ((n * 86164090500000 : ℤ) : ℝ) / 10 ^ 9 = n * siderealDay := by rw [← day_ticks]; push_cast; ring
  refine ⟨a, c, rows, rows', hrows, hrows', ?_, by norm_num, by norm_num, _, List.mem_singleton_self _, _,
    List.mem_singleton_self _, _, List.mem_singleton_self _, hsee⟩
  have := C172_cycle sort sort' sort sort' 1 1 (-3000000000000) 3000000000000 1 (n * 86164090500000) (Real.pi / 2) 0
    [[polarCraft a c 0]] [[polarCraft a c (n * 86164090500000)]] rows rows' (by norm_num) (by norm_num)
    (.cons (.cons ⟨rfl, rfl, rfl, rfl⟩ .nil) .nil)
    (fun s hs x hx => by
      rw [List.mem_singleton.1 hs] at hx
      rw [List.mem_singleton.1 hx]
      refine ⟨12 * n, ?_⟩
      simp only [polarCraft]
      rw [hd, hP]
      push_cast
      ring) ⟨n, hd⟩
    (fun s hs x hx => by
      rw [List.mem_singleton.1 hs] at hx
      rw [List.mem_singleton.1 hx]
      exact h0)
    (fun s hs x hx => by
      rw [List.mem_singleton.1 hs] at hx
      rw [List.mem_singleton.1 hx]
      exact h n) hrows hrows'
  simpa [crossingsOf, polarCraft, isCrossing] using this

end Tatc.Props
