import Verif.Spec.Approach
import Verif.Props.Streets
import Verif.Props.Walker

/-!
# C139: how near the members of a constellation come to each other
-/

namespace Tatc.Props
open Tatc.Num Tatc.Geometry Tatc.Spec Tatc.Orbit Tatc.Constellation
open scoped Classical

theorem cosDeg_add (x y : ℝ) : cosDeg (x + y) = cosDeg x * cosDeg y - sinDeg x * sinDeg y := by
  unfold cosDeg sinDeg; rw [← Real.cos_add]; congr 1; ring
theorem cosDeg_sub (x y : ℝ) : cosDeg (x - y) = cosDeg x * cosDeg y + sinDeg x * sinDeg y := by
  unfold cosDeg sinDeg; rw [← Real.cos_sub]; congr 1; ring
theorem sinDeg_add (x y : ℝ) : sinDeg (x + y) = sinDeg x * cosDeg y + cosDeg x * sinDeg y := by
  unfold cosDeg sinDeg; rw [← Real.sin_add]; congr 1; ring
theorem sinDeg_sub (x y : ℝ) : sinDeg (x - y) = sinDeg x * cosDeg y - cosDeg x * sinDeg y := by
  unfold cosDeg sinDeg; rw [← Real.sin_sub]; congr 1; ring
theorem degSq (x : ℝ) : cosDeg x ^ 2 + sinDeg x ^ 2 = 1 := by
  unfold cosDeg sinDeg; rw [add_comm]; exact Real.sin_sq_add_cos_sq _

theorem pair_sq (i ρ υ Δ δ : ℝ) :
    ((perigeeDirection i (ρ - Δ) (υ - δ)).x - (perigeeDirection i (ρ + Δ) (υ + δ)).x) ^ 2 +
    ((perigeeDirection i (ρ - Δ) (υ - δ)).y - (perigeeDirection i (ρ + Δ) (υ + δ)).y) ^ 2 +
    ((perigeeDirection i (ρ - Δ) (υ - δ)).z - (perigeeDirection i (ρ + Δ) (υ + δ)).z) ^ 2 =
    4 * ((sinDeg δ * cosDeg Δ + cosDeg i * (cosDeg δ * sinDeg Δ)) ^ 2 + (sinDeg i * sinDeg Δ * cosDeg υ) ^ 2) := by
  unfold perigeeDirection
  simp only [cosDeg_add, cosDeg_sub, sinDeg_add, sinDeg_sub]
  have h1 := degSq ρ
  have h2 := degSq υ
  have h3 := degSq Δ
  have h4 := degSq δ
  have h5 := degSq i
  generalize cosDeg ρ = cr at *
  generalize sinDeg ρ = sr at *
  generalize cosDeg υ = cu at *
  generalize sinDeg υ = su at *
  generalize cosDeg Δ = C at *
  generalize sinDeg Δ = S at *
  generalize cosDeg δ = K at *
  generalize sinDeg δ = k at *
  generalize cosDeg i = c at *
  generalize sinDeg i = a at *
  have e : (((cr * C + sr * S) * (cu * K + su * k) - (sr * C - cr * S) * (su * K - cu * k) * c) -
      ((cr * C - sr * S) * (cu * K - su * k) - (sr * C + cr * S) * (su * K + cu * k) * c)) =
      2 * (cr * su * (C * k + c * S * K) + sr * cu * (S * K + c * C * k)) := by ring
  have e' : (((sr * C - cr * S) * (cu * K + su * k) + (cr * C + sr * S) * (su * K - cu * k) * c) -
      ((sr * C + cr * S) * (cu * K - su * k) + (cr * C - sr * S) * (su * K + cu * k) * c)) =
      -(2 * (cr * cu * (S * K + c * C * k) - sr * su * (C * k + c * S * K))) := by ring
  have e'' : (su * K - cu * k) * a - (su * K + cu * k) * a = -(2 * (a * cu * k)) := by ring
  rw [e, e', e'']
  have f : (2 * (cr * su * (C * k + c * S * K) + sr * cu * (S * K + c * C * k))) ^ 2 +
      (-(2 * (cr * cu * (S * K + c * C * k) - sr * su * (C * k + c * S * K)))) ^ 2 =
      4 * (cr ^ 2 + sr ^ 2) * (su ^ 2 * (C * k + c * S * K) ^ 2 + cu ^ 2 * (S * K + c * C * k) ^ 2) := by ring
  rw [f, h1]
  have hs : su ^ 2 = 1 - cu ^ 2 := by linarith
  have ha : c ^ 2 = 1 - a ^ 2 := by linarith
  have hK : K ^ 2 = 1 - k ^ 2 := by linarith
  have hC : C ^ 2 = 1 - S ^ 2 := by linarith
  rw [hs]
  have g : (S * K + c * C * k) ^ 2 - (C * k + c * S * K) ^ 2 = a ^ 2 * (S ^ 2 - k ^ 2) := by
    have : (S * K + c * C * k) ^ 2 - (C * k + c * S * K) ^ 2 = (1 - c ^ 2) * (S ^ 2 * K ^ 2 - C ^ 2 * k ^ 2) := by ring
    rw [this, ha, hK, hC]; ring
  linear_combination 4 * cu ^ 2 * g

/-- Distance of two satellites of the same orbit radius and inclination. -/
theorem pair_distance (radius i r u nodes along : ℝ) (hr : 0 ≤ radius) :
    distance (satelliteAt radius i r u) (satelliteAt radius i (r + nodes) (u + along)) =
      2 * radius * Real.sqrt (nearest i along nodes ^ 2 + (sinDeg i * sinDeg (nodes / 2) * cosDeg (u + along / 2)) ^ 2) := by
  have h := pair_sq i (r + nodes / 2) (u + along / 2) (nodes / 2) (along / 2)
  rw [show r + nodes / 2 - nodes / 2 = r by ring, show u + along / 2 - along / 2 = u by ring,
    show r + nodes / 2 + nodes / 2 = r + nodes by ring, show u + along / 2 + along / 2 = u + along by ring] at h
  unfold distance satelliteAt V3.smul
  simp only
  rw [← Real.sqrt_sq (by positivity : 0 ≤ 2 * radius), ← Real.sqrt_mul (by positivity)]
  congr 1
  unfold nearest
  linear_combination radius ^ 2 * h

/-- Satellite `j` of plane `k` of a Walker constellation with a circular lead orbit. -/
theorem walker_slot {I : Type} (sun : Int → ℝ) (w : Walker I) (o : Circular) (ho : w.orbit = .circular o)
    (hv : Circular.Valid o) (hw : Walker.Accepted w) (q : Nat) (hq : w.satellites = w.planes * q) (k j : Nat) (hk : k < w.planes)
    (hj : j < q) : ∃ ms, w.members sun = .ok ms ∧ ∃ m b, ms[slot q k j]? = some m ∧ m.orbit = .circular b ∧
      b.altitude = o.altitude ∧ b.inclination = o.inclination ∧
      (∃ l : ℤ, b.raan = o.raan + k * planeStep w.star w.planes + 360 * l) ∧
      ∃ l : ℤ, b.trueAnomaly = o.trueAnomaly + (j * (360 / q) + k * (360 * w.spacing / w.satellites)) + 360 * l := by
  obtain ⟨hs0, hs1, hs2⟩ := perPlane_spec w hw
  have hp1 : 0 < w.planes := hw.1.1
  have hs : w.satellitesPerPlane = q := by
    have h1 : q ≤ w.satellitesPerPlane := by rw [hq] at hs1; exact Nat.le_of_mul_le_mul_left hs1 hp1
    have h2 : ¬ q + 1 ≤ w.satellitesPerPlane := by
      intro h
      have := Nat.mul_le_mul_left w.planes h
      rw [Nat.mul_add] at this
      omega
    omega
  have hi : slot q k j < w.satellites := by
    unfold slot
    rw [hq]
    have : (k + 1) * q ≤ w.planes * q := Nat.mul_le_mul_right _ hk
    nlinarith
  refine ⟨_, circular_members sun w o ho hv, ?_⟩
  refine ⟨_, ⟨o.altitude, npMod (o.trueAnomaly + (w.increments (slot q k j)).1) 360, o.epoch, o.inclination,
    npMod (o.raan + (w.increments (slot q k j)).2) 360⟩, by rw [List.getElem?_map, List.getElem?_range hi]; rfl, rfl, rfl, rfl, ?_, ?_⟩
  · obtain ⟨l, e⟩ := npMod_turns (o.raan + (w.increments (slot q k j)).2)
    refine ⟨l, ?_⟩
    show npMod _ 360 = _
    rw [e, increments_slot w q hs k j hj]
    unfold Walker.deltaRaan planeStep
    simp
  · obtain ⟨l, e⟩ := npMod_turns (o.trueAnomaly + (w.increments (slot q k j)).1)
    refine ⟨l, ?_⟩
    show npMod _ 360 = _
    rw [e, increments_slot w q hs k j hj]
    rfl

/-- C139, full statement: two members of a constellation are never at the same place.  Proved, for every Walker constellation on
a circular orbit with equally many satellites in all planes: how near two members come, at the closest, from the
numbers of the pattern alone.  `angle` is how far the satellites have moved on since the epoch, `node` how far their planes
have turned.  Which is 0 for some patterns (`C139_meet_iff_partial`). -/
theorem C139_approach_partial {I : Type} (sun : Int → ℝ) (w : Walker I) (o : Circular) (ho : w.orbit = .circular o)
    (hv : Circular.Valid o) (hw : Walker.Accepted w) (hr : 0 ≤ meanRadius + o.altitude) (q : Nat)
    (hq : w.satellites = w.planes * q) (k j k' j' : Nat) (hk : k < w.planes) (hj : j < q) (hk' : k' < w.planes) (hj' : j' < q) :
    ∃ ms m m' b b', w.members sun = .ok ms ∧ ms[k * q + j]? = some m ∧ ms[k' * q + j']? = some m' ∧
      m.orbit = .circular b ∧ m'.orbit = .circular b' ∧
      ∀ closest : ℝ, closest = 2 * (meanRadius + o.altitude) *
          |nearest o.inclination (((j' : ℝ) - j) * (360 / q) + ((k' : ℝ) - k) * (360 * w.spacing / w.satellites))
            (((k' : ℝ) - k) * planeStep w.star w.planes)| →
        (∀ angle node, closest ≤
          distance (satelliteAt (meanRadius + b.altitude) b.inclination (b.raan + node) (b.trueAnomaly + angle))
            (satelliteAt (meanRadius + b'.altitude) b'.inclination (b'.raan + node) (b'.trueAnomaly + angle))) ∧
        ∃ angle, ∀ node, closest =
          distance (satelliteAt (meanRadius + b.altitude) b.inclination (b.raan + node) (b.trueAnomaly + angle))
            (satelliteAt (meanRadius + b'.altitude) b'.inclination (b'.raan + node) (b'.trueAnomaly + angle)) := by
  obtain ⟨ms, hms, m, b, hm, hb, ha, hin, ⟨l1, e1⟩, l2, e2⟩ := walker_slot sun w o ho hv hw q hq k j hk hj
  obtain ⟨ms', hms', m', b', hm', hb', ha', hin', ⟨l1', e1'⟩, l2', e2'⟩ := walker_slot sun w o ho hv hw q hq k' j' hk' hj'
  rw [hms, Except.ok.injEq] at hms'
  subst hms'
  refine ⟨ms, m, m', b, b', hms, hm, hm', hb, hb', ?_⟩
  intro closest hc
  set along := ((j' : ℝ) - j) * (360 / q) + ((k' : ℝ) - k) * (360 * w.spacing / w.satellites) with hal
  set nodes := ((k' : ℝ) - k) * planeStep w.star w.planes with hno
  have key : ∀ angle node, distance (satelliteAt (meanRadius + b.altitude) b.inclination (b.raan + node) (b.trueAnomaly + angle))
      (satelliteAt (meanRadius + b'.altitude) b'.inclination (b'.raan + node) (b'.trueAnomaly + angle)) =
      2 * (meanRadius + o.altitude) * Real.sqrt (nearest o.inclination along nodes ^ 2 +
        (sinDeg o.inclination * sinDeg (nodes / 2) * cosDeg (b.trueAnomaly + angle + along / 2)) ^ 2) := by
    intro angle node
    rw [ha, hin, ha', hin', ← pair_distance _ _ (b.raan + node) _ _ _ hr]
    congr 1
    unfold satelliteAt
    congr 1
    rw [← perigeeDirection_turns o.inclination (b.raan + node + nodes) (b.trueAnomaly + angle + along) (l1' - l1) (l2' - l2)]
    congr 1
    · rw [e1, e1', hno]; push_cast; ring
    · rw [e2, e2', hal]; push_cast; ring
  constructor
  · intro angle node
    rw [key, hc]
    apply mul_le_mul_of_nonneg_left _ (by linarith)
    rw [← Real.sqrt_sq_eq_abs]
    apply Real.sqrt_le_sqrt
    have := sq_nonneg (sinDeg o.inclination * sinDeg (nodes / 2) * cosDeg (b.trueAnomaly + angle + along / 2))
    linarith
  · refine ⟨90 - b.trueAnomaly - along / 2, fun node => ?_⟩
    rw [key, hc, show b.trueAnomaly + (90 - b.trueAnomaly - along / 2) + along / 2 = 90 by ring]
    have c90 : cosDeg 90 = 0 := by
      unfold cosDeg; rw [show (90 : ℝ) * Real.pi / 180 = Real.pi / 2 by ring, Real.cos_pi_div_two]
    rw [c90, mul_zero, zero_pow (by norm_num), add_zero, Real.sqrt_sq_eq_abs]

theorem distance_eq_zero (a b : V3) : distance a b = 0 ↔ a = b := by
  unfold distance
  rw [Real.sqrt_eq_zero (by positivity)]
  constructor
  · intro h
    have h1 := sq_nonneg (a.x - b.x)
    have h2 := sq_nonneg (a.y - b.y)
    have h3 := sq_nonneg (a.z - b.z)
    have e1 := pow_eq_zero_iff (two_ne_zero) |>.mp (by linarith : (a.x - b.x) ^ 2 = 0)
    have e2 := pow_eq_zero_iff (two_ne_zero) |>.mp (by linarith : (a.y - b.y) ^ 2 = 0)
    have e3 := pow_eq_zero_iff (two_ne_zero) |>.mp (by linarith : (a.z - b.z) ^ 2 = 0)
    obtain ⟨a1, a2, a3⟩ := a
    obtain ⟨b1, b2, b3⟩ := b
    simp only at e1 e2 e3
    congr 1 <;> linarith
  · rintro rfl; simp

/-- Two members meet exactly when half of their phase difference has the tangent of half of the angle between their nodes,
times the cosine of the inclination, with the opposite sign (here without the divisions). -/
theorem C139_meet_iff_partial {I : Type} (sun : Int → ℝ) (w : Walker I) (o : Circular) (ho : w.orbit = .circular o)
    (hv : Circular.Valid o) (hw : Walker.Accepted w) (hr : 0 < meanRadius + o.altitude) (q : Nat)
    (hq : w.satellites = w.planes * q) (k j k' j' : Nat) (hk : k < w.planes) (hj : j < q) (hk' : k' < w.planes) (hj' : j' < q) :
    ∃ ms m m' b b', w.members sun = .ok ms ∧ ms[k * q + j]? = some m ∧ ms[k' * q + j']? = some m' ∧
      m.orbit = .circular b ∧ m'.orbit = .circular b' ∧
      ∀ phase nodes : ℝ, phase = ((j' : ℝ) - j) * (360 / q) + ((k' : ℝ) - k) * (360 * w.spacing / w.satellites) →
        nodes = ((k' : ℝ) - k) * planeStep w.star w.planes →
        ((∃ angle node, satelliteAt (meanRadius + b.altitude) b.inclination (b.raan + node) (b.trueAnomaly + angle) =
            satelliteAt (meanRadius + b'.altitude) b'.inclination (b'.raan + node) (b'.trueAnomaly + angle)) ↔
          sinDeg (phase / 2) * cosDeg (nodes / 2) = - (cosDeg o.inclination * (cosDeg (phase / 2) * sinDeg (nodes / 2)))) := by
  obtain ⟨ms, m, m', b, b', hms, hm, hm', hb, hb', h⟩ := C139_approach_partial sun w o ho hv hw hr.le q hq k j k' j' hk hj hk' hj'
  refine ⟨ms, m, m', b, b', hms, hm, hm', hb, hb', ?_⟩
  rintro phase nodes rfl rfl
  obtain ⟨h1, angle, h2⟩ := h _ rfl
  rw [eq_neg_iff_add_eq_zero]
  constructor
  · rintro ⟨x, y, e⟩
    have h3 := h1 x y
    rw [(distance_eq_zero _ _).mpr e] at h3
    have h4 : 0 ≤ |nearest o.inclination (((j' : ℝ) - j) * (360 / q) + ((k' : ℝ) - k) * (360 * w.spacing / w.satellites))
            (((k' : ℝ) - k) * planeStep w.star w.planes)| := abs_nonneg _
    have h5 := abs_eq_zero.mp (le_antisymm (by by_contra hlt; push Not at hlt; nlinarith) h4)
    exact h5
  · intro e
    refine ⟨angle, 0, ?_⟩
    rw [← distance_eq_zero, ← h2 0]
    unfold nearest
    rw [e, abs_zero, mul_zero]

theorem sinDeg_part {q : Nat} {d : ℤ} (hd : d ≠ 0) (h1 : -(q : ℤ) < d) (h2 : d < q) : sinDeg (180 / q) ≤ |sinDeg (d * (360 / q) / 2)| := by
  have hpi := Real.pi_pos
  have hq : (0 : ℝ) < q := by exact_mod_cast (by omega : 0 < q)
  have hsymm : |sinDeg (d * (360 / q) / 2)| = |sinDeg ((|d| : ℤ) * (360 / q) / 2)| := by
    rcases abs_cases d with ⟨e, -⟩ | ⟨e, -⟩
    · rw [e]
    · rw [e]
      unfold sinDeg
      rw [show ((-d : ℤ) : ℝ) * (360 / q) / 2 * Real.pi / 180 = -((d : ℝ) * (360 / q) / 2 * Real.pi / 180) by push_cast; ring,
        Real.sin_neg, abs_neg]
  rw [hsymm]
  have ha : 1 ≤ |d| := Int.one_le_abs hd
  have hb : |d| ≤ q - 1 := by have := abs_lt.mpr ⟨h1, h2⟩; omega
  have haR : (1 : ℝ) ≤ (|d| : ℤ) := by exact_mod_cast ha
  have hbR : ((|d| : ℤ) : ℝ) ≤ q - 1 := by exact_mod_cast hb
  refine le_trans ?_ (le_abs_self _)
  generalize ((|d| : ℤ) : ℝ) = x at haR hbR ⊢
  unfold sinDeg
  have e1 : 180 / (q : ℝ) * Real.pi / 180 = Real.pi / q := by field_simp
  have e2 : x * (360 / q) / 2 * Real.pi / 180 = x * (Real.pi / q) := by field_simp; norm_num
  rw [e1, e2]
  have hz : Real.pi / q * q = Real.pi := by field_simp
  have hz0 : 0 < Real.pi / q := by positivity
  by_cases hle : x * (Real.pi / q) ≤ Real.pi / 2
  · exact Real.sin_le_sin_of_le_of_le_pi_div_two (by linarith) hle (by nlinarith)
  · push Not at hle
    rw [← Real.sin_pi_sub (x * (Real.pi / q))]
    exact Real.sin_le_sin_of_le_of_le_pi_div_two (by linarith) (by linarith) (by nlinarith)

/-- Members of the same plane keep the distance of neighbours. -/
theorem C139_same_plane_partial {I : Type} (sun : Int → ℝ) (w : Walker I) (o : Circular) (ho : w.orbit = .circular o)
    (hv : Circular.Valid o) (hw : Walker.Accepted w) (hr : 0 ≤ meanRadius + o.altitude) (q : Nat)
    (hq : w.satellites = w.planes * q) (k j j' : Nat) (hk : k < w.planes) (hj : j < q) (hj' : j' < q) (hne : j ≠ j') :
    ∃ ms m m' b b', w.members sun = .ok ms ∧ ms[k * q + j]? = some m ∧ ms[k * q + j']? = some m' ∧
      m.orbit = .circular b ∧ m'.orbit = .circular b' ∧
      ∀ angle node, 2 * (meanRadius + o.altitude) * sinDeg (180 / q) ≤
        distance (satelliteAt (meanRadius + b.altitude) b.inclination (b.raan + node) (b.trueAnomaly + angle))
          (satelliteAt (meanRadius + b'.altitude) b'.inclination (b'.raan + node) (b'.trueAnomaly + angle)) := by
  obtain ⟨ms, m, m', b, b', hms, hm, hm', hb, hb', h⟩ := C139_approach_partial sun w o ho hv hw hr q hq k j k j' hk hj hk hj'
  refine ⟨ms, m, m', b, b', hms, hm, hm', hb, hb', fun angle node => le_trans ?_ ((h _ rfl).1 angle node)⟩
  apply mul_le_mul_of_nonneg_left _ (by linarith)
  have s0 : sinDeg 0 = 0 := by unfold sinDeg; simp
  have c0 : cosDeg 0 = 1 := by unfold cosDeg; simp
  unfold nearest
  rw [sub_self, zero_mul, zero_mul, add_zero, zero_div, s0, c0, mul_zero, mul_zero, add_zero, mul_one]
  have := sinDeg_part (q := q) (d := (j' : ℤ) - j) (by omega) (by omega) (by omega)
  push_cast at this
  exact this

/-- Refuted for streets of coverage: on a polar orbit (and these are what they are for) the first satellites of all planes,
and likewise the second ones and so on, meet above the poles, whatever the swath width and the packing distance. -/
theorem C139_streets_false {I : Type} (sun : Int → ℝ) (name : List Char) (orbit : Circular) (instruments : I)
    (swath packing : ℝ) (c : Soc I) (hc : Soc.make name orbit instruments swath packing = .ok c)
    (ho : Circular.Valid orbit) (hh : 0 < orbit.altitude) (hw1 : swath / 2 / meanRadius ≤ Real.pi / 2)
    (hor : meanRadius / (meanRadius + orbit.altitude) ≤ Real.cos (swath / 2 / meanRadius)) (hpolar : orbit.inclination = 90) :
    ∃ (s p : Nat) (ms : List (Satellite I)), c.members sun = .ok ms ∧ ms.length = s * p ∧ 1 ≤ s ∧ 2 ≤ p ∧
      ∀ k k' j, k < p → k' < p → j < s → ∃ m m' b b', ms[k * s + j]? = some m ∧ ms[k' * s + j]? = some m' ∧
        m.orbit = .circular b ∧ m'.orbit = .circular b' ∧
        ∃ angle node, satelliteAt (meanRadius + b.altitude) b.inclination (b.raan + node) (b.trueAnomaly + angle) =
          satelliteAt (meanRadius + b'.altitude) b'.inclination (b'.raan + node) (b'.trueAnomaly + angle) := by
  have hR := meanRadius_gt
  have hpi := Real.pi_pos
  obtain ⟨w, s, p, ms, f, g, hw, -, horb, -, hstar, hspa, hpl, hsat, hms, hlen, -, ⟨s1, -⟩, ⟨p1, p2, -⟩, -, -, g0, gf, fsw⟩ :=
    C37_streets sun name orbit instruments swath packing c hc ho hh hw1 hor
  have hp2 : 2 ≤ p := by
    have hg : g ≤ Real.pi := by
      have : swath / meanRadius = 2 * (swath / 2 / meanRadius) := by field_simp
      linarith
    have hp0 : (0 : ℝ) < p := by exact_mod_cast p1
    rw [div_le_iff₀ hp0] at p2
    have : (2 : ℝ) ≤ p := by
      by_contra hlt
      push Not at hlt
      nlinarith
    exact_mod_cast this
  have hmw : w.members sun = .ok ms := by
    unfold Soc.members at hms
    rw [hw] at hms
    exact hms
  refine ⟨s, p, ms, hms, hlen, s1, hp2, fun k k' j hk hk' hj => ?_⟩
  have hacc : Walker.Accepted w := by
    refine ⟨⟨by omega, ?_⟩, by omega⟩
    rw [hsat, hpl]
    exact Nat.le_mul_of_pos_left _ s1
  obtain ⟨ms', m, m', b, b', hms', hm, hm', hb, hb', h⟩ := C139_meet_iff_partial sun w orbit horb ho hacc (by linarith) s
    (by rw [hsat, hpl, Nat.mul_comm]) k j k' j (by omega) hj (by omega) hj
  rw [hmw, Except.ok.injEq] at hms'
  subst hms'
  refine ⟨m, m', b, b', hm, hm', hb, hb', (h _ _ rfl rfl).mpr ?_⟩
  have s0 : sinDeg 0 = 0 := by unfold sinDeg; simp
  have c90 : cosDeg 90 = 0 := by
    unfold cosDeg; rw [show (90 : ℝ) * Real.pi / 180 = Real.pi / 2 by ring, Real.cos_pi_div_two]
  rw [hpolar, c90, hspa, sub_self, zero_mul, Nat.cast_zero, mul_zero, zero_div, mul_zero, add_zero, zero_div, s0, zero_mul,
    zero_mul, neg_zero]

/-- Refuted for Walker constellations: four satellites in two planes without relative spacing meet at any inclination. -/
theorem C139_walker_false (sun : Int → ℝ) (name : List Char) (o : Circular) (hv : Circular.Valid o) (hr : 0 < o.altitude) :
    ∃ w ms m m' b b', Walker.make name (.circular o) () false 4 2 0 = .ok w ∧ w.members sun = .ok ms ∧ ms[0]? = some m ∧
      ms[3]? = some m' ∧ m.orbit = .circular b ∧ m'.orbit = .circular b' ∧
      ∃ angle node, satelliteAt (meanRadius + b.altitude) b.inclination (b.raan + node) (b.trueAnomaly + angle) =
        satelliteAt (meanRadius + b'.altitude) b'.inclination (b'.raan + node) (b'.trueAnomaly + angle) := by
  have hR := meanRadius_gt
  let w : Walker Unit := ⟨name, .circular o, (), false, 4, 2, 0⟩
  have hacc : Walker.Accepted w := ⟨⟨show 1 ≤ 2 by decide, show 2 ≤ 4 by decide⟩, show 0 < 2 by decide⟩
  obtain ⟨ms, m, m', b, b', hms, hm, hm', hb, hb', h⟩ := C139_meet_iff_partial sun w o rfl hv hacc (by linarith) 2
    rfl 0 0 1 1 (show 0 < 2 by decide) (by decide) (show 1 < 2 by decide) (by decide)
  refine ⟨w, ms, m, m', b, b', rfl, hms, hm, hm', hb, hb', (h _ _ rfl rfl).mpr ?_⟩
  have c90 : cosDeg 90 = 0 := by
    unfold cosDeg; rw [show (90 : ℝ) * Real.pi / 180 = Real.pi / 2 by ring, Real.cos_pi_div_two]
  have e1 : ((((1 : ℕ) : ℝ) - (0 : ℕ)) * (360 / (2 : ℕ)) + (((1 : ℕ) : ℝ) - (0 : ℕ)) * (360 * ((w.spacing : ℕ) : ℝ) / w.satellites)) / 2 = 90 := by
    show ((((1 : ℕ) : ℝ) - (0 : ℕ)) * (360 / (2 : ℕ)) + (((1 : ℕ) : ℝ) - (0 : ℕ)) * (360 * ((0 : ℕ) : ℝ) / (4 : ℕ))) / 2 = 90
    norm_num
  have e2 : (((1 : ℕ) : ℝ) - (0 : ℕ)) * planeStep w.star w.planes / 2 = 90 := by
    show (((1 : ℕ) : ℝ) - (0 : ℕ)) * planeStep false 2 / 2 = 90
    unfold planeStep
    norm_num
  rw [e1, e2, c90]
  ring

/-- The hypotheses are met: eight satellites in two planes with spacing 1; the first of the second plane never meets the first. -/
example (sun : Int → ℝ) : ∃ w ms m m' b b', Walker.make "W".toList (.circular ⟨500000, 0, 0, 60, 0⟩) () false 8 2 1 = .ok w ∧
    w.members sun = .ok ms ∧ ms[0]? = some m ∧ ms[4]? = some m' ∧ m.orbit = .circular b ∧ m'.orbit = .circular b' ∧
    ∀ angle node, satelliteAt (meanRadius + b.altitude) b.inclination (b.raan + node) (b.trueAnomaly + angle) ≠
      satelliteAt (meanRadius + b'.altitude) b'.inclination (b'.raan + node) (b'.trueAnomaly + angle) := by
  have hR := meanRadius_gt
  have hpi := Real.pi_pos
  let w : Walker Unit := ⟨"W".toList, .circular ⟨500000, 0, 0, 60, 0⟩, (), false, 8, 2, 1⟩
  have hacc : Walker.Accepted w := ⟨⟨show 1 ≤ 2 by decide, show 2 ≤ 8 by decide⟩, show 1 < 2 by decide⟩
  obtain ⟨ms, m, m', b, b', hms, hm, hm', hb, hb', h⟩ := C139_meet_iff_partial sun w ⟨500000, 0, 0, 60, 0⟩ rfl
    (by unfold Circular.Valid InTurn; norm_num) hacc (by show 0 < meanRadius + 500000; linarith) 4
    rfl 0 0 1 0 (show 0 < 2 by decide) (by decide) (show 1 < 2 by decide) (by decide)
  refine ⟨w, ms, m, m', b, b', rfl, hms, hm, hm', hb, hb', fun angle node e => ?_⟩
  have h1 := (h 45 180 ?_ ?_).mp ⟨angle, node, e⟩
  · have c1 : 0 < cosDeg (45 / 2) := by
      unfold cosDeg; apply Real.cos_pos_of_mem_Ioo; constructor <;> linarith
    have c2 : 0 < cosDeg 60 := by
      unfold cosDeg; apply Real.cos_pos_of_mem_Ioo; constructor <;> linarith
    have c90 : cosDeg (180 / 2) = 0 := by
      unfold cosDeg; rw [show (180 / 2 : ℝ) * Real.pi / 180 = Real.pi / 2 by ring, Real.cos_pi_div_two]
    have s90 : sinDeg (180 / 2) = 1 := by
      unfold sinDeg; rw [show (180 / 2 : ℝ) * Real.pi / 180 = Real.pi / 2 by ring, Real.sin_pi_div_two]
    rw [c90, s90] at h1
    have := mul_pos c2 c1
    nlinarith
  · show (45 : ℝ) = (((0 : ℕ) : ℝ) - (0 : ℕ)) * (360 / (4 : ℕ)) + (((1 : ℕ) : ℝ) - (0 : ℕ)) * (360 * ((1 : ℕ) : ℝ) / (8 : ℕ))
    norm_num
  · show (180 : ℝ) = (((1 : ℕ) : ℝ) - (0 : ℕ)) * planeStep false 2
    unfold planeStep
    norm_num

end Tatc.Props
