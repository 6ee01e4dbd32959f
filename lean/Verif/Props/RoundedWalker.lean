import Verif.Props.Walker
import Verif.Props.RoundedSso
import Verif.Model.IeeeWalker

/-! C180: Walker constellations in double precision. -/

namespace Tatc.Props
open Tatc Tatc.Num Tatc.Ieee Tatc.Spec Tatc.Orbit Tatc.Constellation

/-- A multiple of a rounded number. -/
theorem times_close {n : ℕ} {x B : ℝ} (hn : (n : ℝ) ≤ 1e9) (hx : 0 ≤ x) (hB : n * x ≤ B) (hB1 : 1 ≤ B) :
    0 ≤ fl (n * fl x) ∧ |fl (n * fl x) - n * x| ≤ B * (2.1 / 2 ^ 53) := by
  have n0 : (0 : ℝ) ≤ n := by positivity
  have f0 : 0 ≤ fl x := le_fl double_zero hx
  have c1 := fl_close' x
  rw [abs_of_nonneg hx] at c1
  have c2 := fl_close' (n * fl x)
  rw [abs_of_nonneg (mul_nonneg n0 f0)] at c2
  have c3 : |n * fl x - n * x| ≤ n * (x / 2 ^ 53 + 1 / 2 ^ 100) := by
    rw [← mul_sub, abs_mul, abs_of_nonneg n0]; exact mul_le_mul_of_nonneg_left c1 n0
  have e : n * (x / 2 ^ 53 + 1 / 2 ^ 100) = n * x / 2 ^ 53 + n / 2 ^ 100 := by ring
  rw [e] at c3
  have d3 := abs_le.mp c3
  have t := abs_sub_le (fl (n * fl x)) (n * fl x) (n * x)
  refine ⟨le_fl double_zero (mul_nonneg n0 f0), t.trans ?_⟩
  generalize (n : ℝ) * x = y at *
  generalize (n : ℝ) * fl x = z at *
  generalize (n : ℝ) = m at *
  norm_num at *
  linarith

/-- The satellites in a plane: the least number that makes room for all. -/
def perPlane (satellites planes : Nat) : Nat := (satellites + planes - 1) / planes

/-- The mean anomaly of member `i` ahead of the first one, in degrees: members of a plane are equally spaced, and the same
slots of adjacent planes are `spacing` times `360 / satellites` apart. -/
noncomputable def slotAnomaly (satellites planes spacing i : Nat) : ℝ :=
  (i % perPlane satellites planes : Nat) * (360 / perPlane satellites planes) +
    (i / perPlane satellites planes : Nat) * (360 * spacing / satellites)

/-- The right ascension of the ascending node of member `i` ahead of the first one, in degrees: planes are equally spaced
over a turn, or half a turn in the star pattern. -/
noncomputable def slotNode (star : Bool) (satellites planes i : Nat) : ℝ :=
  (i / perPlane satellites planes : Nat) * ((if star then 180 else 360) / planes)

theorem perPlane_eq {I : Type} (w : Walker I) (hw : Walker.Accepted w) (hn : w.satellites ≤ 10 ^ 9) :
    (satellitesPerPlane w.satellites w.planes).toNat = perPlane w.satellites w.planes ∧ 0 < perPlane w.satellites w.planes ∧
      w.satellites ≤ w.planes * perPlane w.satellites w.planes ∧ perPlane w.satellites w.planes ≤ w.satellites := by
  have h := (C141_per_plane_partial w hw (by omega)).1
  have s := perPlane_spec w hw
  have e : w.satellitesPerPlane = perPlane w.satellites w.planes := ceil_div (by have := hw.1.1; omega)
  rw [e] at h s
  refine ⟨by rw [h]; simp, s.1, s.2.1, ?_⟩
  obtain ⟨⟨h1, h2⟩, -⟩ := hw
  have := s.2.2
  generalize perPlane w.satellites w.planes = q at *
  by_contra hc
  push Not at hc
  have h3 : w.planes * (w.satellites + 1) ≤ w.planes * q := Nat.mul_le_mul_left _ hc
  have h4 : w.satellites ≤ w.planes * w.satellites := Nat.le_mul_of_pos_left _ h1
  rw [Nat.mul_add] at h3
  omega

theorem increments_close {I : Type} (w : Walker I) (hw : Walker.Accepted w) (hn : w.satellites ≤ 10 ^ 9) (hp : w.planes ≤ 2700)
    {i : Nat} (hi : i < w.satellites) :
    0 ≤ (walkerIncrements w i).1 ∧ (walkerIncrements w i).1 ≤ 1000000 ∧ 0 ≤ (walkerIncrements w i).2 ∧
      (walkerIncrements w i).2 ≤ 1000000 ∧
      |(walkerIncrements w i).1 - slotAnomaly w.satellites w.planes w.spacing i| ≤ 9e-10 ∧
      |(walkerIncrements w i).2 - slotNode w.star w.satellites w.planes i| ≤ 9e-10 := by
  obtain ⟨e, q0, q1, q2⟩ := perPlane_eq w hw hn
  unfold walkerIncrements slotAnomaly slotNode
  simp only [e]
  obtain ⟨⟨h1, h2⟩, h3⟩ := hw
  generalize perPlane w.satellites w.planes = q at *
  have hm : i % q < q := Nat.mod_lt _ q0
  have hd : i / q < w.planes := by
    rw [Nat.div_lt_iff_lt_mul q0]; omega
  generalize i % q = a at *
  generalize i / q = b at *
  have r1 : (a : ℝ) ≤ q := by exact_mod_cast hm.le
  have r2 : (b : ℝ) ≤ w.planes := by exact_mod_cast hd.le
  have r3 : (w.planes : ℝ) ≤ w.satellites := by exact_mod_cast h2
  have r4 : (w.spacing : ℝ) ≤ w.planes := by exact_mod_cast h3.le
  have r5 : (w.satellites : ℝ) ≤ 1e9 := by norm_num; exact_mod_cast hn
  have r6 : (w.planes : ℝ) ≤ 2700 := by exact_mod_cast hp
  have r7 : (0 : ℝ) < q := by exact_mod_cast q0
  have r8 : (0 : ℝ) < w.planes := by exact_mod_cast h1
  have r9 : (q : ℝ) ≤ w.satellites := by exact_mod_cast q2
  have A := times_close (n := a) (x := 360 / q) (B := 360) (by linarith) (by positivity)
    (by rw [← mul_div_assoc, div_le_iff₀ r7]; nlinarith) (by norm_num)
  have B := times_close (n := b) (x := 360 * w.spacing / w.satellites) (B := 972000) (by linarith) (by positivity)
    (by
      have g : (b : ℝ) * w.spacing ≤ w.planes * w.satellites :=
        mul_le_mul r2 (r4.trans r3) (by positivity) r8.le
      rw [← mul_div_assoc, div_le_iff₀ (by linarith)]
      have g2 : (w.planes : ℝ) * w.satellites ≤ 2700 * w.satellites := mul_le_mul_of_nonneg_right r6 (by linarith)
      nlinarith) (by norm_num)
  have k0 : (0 : ℝ) ≤ (if w.star then 180 else 360) := by split_ifs <;> norm_num
  have k1 : (if w.star then 180 else 360 : ℝ) ≤ 360 := by split_ifs <;> norm_num
  have C := times_close (n := b) (x := (if w.star then 180 else 360) / w.planes) (B := 360) (by linarith) (by positivity)
    (by rw [← mul_div_assoc, div_le_iff₀ r8]; nlinarith) (by norm_num)
  have uA : (a : ℝ) * (360 / q) ≤ 360 := by rw [← mul_div_assoc, div_le_iff₀ r7]; nlinarith
  have uC : (b : ℝ) * ((if w.star then 180 else 360) / w.planes) ≤ 360 := by
    rw [← mul_div_assoc, div_le_iff₀ r8]; nlinarith
  have uB : (b : ℝ) * (360 * w.spacing / w.satellites) ≤ 972000 := by
    have g : (b : ℝ) * w.spacing ≤ w.planes * w.satellites :=
      mul_le_mul r2 (r4.trans r3) (by positivity) r8.le
    rw [← mul_div_assoc, div_le_iff₀ (by linarith)]
    have g2 : (w.planes : ℝ) * w.satellites ≤ 2700 * w.satellites := mul_le_mul_of_nonneg_right r6 (by linarith)
    nlinarith
  generalize (a : ℝ) * (360 / q) = x at *
  generalize (b : ℝ) * (360 * w.spacing / w.satellites) = y at *
  generalize (b : ℝ) * ((if w.star then 180 else 360) / w.planes) = z at *
  generalize fl (a * fl (360 / q)) = x' at *
  generalize fl (b * fl (360 * w.spacing / w.satellites)) = y' at *
  generalize fl (b * fl ((if w.star then 180 else 360) / w.planes)) = z' at *
  obtain ⟨A0, A1⟩ := A
  obtain ⟨B0, B1⟩ := B
  obtain ⟨C0, C1⟩ := C
  have s := fl_close' (x' + y')
  rw [abs_of_nonneg (add_nonneg A0 B0)] at s
  have s0 : 0 ≤ fl (x' + y') := le_fl double_zero (add_nonneg A0 B0)
  have A2 := abs_le.mp A1
  have B2 := abs_le.mp B1
  have C2 := abs_le.mp C1
  have s2 := abs_le.mp s
  generalize fl (x' + y') = v at *
  clear s A1 B1 C1
  norm_num at *
  refine ⟨s0, by linarith, C0, by linarith, abs_le.mpr ⟨by linarith, by linarith⟩, abs_le.mpr ⟨by linarith, by linarith⟩⟩

/-- Two angles are the same within `error` degrees, but for whole turns. -/
def SameWithin (error a b : ℝ) : Prop := ∃ turns : ℤ, |a - (b + 360 * turns)| ≤ error

/-- C180: all members of an accepted Walker constellation around a circular orbit are generated, in order, and each is a valid
orbit with the altitude, inclination and epoch of the lead, in its place in the pattern within `2·10⁻⁹` degrees (a fraction of a millimetre). -/
theorem C180_members {I : Type} (w : Walker I) (hw : Walker.Accepted w) (hn : w.satellites ≤ 10 ^ 9) (hp : w.planes ≤ 2700)
    (o : Circular) (hv : Circular.Valid o) :
    ∃ orbits : Nat → Circular,
      walkerMembers (.circular o) w = .ok ((List.range w.satellites).map fun i =>
        ⟨zeroPad w.name w.satellites (i + 1), .circular (orbits i), w.instruments⟩) ∧
      ∀ i < w.satellites, Circular.Valid (orbits i) ∧ (orbits i).altitude = o.altitude ∧
        (orbits i).inclination = o.inclination ∧ (orbits i).epoch = o.epoch ∧
        SameWithin 2e-9 (orbits i).trueAnomaly (o.trueAnomaly + slotAnomaly w.satellites w.planes w.spacing i) ∧
        SameWithin 2e-9 (orbits i).raan (o.raan + slotNode w.star w.satellites w.planes i) := by
  have key : ∀ i, ∃ d : Circular, i < w.satellites → Ieee.derived o (walkerIncrements w i).1 (walkerIncrements w i).2 = .ok d ∧
      Circular.Valid d ∧ d.altitude = o.altitude ∧ d.inclination = o.inclination ∧ d.epoch = o.epoch ∧
      SameWithin 2e-9 d.trueAnomaly (o.trueAnomaly + slotAnomaly w.satellites w.planes w.spacing i) ∧
      SameWithin 2e-9 d.raan (o.raan + slotNode w.star w.satellites w.planes i) := by
    intro i
    by_cases hi : i < w.satellites
    · obtain ⟨m0, m1, n0, n1, cm, cn⟩ := increments_close w hw hn hp hi
      obtain ⟨d, hd, v, e1, e2, e3⟩ := C140_forward_partial o hv _ _ m0 n0
      obtain ⟨⟨k, hk⟩, l, hl⟩ := C140_close o d hv _ _ (by rw [abs_of_nonneg m0]; exact m1) (by rw [abs_of_nonneg n0]; exact n1) hd
      refine ⟨d, fun _ => ⟨hd, v, e1, e3, e2, ⟨k, ?_⟩, ⟨l, ?_⟩⟩⟩
      · have a1 := abs_le.mp hk
        have a2 := abs_le.mp cm
        norm_num at *
        rw [abs_le]; constructor <;> linarith
      · have a1 := abs_le.mp hl
        have a2 := abs_le.mp cn
        norm_num at *
        rw [abs_le]; constructor <;> linarith
    · exact ⟨o, fun h => absurd h hi⟩
  choose f hf using key
  refine ⟨f, ?_, fun i hi => (hf i hi).2⟩
  unfold walkerMembers
  apply mapM_ok
  intro i hi
  have := (hf i (List.mem_range.mp hi)).1
  simp only [DoubleLead.derived, this]
  rfl

/-- Multiples of equal parts of a turn (or half a turn) that are the same within a small error are the same multiples. -/
theorem parts_distinct {p k l : Nat} {c : ℝ} (hc : c = 1 ∨ c = 2) (hp : (p : ℝ) ≤ 1e9) (hk : k < p) (hl : l < p) {x a b : ℝ}
    (ha : SameWithin 2e-9 a (x + k * (360 / c / p))) (hb : SameWithin 2e-9 b (x + l * (360 / c / p))) (hab : a = b) : k = l := by
  obtain ⟨s, hs⟩ := ha
  obtain ⟨t, ht⟩ := hb
  subst hab
  have p0 : (0 : ℝ) < p := by exact_mod_cast (show 0 < p by omega)
  obtain ⟨C, hC, hC1⟩ : ∃ C : ℤ, c = C ∧ (C = 1 ∨ C = 2) := by
    rcases hc with rfl | rfl
    · exact ⟨1, by norm_num, .inl rfl⟩
    · exact ⟨2, by norm_num, .inr rfl⟩
  have c0 : (0 : ℝ) < c := by rcases hc with rfl | rfl <;> norm_num
  have c2 : c ≤ 2 := by rcases hc with rfl | rfl <;> norm_num
  have hs' := abs_le.mp hs
  have ht' := abs_le.mp ht
  have d : |((k : ℝ) - l) * (360 / c / p) + 360 * (s - t)| ≤ 4e-9 := by
    norm_num at *
    rw [abs_le]; constructor <;> linarith
  have e : ((k : ℝ) - l) * (360 / c / p) + 360 * (s - t) = (360 / c / p) * ((k - l + C * p * (s - t) : ℤ) : ℝ) := by
    push_cast; rw [← hC]; field_simp
  rw [e, abs_mul, abs_of_pos (by positivity)] at d
  have u : 1.8e-7 ≤ 360 / c / p := by
    rw [le_div_iff₀ p0, le_div_iff₀ c0]
    have : (p : ℝ) * c ≤ 1e9 * 2 := mul_le_mul hp c2 c0.le (by norm_num)
    norm_num at *; nlinarith
  have z : (k - l + C * p * (s - t) : ℤ) = 0 := by
    by_contra hne
    have h1 : (1 : ℝ) ≤ |((k - l + C * p * (s - t) : ℤ) : ℝ)| := by exact_mod_cast Int.one_le_abs hne
    have := mul_le_mul u h1 (by norm_num) (by positivity)
    norm_num at *; linarith
  have hst : s - t = 0 := by
    by_contra hne
    rcases lt_or_gt_of_ne hne with h | h
    · have : C * p * (s - t) ≤ -p := by rcases hC1 with rfl | rfl <;> nlinarith
      omega
    · have : (p : ℤ) ≤ C * p * (s - t) := by rcases hC1 with rfl | rfl <;> nlinarith
      omega
  rw [hst] at z
  omega

/-- C180: no two members of the constellation share an orbit: they differ in the right ascension of the ascending node or in
the anomaly. -/
theorem C180_distinct {I : Type} (w : Walker I) (hw : Walker.Accepted w) (hn : w.satellites ≤ 10 ^ 9) (hp : w.planes ≤ 2700)
    (o : Circular) (hv : Circular.Valid o) (members : List (Satellite I)) (hm : walkerMembers (.circular o) w = .ok members)
    (i j : Nat) (c d : Circular) (m m' : Satellite I) (hi : members[i]? = some m) (hj : members[j]? = some m')
    (hc : m.orbit = .circular c) (hd : m'.orbit = .circular d) (hne : i ≠ j) : c.raan ≠ d.raan ∨ c.trueAnomaly ≠ d.trueAnomaly := by
  obtain ⟨f, hf, hg⟩ := C180_members w hw hn hp o hv
  rw [hm, Except.ok.injEq] at hf
  subst hf
  simp only [List.getElem?_map, Option.map_eq_some_iff, List.getElem?_eq_some_iff, List.length_range, List.getElem_range] at hi hj
  obtain ⟨_, ⟨hi, rfl⟩, rfl⟩ := hi
  obtain ⟨_, ⟨hj, rfl⟩, rfl⟩ := hj
  simp only [Lead.circular.injEq] at hc hd
  subst hc hd
  obtain ⟨-, -, -, -, ta, ra⟩ := hg i hi
  obtain ⟨-, -, -, -, tb, rb⟩ := hg j hj
  obtain ⟨-, q0, q1, q2⟩ := perPlane_eq w hw hn
  by_contra hcon
  push Not at hcon
  obtain ⟨e1, e2⟩ := hcon
  have r5 : (w.satellites : ℝ) ≤ 1e9 := by norm_num; exact_mod_cast hn
  have r6 : (w.planes : ℝ) ≤ w.satellites := by exact_mod_cast hw.1.2
  have r9 : (perPlane w.satellites w.planes : ℝ) ≤ w.satellites := by exact_mod_cast q2
  unfold slotNode at ra rb
  unfold slotAnomaly at ta tb
  generalize perPlane w.satellites w.planes = q at *
  have di : i / q < w.planes := by rw [Nat.div_lt_iff_lt_mul q0]; omega
  have dj : j / q < w.planes := by rw [Nat.div_lt_iff_lt_mul q0]; omega
  have planes : i / q = j / q := by
    cases hs : w.star
    · rw [hs] at ra rb
      exact parts_distinct (c := 1) (.inl rfl) (r6.trans r5) di dj (by simpa using ra) (by simpa using rb) e1
    · rw [hs] at ra rb
      have g : (360 : ℝ) / 2 = 180 := by norm_num
      exact parts_distinct (c := 2) (.inr rfl) (r6.trans r5) di dj (by rw [g]; simpa using ra) (by rw [g]; simpa using rb) e1
  rw [← planes] at tb
  have slots : i % q = j % q := by
    refine parts_distinct (p := q) (c := 1) (x := o.trueAnomaly + (i / q : Nat) * (360 * w.spacing / w.satellites)) (.inl rfl)
      (r9.trans r5) (Nat.mod_lt _ q0) (Nat.mod_lt _ q0) ?_ ?_ e2
    · rw [div_one, add_assoc, add_comm ((i / q : Nat) * (360 * w.spacing / w.satellites) : ℝ)]; exact ta
    · rw [div_one, add_assoc, add_comm ((i / q : Nat) * (360 * w.spacing / w.satellites) : ℝ)]; exact tb
  apply hne
  rw [← Nat.div_add_mod i q, ← Nat.div_add_mod j q, planes, slots]

/-- C180: a Walker constellation around a sun-synchronous orbit, at least two nanometres below the bound on its altitude, has the
members of the constellation around the circular orbit with the same altitude, anomaly and epoch and the inclination and node of
the sun-synchronous one; that orbit is valid. -/
theorem C180_sso {I : Type} (w : Walker I) (altitude trueAnomaly sun : ℝ) (epoch : Int) (microseconds : Nat) (ascending : Bool)
    (h0 : 0 ≤ altitude) (h1 : altitude + 2 ^ (-29 : ℤ) ≤ ssoLimit) (ht : InTurn trueAnomaly) (hs : 0 ≤ sun ∧ sun ≤ 360)
    (hm : microseconds < 86400000000) :
    ∃ i, ssoInclination altitude = some i ∧ Circular.Valid ⟨altitude, trueAnomaly, epoch, i, ssoRaan sun microseconds ascending⟩ ∧
      walkerMembers (.sso altitude trueAnomaly epoch sun microseconds ascending) w =
        walkerMembers (.circular ⟨altitude, trueAnomaly, epoch, i, ssoRaan sun microseconds ascending⟩) w := by
  have h : ssoAccepted altitude := ⟨h0, lt_of_lt_of_le (lt_add_of_pos_right _ (by positivity)) h1⟩
  obtain ⟨i, hi, i0, -, -⟩ := C179_inclination altitude h ⟨altitude, 0, 0, 0, true⟩ rfl
  have i1 := C179_below altitude i h0 h1 hi
  refine ⟨i, hi, ⟨ht, ⟨by linarith, i1⟩, (C179_raan sun microseconds ascending hs hm).1⟩, ?_⟩
  unfold walkerMembers
  simp only [DoubleLead.derived, ssoDerived, hi]
  rfl

/-- A delta pattern of 24 satellites in 6 planes with spacing 1. -/
example : Walker.Accepted (I := Unit) ⟨[], .circular ⟨700000, 0, 0, 50, 0⟩, (), false, 24, 6, 1⟩ ∧
    Circular.Valid ⟨700000, 0, 0, 50, 0⟩ ∧ slotAnomaly 24 6 1 5 = 105 ∧ slotNode false 24 6 5 = 60 := by
  refine ⟨⟨⟨by norm_num, by norm_num⟩, by norm_num⟩, ⟨⟨by norm_num, by norm_num⟩, ⟨by norm_num, by norm_num⟩, by norm_num, by norm_num⟩, ?_, ?_⟩ <;>
  norm_num [slotAnomaly, slotNode, perPlane]

end Tatc.Props
