import Verif.Spec.Alike
import Verif.Props.Approach

/-!
# C144: all members of a Walker constellation play the same part
-/

namespace Tatc.Props
open Tatc.Num Tatc.Spec Tatc.Orbit Tatc.Constellation
open scoped Classical

theorem _root_.Tatc.Spec.SameAngle.refl' (a : ℝ) : SameAngle a a := ⟨0, by simp⟩
theorem _root_.Tatc.Spec.SameAngle.symm' {a b : ℝ} : SameAngle a b → SameAngle b a := fun ⟨k, h⟩ => ⟨-k, by rw [h]; push_cast; ring⟩
theorem _root_.Tatc.Spec.SameAngle.trans' {a b c : ℝ} : SameAngle a b → SameAngle b c → SameAngle a c :=
  fun ⟨k, h⟩ ⟨l, g⟩ => ⟨k + l, by rw [h, g]; push_cast; ring⟩
theorem _root_.Tatc.Spec.SameAngle.add' {a b c d : ℝ} : SameAngle a b → SameAngle c d → SameAngle (a + c) (b + d) :=
  fun ⟨k, h⟩ ⟨l, g⟩ => ⟨k + l, by rw [h, g]; push_cast; ring⟩
theorem _root_.Tatc.Spec.SameAngle.sub' {a b c d : ℝ} : SameAngle a b → SameAngle c d → SameAngle (a - c) (b - d) :=
  fun ⟨k, h⟩ ⟨l, g⟩ => ⟨k - l, by rw [h, g]; push_cast; ring⟩

/-- Where a delta pattern with `q` satellites in each of `p` planes has its members. -/
structure Placed (p q : Nat) (R A : ℝ) (F : Nat) (raan anomaly : Nat → ℝ) : Prop where
  node : ∀ k < p, ∀ j < q, SameAngle (raan (k * q + j)) (R + k * (360 / p))
  place : ∀ k < p, ∀ j < q, SameAngle (anomaly (k * q + j)) (A + (j * (360 / q) + k * (360 * F / (p * q))))

/-- Every place of the pattern, continued in both directions, is taken by a member. -/
theorem Placed.taken {p q F : Nat} {R A : ℝ} {raan anomaly : Nat → ℝ} (h : Placed p q R A F raan anomaly) (hp : 0 < p)
    (hq : 0 < q) (k j : ℤ) : ∃ i < p * q, SameAngle (raan i) (R + k * (360 / p)) ∧
      SameAngle (anomaly i) (A + (j * (360 / q) + k * (360 * F / (p * q)))) := by
  have hp' : (0 : ℤ) < p := by exact_mod_cast hp
  have hq' : (0 : ℤ) < q := by exact_mod_cast hq
  obtain ⟨k', hk'⟩ := Int.eq_ofNat_of_zero_le (Int.emod_nonneg k hp'.ne')
  obtain ⟨j', hj'⟩ := Int.eq_ofNat_of_zero_le (Int.emod_nonneg (j + k / p * F) hq'.ne')
  have hkp : k' < p := by have := Int.emod_lt_of_pos k hp'; omega
  have hjq : j' < q := by have := Int.emod_lt_of_pos (j + k / p * F) hq'; omega
  have e1 : (k : ℝ) = k' + p * (k / p : ℤ) := by
    have := Int.emod_add_mul_ediv k p
    rw [hk'] at this
    have t : (((k' : ℤ) + p * (k / p) : ℤ) : ℝ) = (k : ℝ) := by rw [this]
    push_cast at t; linarith
  have e2 : (j : ℝ) + (k / p : ℤ) * F = j' + q * ((j + k / p * F) / q : ℤ) := by
    have := Int.emod_add_mul_ediv (j + k / p * F) q
    rw [hj'] at this
    have t : (((j' : ℤ) + q * ((j + k / p * F) / q) : ℤ) : ℝ) = ((j + k / p * F : ℤ) : ℝ) := by rw [this]
    push_cast at t; linarith
  have hpR : (p : ℝ) ≠ 0 := by exact_mod_cast hp.ne'
  have hqR : (q : ℝ) ≠ 0 := by exact_mod_cast hq.ne'
  refine ⟨k' * q + j', ?_, ?_, ?_⟩
  · have : (k' + 1) * q ≤ p * q := Nat.mul_le_mul_right _ hkp
    nlinarith
  · refine (h.node k' hkp j' hjq).trans' ⟨-(k / p), ?_⟩
    rw [e1]; push_cast; field_simp; ring
  · refine (h.place k' hkp j' hjq).trans' ⟨-((j + k / p * F) / q), ?_⟩
    have e3 : (j : ℝ) = j' + q * ((j + k / p * F) / q : ℤ) - (k / p : ℤ) * F := by linarith
    rw [e3, e1]
    rw [Int.cast_neg]
    generalize ((k / p : ℤ) : ℝ) = c
    generalize (((j + k / p * F) / q : ℤ) : ℝ) = d
    field_simp; ring

/-- The pattern looks the same from each of its members. -/
theorem Placed.alike {p q F : Nat} {R A : ℝ} {raan anomaly : Nat → ℝ} (h : Placed p q R A F raan anomaly) (hp : 0 < p)
    (hq : 0 < q) (hdist : ∀ i < p * q, ∀ i' < p * q, SameAngle (raan i) (raan i') → SameAngle (anomaly i) (anomaly i') → i = i')
    (i i' : Fin (p * q)) : ∃ σ : Equiv.Perm (Fin (p * q)), σ i = i' ∧ ∀ l : Fin (p * q),
      SameAngle (raan (σ l)) (raan l + (raan i' - raan i)) ∧
      SameAngle (anomaly (σ l)) (anomaly l + (anomaly i' - anomaly i)) := by
  have split : ∀ l : Fin (p * q), ∃ k < p, ∃ j < q, (l : Nat) = k * q + j := by
    intro l
    refine ⟨l / q, ?_, l % q, Nat.mod_lt _ hq, ?_⟩
    · rw [Nat.div_lt_iff_lt_mul hq]; exact l.2
    · exact (Nat.div_add_mod' _ _).symm
  have ex : ∀ l : Fin (p * q), ∃ l' : Fin (p * q), SameAngle (raan l') (raan l + (raan i' - raan i)) ∧
      SameAngle (anomaly l') (anomaly l + (anomaly i' - anomaly i)) := by
    intro l
    obtain ⟨k0, hk0, j0, hj0, e0⟩ := split l
    obtain ⟨k1, hk1, j1, hj1, e1⟩ := split i
    obtain ⟨k2, hk2, j2, hj2, e2⟩ := split i'
    obtain ⟨t, ht, h1, h2⟩ := h.taken hp hq ((k0 : ℤ) + (k2 - k1)) ((j0 : ℤ) + (j2 - j1))
    refine ⟨⟨t, ht⟩, ?_, ?_⟩
    · refine h1.trans' (SameAngle.symm' ?_)
      rw [e0, e1, e2]
      refine ((h.node k0 hk0 j0 hj0).add' ((h.node k2 hk2 j2 hj2).sub' (h.node k1 hk1 j1 hj1))).trans' ⟨0, ?_⟩
      push_cast; ring
    · refine h2.trans' (SameAngle.symm' ?_)
      rw [e0, e1, e2]
      refine ((h.place k0 hk0 j0 hj0).add' ((h.place k2 hk2 j2 hj2).sub' (h.place k1 hk1 j1 hj1))).trans' ⟨0, ?_⟩
      push_cast; ring
  choose σ h1 h2 using ex
  have inj : Function.Injective σ := by
    intro l l' e
    apply Fin.ext
    refine hdist l l.2 l' l'.2 ?_ ?_
    · have := (h1 l).symm'.trans' (e ▸ h1 l')
      simpa using this.sub' (SameAngle.refl' (raan i' - raan i))
    · have := (h2 l).symm'.trans' (e ▸ h2 l')
      simpa using this.sub' (SameAngle.refl' (anomaly i' - anomaly i))
  refine ⟨Equiv.ofBijective σ (Finite.injective_iff_bijective.mp inj), ?_, fun l => ⟨h1 l, h2 l⟩⟩
  apply Fin.ext
  refine hdist (σ i) (σ i).2 i' i'.2 ?_ ?_
  · refine (h1 i).trans' ⟨0, ?_⟩; push_cast; ring
  · refine (h2 i).trans' ⟨0, ?_⟩; push_cast; ring

/-- C144, full statement: whatever the numbers of satellites and planes, the pattern and the orbit, for any two members of a
Walker constellation there is a way to pair the members such that the constellation seen from the first is that seen from
the second: the same differences of nodes and anomalies.  Proved for delta constellations with equally many satellites in all
planes, on orbits not given by an eccentricity. -/
theorem C144_alike_partial {I : Type} (sun : Int → ℝ) (w : Walker I) (hw : Walker.Accepted w)
    (hl : Lead.Valid w.orbit) (hk : ¬ Lead.IsKeplerian w.orbit) (hdelta : w.star = false) (q : Nat)
    (hq : w.satellites = w.planes * q) :
    ∃ ms, w.members sun = .ok ms ∧ ms.length = w.satellites ∧
      ∀ i i' : Fin ms.length, ∃ σ : Equiv.Perm (Fin ms.length), σ i = i' ∧ ∀ l : Fin ms.length,
        SameAngle (raanOf sun ms[σ l].orbit) (raanOf sun ms[l].orbit + (raanOf sun ms[i'].orbit - raanOf sun ms[i].orbit)) ∧
        SameAngle (anomalyOf ms[σ l].orbit)
          (anomalyOf ms[l].orbit + (anomalyOf ms[i'].orbit - anomalyOf ms[i].orbit)) := by
  obtain ⟨ms, hok, hlen, hpat⟩ := C29_pattern_partial sun w hw hl hk q hq
  obtain ⟨ms', hok', hlen', hm⟩ := walker_members sun w hl
  rw [hok, Except.ok.injEq] at hok'
  subst hok'
  refine ⟨ms, hok, hlen, ?_⟩
  let raan : Nat → ℝ := fun i => if hi : i < ms.length then raanOf sun ms[i].orbit else 0
  let anomaly : Nat → ℝ := fun i => if hi : i < ms.length then anomalyOf ms[i].orbit else 0
  have hraan : ∀ i (hi : i < w.satellites), raan i = raanOf sun (ms[i]'(hlen ▸ hi)).orbit := by
    intro i hi; exact dif_pos (hlen ▸ hi)
  have hanom : ∀ i (hi : i < w.satellites), anomaly i = anomalyOf (ms[i]'(hlen ▸ hi)).orbit := by
    intro i hi; exact dif_pos (hlen ▸ hi)
  have P := hpat raan anomaly hraan hanom
  have hp0 : 0 < w.planes := hw.1.1
  have hq0 : 0 < q := by
    rcases Nat.eq_zero_or_pos q with h0 | h0
    · rw [h0, Nat.mul_zero] at hq; have := hw.1.2; omega
    · exact h0
  have hs : w.satellitesPerPlane = q := by
    obtain ⟨hs0, hs1, hs2⟩ := perPlane_spec w hw
    have h1 : q ≤ w.satellitesPerPlane := by rw [hq] at hs1; exact Nat.le_of_mul_le_mul_left hs1 hp0
    have h2 : ¬ q + 1 ≤ w.satellitesPerPlane := by
      intro h
      have := Nat.mul_le_mul_left w.planes h
      rw [Nat.mul_add] at this
      omega
    omega
  have hslot : ∀ k < w.planes, ∀ j < q, slot q k j < w.satellites := by
    intro k hk j hj
    have : (k + 1) * q ≤ w.planes * q := Nat.mul_le_mul_right _ hk
    rw [Nat.add_mul] at this
    rw [hq]; unfold slot; omega
  have placed : Placed w.planes q (raanOf sun w.orbit) (anomalyOf w.orbit) w.spacing raan anomaly := by
    constructor
    · intro k hk' j hj
      have e := (hm _ (hslot k hk' j hj)).2.1
      rw [← hraan _ (hslot k hk' j hj), increments_slot w q hs k j hj] at e
      obtain ⟨x, hx⟩ := npMod_spec (raanOf sun w.orbit + k * w.deltaRaan) 360
      refine ⟨x, ?_⟩
      show raan (slot q k j) = _
      rw [e]
      show npMod (raanOf sun w.orbit + k * w.deltaRaan) 360 = _
      rw [hx]
      unfold Walker.deltaRaan
      rw [hdelta]
      simp
    · intro k hk' j hj
      have e := (hm _ (hslot k hk' j hj)).2.2 hk
      rw [← hanom _ (hslot k hk' j hj), increments_slot w q hs k j hj] at e
      obtain ⟨x, hx⟩ := npMod_spec (anomalyOf w.orbit + (j * (360 / q) + k * w.deltaBetween)) 360
      refine ⟨x, ?_⟩
      show anomaly (slot q k j) = _
      rw [e]
      show npMod (anomalyOf w.orbit + (j * (360 / q) + k * w.deltaBetween)) 360 = _
      rw [hx]
      unfold Walker.deltaBetween
      rw [hq]
      push_cast; ring
  have hlen2 : ms.length = w.planes * q := hlen.trans hq
  have hdist : ∀ i < w.planes * q, ∀ i' < w.planes * q, SameAngle (raan i) (raan i') →
      SameAngle (anomaly i) (anomaly i') → i = i' := by rw [← hq]; exact P.distinct
  have main := placed.alike hp0 hq0 hdist
  rw [← hlen2] at main
  intro i i'
  obtain ⟨σ, h1, h2⟩ := main i i'
  refine ⟨σ, h1, fun l => ?_⟩
  have r : ∀ x : Fin ms.length, raan x = raanOf sun ms[x].orbit := fun x => dif_pos x.2
  have a : ∀ x : Fin ms.length, anomaly x = anomalyOf ms[x].orbit := fun x => dif_pos x.2
  have := h2 l
  rw [r, r, r, r, a, a, a, a] at this
  exact this

/-- C144 in terms of places, on circular orbits: at any time the constellation looks from one member (member `i'`) as it looks
from another one (member `i`), or will, when the satellites have moved on by the difference of their anomalies: turned by the
difference of their nodes. -/
theorem C144_places_partial {I : Type} (sun : Int → ℝ) (w : Walker I) (o : Circular) (ho : w.orbit = .circular o)
    (hv : Circular.Valid o) (hw : Walker.Accepted w) (hdelta : w.star = false) (q : Nat)
    (hq : w.satellites = w.planes * q) :
    ∃ ms, w.members sun = .ok ms ∧ ∃ orbits : Fin ms.length → Circular, (∀ l : Fin ms.length, ms[l].orbit = .circular (orbits l)) ∧
      ∀ i i' : Fin ms.length, ∃ σ : Equiv.Perm (Fin ms.length), σ i = i' ∧ ∀ (l : Fin ms.length) (later : ℝ),
        satelliteAt (meanRadius + (orbits (σ l)).altitude) (orbits (σ l)).inclination (orbits (σ l)).raan
            ((orbits (σ l)).trueAnomaly + later) =
          turned ((orbits i').raan - (orbits i).raan)
            (satelliteAt (meanRadius + (orbits l).altitude) (orbits l).inclination (orbits l).raan
              ((orbits l).trueAnomaly + (later + ((orbits i').trueAnomaly - (orbits i).trueAnomaly)))) := by
  have hl : Lead.Valid w.orbit := by rw [ho]; exact hv
  have hk : ¬ Lead.IsKeplerian w.orbit := by rw [ho]; exact id
  obtain ⟨ms, hok, hlen, hal⟩ := C144_alike_partial sun w hw hl hk hdelta q hq
  refine ⟨ms, hok, ?_⟩
  have hq0 : 0 < q := by
    rcases Nat.eq_zero_or_pos q with h0 | h0
    · rw [h0, Nat.mul_zero] at hq; have := hw.1; omega
    · exact h0
  have each : ∀ l : Fin ms.length, ∃ b : Circular, ms[l].orbit = .circular b ∧ b.altitude = o.altitude ∧
      b.inclination = o.inclination := by
    intro l
    have hll : (l : Nat) < w.planes * q := by rw [← hq, ← hlen]; exact l.2
    have hk1 : (l : Nat) / q < w.planes := by rw [Nat.div_lt_iff_lt_mul hq0]; exact hll
    obtain ⟨ms', hok', m, b, hm, hb, h1, h2, -⟩ := walker_slot sun w o ho hv hw q hq (l / q) (l % q) hk1 (Nat.mod_lt _ hq0)
    rw [hok, Except.ok.injEq] at hok'
    subst hok'
    have e : slot q (l / q) (l % q) = l := Nat.div_add_mod' _ _
    rw [e, List.getElem?_eq_getElem l.2] at hm
    refine ⟨b, ?_, h1, h2⟩
    rw [← hb, ← Option.some.inj hm]; rfl
  choose orbits h1 h2 h3 using each
  refine ⟨orbits, h1, fun i i' => ?_⟩
  obtain ⟨σ, hσ, hall⟩ := hal i i'
  refine ⟨σ, hσ, fun l later => ?_⟩
  obtain ⟨⟨x, hx⟩, y, hy⟩ := hall l
  rw [h1, h1, h1, h1] at hx hy
  change (orbits (σ l)).raan = (orbits l).raan + ((orbits i').raan - (orbits i).raan) + 360 * x at hx
  change (orbits (σ l)).trueAnomaly =
    (orbits l).trueAnomaly + ((orbits i').trueAnomaly - (orbits i).trueAnomaly) + 360 * y at hy
  have sinT : ∀ (t : ℝ) (z : ℤ), sinDeg (t + 360 * z) = sinDeg t := by
    intro t z
    unfold sinDeg
    rw [← Real.sin_add_int_mul_two_pi (t * Real.pi / 180) z]
    congr 1; ring
  have cosT : ∀ (t : ℝ) (z : ℤ), cosDeg (t + 360 * z) = cosDeg t := by
    intro t z
    unfold cosDeg
    rw [← Real.cos_add_int_mul_two_pi (t * Real.pi / 180) z]
    congr 1; ring
  have hy' : (orbits (σ l)).trueAnomaly + later =
      (orbits l).trueAnomaly + (later + ((orbits i').trueAnomaly - (orbits i).trueAnomaly)) + 360 * y := by rw [hy]; ring
  unfold satelliteAt perigeeDirection turned
  rw [hy', hx, sinT, sinT, cosT, cosT, h2, h2, h3, h3, sinDeg_add (orbits l).raan, cosDeg_add (orbits l).raan]
  ext <;> simp only [V3.smul] <;> ring

/-- It is false for star constellations: two planes, one satellite each, a quarter of a turn apart; to the second member the other
one's plane is to the west, to the first one it is to the east. -/
theorem C144_star_false (sun : Int → ℝ) : ∃ (w : Walker Unit) (ms : List (Satellite Unit)) (h : ms.length = 2),
    Walker.make "W".toList exampleLead () true 2 2 0 = .ok w ∧ w.members sun = .ok ms ∧
      ¬ ∃ l : Fin ms.length, SameAngle (raanOf sun ms[l].orbit)
        (raanOf sun ms[1].orbit + (raanOf sun ms[1].orbit - raanOf sun ms[0].orbit)) := by
  let w : Walker Unit := ⟨"W".toList, exampleLead, (), true, 2, 2, 0⟩
  have hw : Walker.Accepted w := ⟨⟨by decide, by decide⟩, by decide⟩
  obtain ⟨ms, hok, hlen, hpat⟩ := C29_pattern_partial sun w hw exampleLead_valid id 1 (by decide)
  refine ⟨w, ms, hlen, rfl, hok, ?_⟩
  have P := hpat (fun i => if hi : i < ms.length then raanOf sun ms[i].orbit else 0)
    (fun i => if hi : i < ms.length then anomalyOf ms[i].orbit else 0)
    (fun i hi => dif_pos (hlen ▸ hi)) (fun i hi => dif_pos (hlen ▸ hi))
  have hlen' : ms.length = 2 := hlen
  obtain ⟨a, ha⟩ := P.planes 0 (by decide) 1 (by decide) 0 (by decide) 0 (by decide)
  simp only [slot, planeStep, hlen'] at ha
  norm_num [w] at ha
  rw [dif_pos (show 1 < ms.length by omega), dif_pos (show 0 < ms.length by omega)] at ha
  rintro ⟨⟨l, hl⟩, b, hb⟩
  have hl2 : l = 0 ∨ l = 1 := by omega
  rcases hl2 with rfl | rfl
  · simp only [Fin.getElem_fin] at hb
    have h2 : ((2 * a + b : ℤ) : ℝ) * 2 = ((-1 : ℤ) : ℝ) := by push_cast; linarith
    have h3 : (2 * a + b) * 2 = -1 := by exact_mod_cast h2
    omega
  · simp only [Fin.getElem_fin] at hb
    have h2 : ((a + b : ℤ) : ℝ) * 4 = ((-1 : ℤ) : ℝ) := by push_cast; linarith
    have h3 : (a + b) * 4 = -1 := by exact_mod_cast h2
    omega

/-- The hypotheses of C144 are met by a constellation of twelve satellites in four planes. -/
example : ∃ w : Walker Unit, Walker.make "W".toList exampleLead () false 12 4 1 = .ok w ∧ Walker.Accepted w ∧
    Lead.Valid w.orbit ∧ ¬ Lead.IsKeplerian w.orbit ∧ w.star = false ∧ w.satellites = w.planes * 3 :=
  ⟨⟨"W".toList, exampleLead, (), false, 12, 4, 1⟩, rfl, ⟨⟨by decide, by decide⟩, by decide⟩, exampleLead_valid, id, rfl, rfl⟩

end Tatc.Props
