import Verif.Model.Constellation
import Verif.Props.Derived
import Verif.Lemmas.Ieee
import Mathlib.Data.Rat.Floor
import Mathlib.Algebra.Order.Floor.Ring
import Mathlib.Tactic.FieldSimp

/-!
# C28, C29, C30: Walker constellations; C34: trains
-/

namespace Tatc.Props
open Tatc.Num Tatc.Orbit Tatc.Spec Tatc.Constellation
open scoped Classical

/-! ### What is observed of an orbit -/

/-- Right ascension of the ascending node (degrees); of the first element set for element sets. -/
noncomputable def raanOf (sun : Int → ℝ) : Lead → ℝ
  | .tle (s :: _) => degrees s.node
  | .tle [] => 0
  | .sso o => o.raan sun
  | .circular o => o.raan
  | .keplerian o => o.raan

/-- Anomaly (degrees): the mean anomaly of the first element set, the true anomaly otherwise. -/
noncomputable def anomalyOf : Lead → ℝ
  | .tle (s :: _) => degrees s.meanAnomaly
  | .tle [] => 0
  | .sso o => o.trueAnomaly
  | .circular o => o.trueAnomaly
  | .keplerian o => o.trueAnomaly

/-- An orbit the schema accepts, with an eccentricity up to one. -/
def Lead.Valid : Lead → Prop
  | .tle sets => sets ≠ []
  | .sso o => Sso.Valid o
  | .circular o => Circular.Valid o
  | .keplerian o => Keplerian.Valid o ∧ o.eccentricity ≤ 1

/-- Whether the orbit is given by its eccentricity and true anomaly. -/
def Lead.IsKeplerian : Lead → Prop
  | .keplerian _ => True
  | _ => False

theorem degrees_npMod (a : ℝ) : degrees (npMod a (2 * Real.pi)) = npMod (degrees a) 360 := by
  have hpi := Real.pi_pos
  have h : a / (2 * Real.pi) = degrees a / 360 := by unfold degrees; field_simp; ring
  unfold npMod
  rw [h]
  unfold degrees
  field_simp
  ring

theorem degrees_add (a b : ℝ) : degrees (a + b) = degrees a + degrees b := by unfold degrees; ring

theorem lead_derived (sun : Int → ℝ) (l : Lead) (hl : Lead.Valid l) (dM dR : ℝ) :
    ∃ d, l.derived sun dM dR = .ok d ∧ raanOf sun d = npMod (raanOf sun l + dR) 360 ∧
      (¬ Lead.IsKeplerian l → ¬ Lead.IsKeplerian d ∧ anomalyOf d = npMod (anomalyOf l + dM) 360) := by
  cases l with
  | tle sets =>
    cases sets with
    | nil => exact absurd rfl hl
    | cons s t =>
      refine ⟨_, rfl, ?_, fun _ => ⟨id, ?_⟩⟩
      · show degrees (npMod (s.node + radians dR) (2 * Real.pi)) = _
        rw [degrees_npMod, degrees_add, degrees_radians]; rfl
      · show degrees (npMod (s.meanAnomaly + radians dM) (2 * Real.pi)) = _
        rw [degrees_npMod, degrees_add, degrees_radians]; rfl
  | sso o =>
    exact ⟨_, by show (o.derived sun dM dR).map Lead.circular = _; rw [sso_derived_eq sun o hl]; rfl, rfl, fun _ => ⟨id, rfl⟩⟩
  | circular o =>
    exact ⟨_, by show (o.derived dM dR).map Lead.circular = _; rw [derived_eq o _ _ hl.2.1]; rfl, rfl, fun _ => ⟨id, rfl⟩⟩
  | keplerian o =>
    have ht := meanToTrue_inTurn _ _ hl.1.2.1 hl.2 (npMod_inTurn (o.meanAnomaly + dM))
    have : o.derived dM dR = .ok _ := (keplerian_make_ok _ _ _ _ _ _ _ _).mpr
      ⟨ht, hl.1.1.2.1, npMod_inTurn _, hl.1.2.1, hl.1.2.2, rfl⟩
    exact ⟨_, by show (o.derived dM dR).map Lead.keplerian = _; rw [this]; rfl, rfl, fun h => absurd trivial h⟩

/-- Member `i` of a Walker constellation. -/
theorem walker_members {I : Type} (sun : Int → ℝ) (w : Walker I) (hl : Lead.Valid w.orbit) :
    ∃ ms, w.members sun = .ok ms ∧ ∃ hlen : ms.length = w.satellites, ∀ i (hi : i < w.satellites),
      ms[i].instruments = w.instruments ∧
      raanOf sun (ms[i]'(hlen ▸ hi)).orbit =
        npMod (raanOf sun w.orbit + (w.increments i).2) 360 ∧
      (¬ Lead.IsKeplerian w.orbit → anomalyOf (ms[i]'(hlen ▸ hi)).orbit =
        npMod (anomalyOf w.orbit + (w.increments i).1) 360) := by
  choose f hf using fun i : Nat => lead_derived sun w.orbit hl (w.increments i).1 (w.increments i).2
  refine ⟨(List.range w.satellites).map fun i => ⟨zeroPad w.name w.satellites (i + 1), f i, w.instruments⟩,
    ?_, by simp, ?_⟩
  · apply mapM_ok
    intro i _
    rw [(hf i).1]; rfl
  · intro i hi
    simp only [List.getElem_map, List.getElem_range]
    exact ⟨trivial, (hf i).2.1, fun h => ((hf i).2.2 h).2⟩

/-! ## C30 -/

/-- C30: exactly the patterns `n/p/F` with `1 ≤ p ≤ n` and `0 ≤ F < p` are accepted. -/
theorem C30_accepted_iff {I : Type} (name : List Char) (orbit : Lead) (instruments : I) (star : Bool)
    (n p f : Int) :
    (∃ w, Walker.make name orbit instruments star n p f = .ok w) ↔ (1 ≤ p ∧ p ≤ n) ∧ 0 ≤ f ∧ f < p := by
  unfold Walker.make
  simp only [bind_eq_ok, require_eq_ok, pure, Except.pure, Except.ok.injEq]
  constructor
  · rintro ⟨w, _, h1, _, h2, _, h3, _, h4, _, h5, _⟩; omega
  · rintro ⟨⟨h1, h2⟩, h3, h4⟩
    exact ⟨_, (), by omega, (), by omega, (), by omega, (), by omega, (), by omega, rfl⟩

/-- C30: an accepted constellation has the values given. -/
theorem C30_values {I : Type} (name : List Char) (orbit : Lead) (instruments : I) (star : Bool)
    (n p f : Int) (w : Walker I) (h : Walker.make name orbit instruments star n p f = .ok w) :
    (w.satellites : Int) = n ∧ (w.planes : Int) = p ∧ (w.spacing : Int) = f ∧ w.orbit = orbit ∧
      w.star = star ∧ w.name = name ∧ w.instruments = instruments := by
  unfold Walker.make at h
  simp only [bind_eq_ok, require_eq_ok, pure, Except.pure, Except.ok.injEq] at h
  obtain ⟨_, h1, _, h2, _, h3, _, h4, _, h5, rfl⟩ := h
  simp only [and_true]
  omega

/-! ## C28 -/

theorem ceil_div {n p : Nat} (hp : 0 < p) : ⌈(n : ℚ) / p⌉.toNat = (n + p - 1) / p := by
  have hpq : (0 : ℚ) < p := by exact_mod_cast hp
  have : ⌈(n : ℚ) / p⌉ = (((n + p - 1) / p : Nat) : Int) := by
    rw [Int.ceil_eq_iff]
    have hq := Nat.div_add_mod (n + p - 1) p
    have hr := Nat.mod_lt (n + p - 1) hp
    set q := (n + p - 1) / p
    constructor
    · rw [lt_div_iff₀ hpq]
      have : p * q < n + p := by omega
      have : (p : ℚ) * q < n + p := by exact_mod_cast this
      push_cast; linarith
    · rw [div_le_iff₀ hpq]
      have : n ≤ p * q := by omega
      have : (n : ℚ) ≤ p * q := by exact_mod_cast this
      push_cast; linarith
  rw [this, Int.toNat_natCast]

/-- The accepted patterns (C30). -/
def Walker.Accepted {I : Type} (w : Walker I) : Prop :=
  (1 ≤ w.planes ∧ w.planes ≤ w.satellites) ∧ w.spacing < w.planes

theorem perPlane_spec {I : Type} (w : Walker I) (hw : Walker.Accepted w) :
    0 < w.satellitesPerPlane ∧ w.satellites ≤ w.planes * w.satellitesPerPlane ∧
      w.planes * w.satellitesPerPlane < w.satellites + w.planes := by
  obtain ⟨⟨h1, h2⟩, _⟩ := hw
  unfold Walker.satellitesPerPlane
  rw [ceil_div (by omega)]
  have hq := Nat.div_add_mod (w.satellites + w.planes - 1) w.planes
  have hr := Nat.mod_lt (w.satellites + w.planes - 1) (show 0 < w.planes by omega)
  refine ⟨Nat.div_pos (by omega) (by omega), by omega, by omega⟩

theorem count_div (n s k : Nat) (hs : 0 < s) :
    (List.range n).countP (fun i => decide (i / s = k)) = min s (n - k * s) := by
  induction n with
  | zero => simp
  | succ n ih =>
    rw [List.range_succ, List.countP_append, ih, List.countP_singleton]
    have hk := Nat.div_eq_iff (x := n) (k := s) (y := k) hs
    by_cases h : n / s = k
    · have := hk.mp h
      rw [if_pos (by simpa using h)]; omega
    · have : ¬ (k * s ≤ n ∧ n ≤ k * s + s - 1) := fun e => h (hk.mpr e)
      rw [if_neg (by simpa using h)]; omega

/-- The angle between adjacent planes (degrees): over half a turn for the star pattern, over a whole
turn for the delta pattern. -/
noncomputable def planeStep (star : Bool) (p : Nat) : ℝ := if star then 180 / (p : ℝ) else 360 / (p : ℝ)

/-- Planes of different numbers have different right ascensions. -/
theorem plane_distinct {p : Nat} (star : Bool) (x : ℝ) {k l : Nat} (hk : k < p) (hl : l < p)
    (h : SameAngle (x + k * planeStep star p) (x + l * planeStep star p)) :
    k = l := by
  obtain ⟨z, hz⟩ := h
  have hp : (0 : ℝ) < p := by exact_mod_cast (by omega : 0 < p)
  have key : ∀ c : ℤ, c = 1 ∨ c = 2 → x + k * (360 / c / p) = x + l * (360 / c / p) + 360 * z → k = l := by
    intro c hc e
    have hc0 : (c : ℝ) ≠ 0 := by rcases hc with rfl | rfl <;> norm_num
    have e2 : (k : ℝ) = l + c * p * z := by
      field_simp at e; linarith
    have e3 : (k : ℤ) = l + c * p * z := by exact_mod_cast e2
    have hz0 : z = 0 := by
      by_contra hne
      rcases lt_or_gt_of_ne hne with hlt | hgt
      · have : c * p * z ≤ -p := by rcases hc with rfl | rfl <;> nlinarith
        omega
      · have : (p : ℤ) ≤ c * p * z := by rcases hc with rfl | rfl <;> nlinarith
        omega
    rw [hz0] at e3; omega
  cases star
  · exact key 1 (Or.inl rfl) (by simpa [planeStep] using hz)
  · exact key 2 (Or.inr rfl) (by have : (360 : ℝ) / (2 : ℤ) = 180 := by norm_num
                                 rw [this]; simpa [planeStep] using hz)

/-- The right ascension of plane `k` of a constellation: the first plane is the lead orbit's. -/
noncomputable def planeRaan {I : Type} (sun : Int → ℝ) (w : Walker I) (k : Nat) : ℝ :=
  raanOf sun w.orbit + k * planeStep w.star w.planes

theorem countP_getElem {α : Type} (l : List α) (n : Nat) (hn : l.length = n) (p : α → Bool) (q : Nat → Bool)
    (h : ∀ i (hi : i < n), p (l[i]'(hn ▸ hi)) = q i) : l.countP p = (List.range n).countP q := by
  have : l.map p = (List.range n).map q := by
    apply List.ext_getElem
    · simp [hn]
    · intro i h1 h2
      simp only [List.getElem_map, List.getElem_range]
      exact h i (by simpa using h2)
  have e : ∀ {β : Type} (l : List β) (f : β → Bool), l.countP f = (l.map f).countP id := by
    intro β l f; rw [List.countP_map]; rfl
  rw [e l p, e _ q, this]

/-- C28, full statement: there are `n` members, the members of a plane share its right ascension, and
every plane has between one and `⌈n/p⌉` members.  Proved: everything but "at least one"; instead, the
exact number of members of every plane. -/
theorem C28_planes_partial {I : Type} (sun : Int → ℝ) (w : Walker I) (hw : Walker.Accepted w)
    (hl : Lead.Valid w.orbit) :
    ∃ ms s, w.members sun = .ok ms ∧ ms.length = w.satellites ∧
      (w.satellites ≤ w.planes * s ∧ ∀ s', w.satellites ≤ w.planes * s' → s ≤ s') ∧
      (∀ m ∈ ms, ∃ k < w.planes, SameAngle (raanOf sun m.orbit) (planeRaan sun w k)) ∧
      (∀ k < w.planes,
        ms.countP (fun m => decide (SameAngle (raanOf sun m.orbit) (planeRaan sun w k))) =
          min s (w.satellites - k * s)) := by
  obtain ⟨ms, hok, hlen, hm⟩ := walker_members sun w hl
  obtain ⟨hs0, hs1, hs2⟩ := perPlane_spec w hw
  have hplane : ∀ i, i < w.satellites → i / w.satellitesPerPlane < w.planes := by
    intro i hi
    rw [Nat.div_lt_iff_lt_mul hs0]; omega
  have hr : ∀ i (hi : i < w.satellites), SameAngle (raanOf sun (ms[i]'(hlen ▸ hi)).orbit)
      (planeRaan sun w (i / w.satellitesPerPlane)) := by
    intro i hi
    rw [(hm i hi).2.1]
    exact npMod_sameAngle _
  refine ⟨ms, w.satellitesPerPlane, hok, hlen, ⟨hs1, ?_⟩, ?_, ?_⟩
  · intro s' hs'
    by_contra h
    have : w.planes * (s' + 1) ≤ w.planes * w.satellitesPerPlane := Nat.mul_le_mul_left _ (by omega)
    rw [Nat.mul_add] at this
    omega
  · intro m hmem
    obtain ⟨i, hi, rfl⟩ := List.getElem_of_mem hmem
    exact ⟨_, hplane i (hlen ▸ hi), hr i (hlen ▸ hi)⟩
  · intro k hk
    rw [countP_getElem ms _ hlen _ (fun i => decide (i / w.satellitesPerPlane = k)), count_div _ _ _ hs0]
    intro i hi
    apply decide_eq_decide.mpr
    constructor
    · intro h
      apply plane_distinct w.star (raanOf sun w.orbit) (hplane i hi) hk
      obtain ⟨a, ha⟩ := hr i hi
      obtain ⟨b, hb⟩ := h
      rw [ha] at hb
      refine ⟨b - a, ?_⟩
      unfold planeRaan at hb
      push_cast; linarith
    · rintro rfl; exact hr i hi

/-- C28: every plane has a member exactly when the planes before the last do not hold all satellites. -/
theorem C28_every_plane_iff_partial {I : Type} (sun : Int → ℝ) (w : Walker I) (hw : Walker.Accepted w)
    (hl : Lead.Valid w.orbit) (ms : List (Satellite I)) (h : w.members sun = .ok ms) :
    (∀ k < w.planes, ∃ m ∈ ms, SameAngle (raanOf sun m.orbit) (planeRaan sun w k)) ↔
      ∃ s, (w.satellites ≤ w.planes * s ∧ ∀ s', w.satellites ≤ w.planes * s' → s ≤ s') ∧
        (w.planes - 1) * s < w.satellites := by
  obtain ⟨ms', s, hok, _, ⟨hs1, hs2⟩, _, hc⟩ := C28_planes_partial sun w hw hl
  rw [hok, Except.ok.injEq] at h
  subst h
  have hp1 := hw.1.1
  have hs0 : 0 < s := by
    rcases Nat.eq_zero_or_pos s with h0 | h0
    · subst h0; have := hw.1.2; simp at hs1; omega
    · exact h0
  have hpos : ∀ k < w.planes, (∃ m ∈ ms', SameAngle (raanOf sun m.orbit) (planeRaan sun w k)) ↔
      k * s < w.satellites := by
    intro k hk
    have := hc k hk
    have h2 : (∃ m ∈ ms', SameAngle (raanOf sun m.orbit) (planeRaan sun w k)) ↔
        0 < ms'.countP (fun m => decide (SameAngle (raanOf sun m.orbit) (planeRaan sun w k))) := by
      rw [List.countP_pos_iff]; simp
    rw [h2, this]; omega
  constructor
  · intro h
    exact ⟨s, ⟨hs1, hs2⟩, (hpos _ (by omega)).mp (h _ (by omega))⟩
  · rintro ⟨s', ⟨h1, h2⟩, h3⟩ k hk
    have hss : s' = s := le_antisymm (h2 _ hs1) (hs2 _ h1)
    subst hss
    rw [hpos k hk]
    exact lt_of_le_of_lt (Nat.mul_le_mul_right _ (by omega)) h3

/-- When the planes divide the satellites every plane has `n/p` members. -/
theorem C28_even_planes {I : Type} (sun : Int → ℝ) (w : Walker I) (hw : Walker.Accepted w)
    (hl : Lead.Valid w.orbit) (q : Nat) (hq : w.satellites = w.planes * q) :
    ∃ ms, w.members sun = .ok ms ∧ ∀ k < w.planes,
      ms.countP (fun m => decide (SameAngle (raanOf sun m.orbit) (planeRaan sun w k))) = q := by
  obtain ⟨ms, s, hok, _, ⟨hs1, hs2⟩, _, hc⟩ := C28_planes_partial sun w hw hl
  have hp1 := hw.1.1
  have hsq : s = q := by
    apply le_antisymm (hs2 q (le_of_eq hq))
    rw [hq] at hs1
    exact Nat.le_of_mul_le_mul_left hs1 (by omega)
  subst hsq
  refine ⟨ms, hok, fun k hk => ?_⟩
  rw [hc k hk, hq]
  have : (k + 1) * s ≤ w.planes * s := Nat.mul_le_mul_right _ (by omega)
  rw [Nat.add_mul] at this
  omega

/-- A circular lead orbit. -/
noncomputable def exampleLead : Lead := .circular ⟨500000, 350, 0, 51.6, 10⟩

theorem exampleLead_valid : Lead.Valid exampleLead := by
  refine ⟨⟨?_, ?_⟩, ⟨?_, ?_⟩, ?_, ?_⟩ <;> norm_num

/-- Five satellites in four planes: an accepted constellation whose last plane is empty. -/
theorem C28_every_plane_false (sun : Int → ℝ) :
    ∃ (w : Walker Unit) (ms : List (Satellite Unit)),
      Walker.make "W".toList exampleLead () false 5 4 1 = .ok w ∧ w.members sun = .ok ms ∧
      ms.length = 5 ∧ ¬ ∃ m ∈ ms, SameAngle (raanOf sun m.orbit) (planeRaan sun w 3) := by
  let w : Walker Unit := ⟨"W".toList, exampleLead, (), false, 5, 4, 1⟩
  have hw : Walker.Accepted w := ⟨⟨by decide, by decide⟩, by decide⟩
  obtain ⟨ms, s, hok, hlen, ⟨hs1, hs2⟩, _, hc⟩ := C28_planes_partial sun w hw exampleLead_valid
  have hs : s = 2 := by
    have h2 := hs2 2 (by decide)
    have h1 : 5 ≤ 4 * s := hs1
    omega
  subst hs
  refine ⟨w, ms, rfl, hok, hlen, ?_⟩
  have := hc 3 (by decide)
  rw [show min 2 (w.satellites - 3 * 2) = 0 from rfl, List.countP_eq_zero] at this
  rintro ⟨m, hm, h⟩
  exact this m hm (by simpa using h)

example : Walker.Accepted (⟨"W".toList, exampleLead, (), false, 12, 4, 1⟩ : Walker Unit) :=
  ⟨⟨by decide, by decide⟩, by decide⟩

/-! ## C29 -/

/-- Satellite `j` of plane `k` when every plane has `q` satellites. -/
def slot (q k j : Nat) : Nat := k * q + j

theorem increments_slot {I : Type} (w : Walker I) (q : Nat) (hs : w.satellitesPerPlane = q) (k j : Nat)
    (hj : j < q) : w.increments (slot q k j) = (j * (360 / q) + k * w.deltaBetween, k * w.deltaRaan) := by
  have h1 : (k * q + j) % q = j := by rw [Nat.mul_comm, Nat.mul_add_mod, Nat.mod_eq_of_lt hj]
  have h2 : (k * q + j) / q = k := by
    rw [Nat.mul_comm, Nat.mul_add_div (by omega), Nat.div_eq_of_lt hj, Nat.add_zero]
  simp only [Walker.increments, Walker.deltaWithin, slot, hs, h1, h2]

theorem sameAngle_of_npMod (a b : ℝ) (c : ℝ) (k : ℤ) (h : a = b + c + 360 * k) :
    SameAngle (npMod a 360) (npMod b 360 + c) := by
  obtain ⟨x, hx⟩ := npMod_spec a 360
  obtain ⟨y, hy⟩ := npMod_spec b 360
  exact ⟨x - y + k, by rw [hx, hy, h]; push_cast; ring⟩

/-- Everything C29 says of a constellation with `q` satellites in each of its `p` planes. -/
structure Pattern (n p q F : Nat) (star : Bool) (raan anomaly : Nat → ℝ) : Prop where
  /-- planes are equally spaced -/
  planes : ∀ k < p, ∀ k' < p, ∀ j < q, ∀ j' < q,
    SameAngle (raan (slot q k' j')) (raan (slot q k j) +
      ((k' : ℝ) - k) * planeStep star p)
  /-- neighbours in a plane are `360 p / n` apart -/
  within : ∀ k < p, ∀ j < q,
    SameAngle (anomaly (slot q k ((j + 1) % q))) (anomaly (slot q k j) + 360 * p / n)
  /-- corresponding satellites of adjacent planes are `360 F / n` apart -/
  between : ∀ k, k + 1 < p → ∀ j < q,
    SameAngle (anomaly (slot q (k + 1) j)) (anomaly (slot q k j) + 360 * F / n)
  /-- across the seam from the last plane back to the first the same offset leads to a satellite -/
  seam : ∀ j < q, ∃ j' < q, SameAngle (anomaly (slot q 0 j')) (anomaly (slot q (p - 1) j) + 360 * F / n)
  /-- all members are in different places -/
  distinct : ∀ i < n, ∀ i' < n, SameAngle (raan i) (raan i') → SameAngle (anomaly i) (anomaly i') → i = i'

/-- C29: for every lead orbit given by elements that change linearly (circular, sun-synchronous and
element sets).  Full statement: every lead orbit. -/
theorem C29_pattern_partial {I : Type} (sun : Int → ℝ) (w : Walker I) (hw : Walker.Accepted w)
    (hl : Lead.Valid w.orbit) (hk : ¬ Lead.IsKeplerian w.orbit) (q : Nat) (hq : w.satellites = w.planes * q) :
    ∃ ms, w.members sun = .ok ms ∧ ∃ hlen : ms.length = w.satellites,
      ∀ raan anomaly : Nat → ℝ,
        (∀ i (hi : i < w.satellites), raan i = raanOf sun (ms[i]'(hlen ▸ hi)).orbit) →
        (∀ i (hi : i < w.satellites), anomaly i = anomalyOf (ms[i]'(hlen ▸ hi)).orbit) →
        Pattern w.satellites w.planes q w.spacing w.star raan anomaly := by
  obtain ⟨ms, hok, hlen, hm⟩ := walker_members sun w hl
  obtain ⟨hs0, hs1, hs2⟩ := perPlane_spec w hw
  have hp1 : 0 < w.planes := hw.1.1
  have hs : w.satellitesPerPlane = q := by
    have h1 : q ≤ w.satellitesPerPlane := by
      rw [hq] at hs1; exact Nat.le_of_mul_le_mul_left hs1 hp1
    have h2 : ¬ q + 1 ≤ w.satellitesPerPlane := by
      intro h
      have := Nat.mul_le_mul_left w.planes h
      rw [Nat.mul_add] at this
      omega
    omega
  have hq0 : 0 < q := hs ▸ hs0
  have hpR : (0 : ℝ) < w.planes := by exact_mod_cast hp1
  have hqR : (0 : ℝ) < q := by exact_mod_cast hq0
  have hnR : (w.satellites : ℝ) = w.planes * q := by exact_mod_cast hq
  have hslot : ∀ k < w.planes, ∀ j < q, slot q k j < w.satellites := by
    intro k hk j hj
    have : (k + 1) * q ≤ w.planes * q := Nat.mul_le_mul_right _ hk
    rw [Nat.add_mul] at this
    rw [hq]; unfold slot; omega
  refine ⟨ms, hok, hlen, ?_⟩
  intro raan anomaly hraan hanom
  have hR : ∀ k < w.planes, ∀ j < q,
      raan (slot q k j) = npMod (raanOf sun w.orbit + k * w.deltaRaan) 360 := by
    intro k hk' j hj
    rw [hraan _ (hslot k hk' j hj), (hm _ (hslot k hk' j hj)).2.1, increments_slot w q hs k j hj]
  have hA : ∀ k < w.planes, ∀ j < q, anomaly (slot q k j) =
      npMod (anomalyOf w.orbit + (j * (360 / q) + k * w.deltaBetween)) 360 := by
    intro k hk' j hj
    rw [hanom _ (hslot k hk' j hj), (hm _ (hslot k hk' j hj)).2.2 hk, increments_slot w q hs k j hj]
  have hB : w.deltaBetween = 360 * w.spacing / w.satellites := rfl
  refine ⟨?_, ?_, ?_, ?_, ?_⟩
  · intro k hk1 k' hk2 j hj j' hj'
    rw [hR k hk1 j hj, hR k' hk2 j' hj']
    apply sameAngle_of_npMod _ _ _ 0
    show _ = _ + (_ - _) * w.deltaRaan + _
    push_cast; ring
  · intro k hk1 j hj
    have hlt : (j + 1) % q < q := Nat.mod_lt _ hq0
    rw [hA k hk1 j hj, hA k hk1 _ hlt]
    rcases Nat.lt_or_ge (j + 1) q with h | h
    · rw [Nat.mod_eq_of_lt h]
      apply sameAngle_of_npMod _ _ _ 0
      rw [hnR]; push_cast; field_simp; ring
    · have : j + 1 = q := by omega
      rw [this, Nat.mod_self]
      apply sameAngle_of_npMod _ _ _ (-1)
      have hj' : (j : ℝ) = q - 1 := by
        have : ((j + 1 : Nat) : ℝ) = q := by exact_mod_cast this
        push_cast at this; linarith
      rw [hnR, hj']; push_cast; field_simp; ring
  · intro k hk1 j hj
    rw [hA k (by omega) j hj, hA (k + 1) hk1 j hj]
    apply sameAngle_of_npMod _ _ _ 0
    rw [hB]; push_cast; ring
  · intro j hj
    refine ⟨(j + w.spacing) % q, Nat.mod_lt _ hq0, ?_⟩
    rw [hA (w.planes - 1) (by omega) j hj, hA 0 hp1 _ (Nat.mod_lt _ hq0)]
    have hdm := Nat.div_add_mod (j + w.spacing) q
    have hdmR : (q : ℝ) * ((j + w.spacing) / q : Nat) + ((j + w.spacing) % q : Nat) = j + w.spacing := by
      exact_mod_cast hdm
    have hpm : ((w.planes - 1 : Nat) : ℝ) = w.planes - 1 := by
      rw [Nat.cast_sub (by omega)]; simp
    apply sameAngle_of_npMod _ _ _ (-(((j + w.spacing) / q : Nat) : ℤ))
    rw [hB, hnR, hpm]
    have hmod : (((j + w.spacing) % q : Nat) : ℝ) = j + w.spacing - q * ((j + w.spacing) / q : Nat) := by
      linarith
    rw [hmod, Int.cast_neg, Int.cast_natCast, Nat.cast_zero]
    generalize (((j + w.spacing) / q : Nat) : ℝ) = z
    field_simp; ring
  · intro i hi i' hi' hr ha
    have hdecomp : ∀ x, x < w.satellites → x = slot q (x / q) (x % q) ∧ x / q < w.planes ∧ x % q < q := by
      intro x hx
      refine ⟨?_, ?_, Nat.mod_lt _ hq0⟩
      · unfold slot; rw [Nat.mul_comm]; exact (Nat.div_add_mod x q).symm
      · rw [Nat.div_lt_iff_lt_mul hq0]; omega
    obtain ⟨e1, hk1, hj1⟩ := hdecomp i hi
    obtain ⟨e2, hk2, hj2⟩ := hdecomp i' hi'
    generalize i / q = k at *
    generalize i % q = j at *
    generalize i' / q = k' at *
    generalize i' % q = j' at *
    rw [e1, e2] at hr ha
    rw [hR k hk1 j hj1, hR k' hk2 j' hj2] at hr
    rw [hA k hk1 j hj1, hA k' hk2 j' hj2] at ha
    have unMod : ∀ a b : ℝ, SameAngle (npMod a 360) (npMod b 360) → SameAngle a b := by
      rintro a b ⟨z, hz⟩
      obtain ⟨x, hx⟩ := npMod_spec a 360
      obtain ⟨y, hy⟩ := npMod_spec b 360
      exact ⟨z - x + y, by rw [hx, hy] at hz; push_cast; linarith⟩
    have hkk : k = k' := plane_distinct w.star (raanOf sun w.orbit) hk1 hk2 (unMod _ _ hr)
    subst hkk
    have hjj : j = j' := by
      apply plane_distinct (p := q) false (anomalyOf w.orbit + k * w.deltaBetween) hj1 hj2
      obtain ⟨z, hz⟩ := unMod _ _ ha
      refine ⟨z, ?_⟩
      simp only [planeStep, Bool.false_eq_true, if_false]
      linarith
    rw [e1, e2, hjj]

example : Lead.Valid exampleLead ∧ ¬ Lead.IsKeplerian exampleLead := ⟨exampleLead_valid, id⟩

/-- The reported mean anomaly of an orbit (`get_mean_anomaly`) where it is not the true anomaly. -/
noncomputable def reportedMean : Lead → ℝ
  | .keplerian o => o.meanAnomaly
  | l => anomalyOf l

/-- A Keplerian lead orbit with eccentricity one half at perigee. -/
noncomputable def eccentricLead : Lead := .keplerian ⟨⟨500000, 0, 0, 0, 0⟩, 1 / 2, 0⟩

theorem eccentricLead_valid : Lead.Valid eccentricLead := by
  refine ⟨⟨⟨⟨?_, ?_⟩, ⟨?_, ?_⟩, ?_, ?_⟩, ?_, ?_, ?_⟩, ?_⟩ <;> norm_num

theorem mean_of_quarter : trueToMean (meanToTrue 90 (1 / 2)) (1 / 2) < 90 ∧
    -180 < trueToMean (meanToTrue 90 (1 / 2)) (1 / 2) := by
  have hpi0 := Real.pi_gt_d2
  have hpi1 := Real.pi_lt_d2
  have hr : radians 90 = Real.pi / 2 := by unfold radians; ring
  have h1 : radians (meanToTrue 90 (1 / 2)) = Real.pi / 2 + 5 / 6 := by
    rw [meanToTrue_series, radians_degrees, hr, series_eq, Real.sin_pi_div_two, Real.cos_pi_div_two]
    norm_num
  have s1 : Real.sin (Real.pi / 2 + 5 / 6) = Real.cos (5 / 6) := by
    rw [add_comm, Real.sin_add_pi_div_two]
  have s2 : Real.sin (2 * (Real.pi / 2 + 5 / 6)) = - Real.sin (5 / 3) := by
    rw [show 2 * (Real.pi / 2 + 5 / 6) = 5 / 3 + Real.pi by ring, Real.sin_add_pi]
  have s3 : Real.sin (3 * (Real.pi / 2 + 5 / 6)) = - Real.cos (5 / 2) := by
    rw [show 3 * (Real.pi / 2 + 5 / 6) = (5 / 2 + Real.pi / 2) + Real.pi by ring, Real.sin_add_pi,
      Real.sin_add_pi_div_two]
  have s4 : Real.sin (4 * (Real.pi / 2 + 5 / 6)) = Real.sin (10 / 3) := by
    rw [show 4 * (Real.pi / 2 + 5 / 6) = 10 / 3 + 2 * Real.pi by ring, Real.sin_add_two_pi]
  have c1 := Real.one_sub_sq_div_two_le_cos (x := 5 / 6)
  have c1' := Real.cos_le_one (5 / 6)
  have c2 : 0.995 ≤ Real.sin (5 / 3) := by
    rw [← Real.cos_sub_pi_div_two]
    refine le_trans ?_ (Real.one_sub_sq_div_two_le_cos (x := 5 / 3 - Real.pi / 2))
    nlinarith
  have c2' := Real.sin_le_one (5 / 3)
  have c3 : Real.cos (5 / 2) ≤ 0 := Real.cos_nonpos_of_pi_div_two_le_of_le (by linarith) (by linarith)
  have c3' := Real.neg_one_le_cos (5 / 2)
  have c4 := Real.sin_le_one (10 / 3)
  have c4' := Real.neg_one_le_sin (10 / 3)
  unfold trueToMean
  simp only [h1, s1, s2, s3, s4]
  have hk : 0 < 180 / Real.pi := by positivity
  have hlt : Real.pi / 2 + 5 / 6 - 2 * (1 / 2) * Real.cos (5 / 6) +
      (3 / 4 * (1 / 2) ^ 2 + 1 / 8 * (1 / 2) ^ 4) * -Real.sin (5 / 3) -
      1 / 3 * (1 / 2) ^ 3 * -Real.cos (5 / 2) + 5 / 32 * (1 / 2) ^ 4 * Real.sin (10 / 3) < Real.pi / 2 := by
    norm_num at c1 ⊢
    linarith
  have hgt : -Real.pi < Real.pi / 2 + 5 / 6 - 2 * (1 / 2) * Real.cos (5 / 6) +
      (3 / 4 * (1 / 2) ^ 2 + 1 / 8 * (1 / 2) ^ 4) * -Real.sin (5 / 3) -
      1 / 3 * (1 / 2) ^ 3 * -Real.cos (5 / 2) + 5 / 32 * (1 / 2) ^ 4 * Real.sin (10 / 3) := by
    norm_num at c1 ⊢
    linarith
  unfold degrees
  constructor
  · calc _ < Real.pi / 2 * (180 / Real.pi) := mul_lt_mul_of_pos_right hlt hk
      _ = 90 := by field_simp; norm_num
  · calc (-180 : ℝ) = -Real.pi * (180 / Real.pi) := by field_simp
      _ < _ := mul_lt_mul_of_pos_right hgt hk

/-- C29 is false of an eccentric lead orbit: four satellites in one plane whose reported mean anomalies
are not a quarter of a turn apart. -/
theorem C29_keplerian_false (sun : Int → ℝ) :
    ∃ (w : Walker Unit) (ms : List (Satellite Unit)) (a b : Satellite Unit),
      Lead.Valid eccentricLead ∧ Walker.make "W".toList eccentricLead () false 4 1 0 = .ok w ∧
      w.members sun = .ok ms ∧ ms[0]? = some a ∧ ms[1]? = some b ∧
      ¬ SameAngle (reportedMean b.orbit) (reportedMean a.orbit + 90) := by
  let w : Walker Unit := ⟨"W".toList, eccentricLead, (), false, 4, 1, 0⟩
  have hw : Walker.Accepted w := ⟨⟨by decide, by decide⟩, by decide⟩
  obtain ⟨ms, hok, hlen, -⟩ := walker_members sun w eccentricLead_valid
  have hs : w.satellitesPerPlane = 4 := by
    obtain ⟨h0, h1, h2⟩ := perPlane_spec w hw
    have h1' : 4 ≤ 1 * w.satellitesPerPlane := h1
    have h2' : 1 * w.satellitesPerPlane < 4 + 1 := h2
    omega
  have hf := mapM_eq_ok _ _ _ hok
  rw [show List.range w.satellites = [0, 1, 2, 3] from rfl] at hf
  cases hf with
  | cons ha hf =>
  cases hf with
  | cons hb hf =>
  refine ⟨w, _, _, _, eccentricLead_valid, rfl, hok, rfl, rfl, ?_⟩
  have inc0 : w.increments 0 = (0, 0) := by simp [Walker.increments]
  have inc1 : w.increments 1 = (90, 0) := by
    simp only [Walker.increments, Walker.deltaWithin, hs]; norm_num
  simp only [inc0, inc1, bind_eq_ok, pure, Except.pure, Except.ok.injEq] at ha hb
  obtain ⟨oa, ha, rfl⟩ := ha
  obtain ⟨ob, hb, rfl⟩ := hb
  have hM : Keplerian.meanAnomaly ⟨⟨500000, 0, 0, 0, 0⟩, 1 / 2, 0⟩ = 0 := by
    simp [Keplerian.meanAnomaly, trueToMean, radians, degrees]
  have hda : Keplerian.derived ⟨⟨500000, 0, 0, 0, 0⟩, 1 / 2, 0⟩ 0 0 =
      .ok ⟨⟨500000, 0, 0, 0, 0⟩, 1 / 2, 0⟩ := by
    unfold Keplerian.derived
    rw [keplerian_make_ok, hM]
    have h0 : npMod (0 + 0 : ℝ) 360 = 0 := by rw [add_zero, npMod_self_of_range (le_refl _) (by norm_num)]
    have h2 : meanToTrue 0 (1 / 2) = 0 := by simp [meanToTrue, radians, degrees]
    simp only [h0, h2]; norm_num
  obtain ⟨hb0, hb1⟩ := meanToTrue_inTurn 90 (1 / 2) (by norm_num) (by norm_num) ⟨by norm_num, by norm_num⟩
  have hdb : Keplerian.derived ⟨⟨500000, 0, 0, 0, 0⟩, 1 / 2, 0⟩ 90 0 =
      .ok ⟨⟨500000, meanToTrue 90 (1 / 2), 0, 0, 0⟩, 1 / 2, 0⟩ := by
    unfold Keplerian.derived
    rw [keplerian_make_ok, hM]
    have h0 : npMod (0 + 0 : ℝ) 360 = 0 := by rw [add_zero, npMod_self_of_range (le_refl _) (by norm_num)]
    have h2 : npMod (0 + 90 : ℝ) 360 = 90 := by rw [zero_add, npMod_self_of_range (by norm_num) (by norm_num)]
    simp only [h0, h2]
    exact ⟨⟨hb0, hb1⟩, by norm_num, by norm_num, by norm_num, by norm_num, trivial⟩
  have ea : oa = .keplerian ⟨⟨500000, 0, 0, 0, 0⟩, 1 / 2, 0⟩ := by
    have : (Keplerian.derived ⟨⟨500000, 0, 0, 0, 0⟩, 1 / 2, 0⟩ 0 0).map Lead.keplerian = .ok oa := ha
    rw [hda] at this
    exact (Except.ok.inj this).symm
  have eb : ob = .keplerian ⟨⟨500000, meanToTrue 90 (1 / 2), 0, 0, 0⟩, 1 / 2, 0⟩ := by
    have : (Keplerian.derived ⟨⟨500000, 0, 0, 0, 0⟩, 1 / 2, 0⟩ 90 0).map Lead.keplerian = .ok ob := hb
    rw [hdb] at this
    exact (Except.ok.inj this).symm
  subst ea; subst eb
  rintro ⟨k, hk⟩
  have hk' : trueToMean (meanToTrue 90 (1 / 2)) (1 / 2) = 90 + 360 * k := by
    have : reportedMean (.keplerian ⟨⟨500000, 0, 0, 0, 0⟩, 1 / 2, 0⟩) = 0 := hM
    rw [this, zero_add] at hk
    exact hk
  obtain ⟨q1, q2⟩ := mean_of_quarter
  rw [hk'] at q1 q2
  have k1 : (k : ℝ) < 0 := by linarith
  have k2 : (-1 : ℝ) < k := by linarith
  have k1' : k < 0 := by exact_mod_cast k1
  have k2' : -1 < k := by exact_mod_cast k2
  omega

/-! ## C34 -/

/-- Where a satellite is along its orbit (degrees) `t` microseconds after its epoch, from its anomaly
then and its mean motion (revolutions per day). -/
noncomputable def anomalyAt (anomaly meanMotion : ℝ) (t : ℝ) : ℝ :=
  anomaly + 360 * meanMotion * (t / 86400000000)

/-- The Earth-fixed longitude (degrees) of a fixed direction `t` microseconds after the epoch, the Earth
turning once per day; `rotation` is the Earth's angle at the epoch. -/
noncomputable def longitudeAt (raan rotation : ℝ) (t : ℝ) : ℝ := raan - (rotation + 360 * (t / 86400000000))

/-- The rate at which a satellite goes round (revolutions per day): for element sets that of the first one; otherwise one
revolution per period, which is `2π √(a³ / μ)` to half a microsecond. -/
def Goes : Lead → ℝ → Prop
  | .tle (s :: _), mm => mm = s.meanMotion
  | .tle [], _ => False
  | .sso ⟨altitude, _, _, _, _⟩, mm | .circular ⟨altitude, _, _, _, _⟩, mm | .keplerian ⟨⟨altitude, _, _, _, _⟩, _, _⟩, mm =>
    |86400000000 / mm - 1000000 * (2 * Real.pi * Real.sqrt ((meanRadius + altitude) ^ 3 / mu))| ≤ 1 / 2

theorem goes_of_meanMotion (altitude mm : ℝ) (h : Orbit.meanMotion altitude = .ok mm) :
    |86400000000 / mm - 1000000 * (2 * Real.pi * Real.sqrt ((meanRadius + altitude) ^ 3 / mu))| ≤ 1 / 2 := by
  unfold Orbit.meanMotion at h
  simp only [bind_eq_ok, require_eq_ok, pure, Except.pure, Except.ok.injEq] at h
  obtain ⟨_, _, _, hne, rfl⟩ := h
  have hne' : (orbitPeriod altitude : ℝ) ≠ 0 := by exact_mod_cast hne
  have e1 : 86400000000 / (1 / ((orbitPeriod altitude : ℝ) / 86400000000)) = orbitPeriod altitude := by field_simp
  have e2 : 1000000 * (2 * Real.pi * Real.sqrt ((meanRadius + altitude) ^ 3 / mu)) =
      orbitPeriodSeconds altitude * 1000000 := by
    unfold orbitPeriodSeconds
    have : (meanRadius + altitude) ^ 3 / mu = (mu / (meanRadius + altitude) ^ 3)⁻¹ := (inv_div _ _).symm
    rw [this, Real.sqrt_inv]
    ring
  rw [e1, e2]
  exact Tatc.Ieee.rhe_error _

theorem lead_goes (l : Lead) (mm : ℝ) (h : l.meanMotion = .ok mm) : Goes l mm := by
  match l with
  | .tle [] => cases h
  | .tle (s :: _) => exact (Except.ok.inj h).symm
  | .sso _ => exact goes_of_meanMotion _ _ h
  | .circular _ => exact goes_of_meanMotion _ _ h
  | .keplerian _ => exact goes_of_meanMotion _ _ h

theorem train_members {I : Type} (sun : Int → ℝ) (t : Train I) (hl : Lead.Valid t.orbit) (mm : ℝ)
    (hmm : t.orbit.meanMotion = .ok mm) :
    ∃ ms, t.members sun = .ok ms ∧ ∃ hlen : ms.length = t.satellites, ∀ i (hi : i < t.satellites),
      raanOf sun (ms[i]'(hlen ▸ hi)).orbit = npMod (raanOf sun t.orbit + i * t.deltaRaan) 360 ∧
      (¬ Lead.IsKeplerian t.orbit → anomalyOf (ms[i]'(hlen ▸ hi)).orbit =
        npMod (anomalyOf t.orbit + i * (-360 * mm * t.days)) 360) := by
  choose f hf using fun i : Nat => lead_derived sun t.orbit hl (i * (-360 * mm * t.days)) (i * t.deltaRaan)
  refine ⟨(List.range t.satellites).map fun i => ⟨zeroPad t.name t.satellites (i + 1), f i, t.instruments⟩,
    ?_, by simp, ?_⟩
  · apply mapM_ok
    intro i _
    have : t.deltaMeanAnomaly = .ok (-360 * mm * t.days) := by
      unfold Train.deltaMeanAnomaly; rw [hmm]; rfl
    rw [this]
    show (t.orbit.derived sun (i * (-360 * mm * t.days)) (i * t.deltaRaan) >>= _) = _
    rw [(hf i).1]; rfl
  · intro i hi
    simp only [List.getElem_map, List.getElem_range]
    exact ⟨(hf i).2.1, fun h => ((hf i).2.2 h).2⟩

/-- C34: member `k`, `k` intervals after the epoch, is where the lead is at the epoch, going round at the rate of the lead. -/
theorem C34_ground_track {I : Type} (sun : Int → ℝ) (t : Train I) (hl : Lead.Valid t.orbit)
    (hk : ¬ Lead.IsKeplerian t.orbit) (mm : ℝ) (hmm : t.orbit.meanMotion = .ok mm) (rotation : ℝ) :
    Goes t.orbit mm ∧ ∃ ms, t.members sun = .ok ms ∧ ms.length = t.satellites ∧
      ∀ (k : Nat) (m : Satellite I), ms[k]? = some m →
      SameAngle (anomalyAt (anomalyOf m.orbit) mm (k * t.interval)) (anomalyAt (anomalyOf t.orbit) mm 0) ∧
      (t.repeatGroundTrack = true →
        SameAngle (longitudeAt (raanOf sun m.orbit) rotation (k * t.interval))
          (longitudeAt (raanOf sun t.orbit) rotation 0)) ∧
      (t.repeatGroundTrack = false → SameAngle (raanOf sun m.orbit) (raanOf sun t.orbit)) := by
  obtain ⟨ms, hok, hlen, hm⟩ := train_members sun t hl mm hmm
  refine ⟨lead_goes _ _ hmm, ms, hok, hlen, ?_⟩
  intro k m hkm
  obtain ⟨hk', rfl⟩ := List.getElem?_eq_some_iff.mp hkm
  obtain ⟨hr, ha⟩ := hm k (hlen ▸ hk')
  rw [ha hk, hr]
  obtain ⟨x, hx⟩ := npMod_spec (anomalyOf t.orbit + k * (-360 * mm * t.days)) 360
  obtain ⟨y, hy⟩ := npMod_spec (raanOf sun t.orbit + k * t.deltaRaan) 360
  rw [hx, hy]
  refine ⟨⟨x, ?_⟩, fun h => ⟨y, ?_⟩, fun h => ⟨y, ?_⟩⟩
  · unfold anomalyAt Train.days; ring
  · unfold longitudeAt Train.deltaRaan Train.days; rw [h]; simp only [if_true]; ring
  · unfold Train.deltaRaan; rw [h]; simp

/-- A circular orbit above the surface has a mean motion. -/
theorem meanMotion_ok (altitude : ℝ) (h : 0 ≤ altitude) : ∃ mm, Orbit.meanMotion altitude = .ok mm ∧ 0 < mm := by
  have hR : 6000000 ≤ meanRadius + altitude := by
    have : 6000000 ≤ meanRadius := by unfold meanRadius equatorialRadius polarRadius; norm_num
    linarith
  have hsq : Real.sqrt (mu / (meanRadius + altitude) ^ 3) ≤ 1 := by
    rw [Real.sqrt_le_left (by norm_num), one_pow]
    rw [div_le_one (by positivity)]
    have : (6000000 : ℝ) ^ 3 ≤ (meanRadius + altitude) ^ 3 := pow_le_pow_left₀ (by norm_num) hR 3
    refine le_trans ?_ this
    unfold mu; norm_num
  have hs0 : 0 < Real.sqrt (mu / (meanRadius + altitude) ^ 3) := by
    apply Real.sqrt_pos.mpr
    have : 0 < mu := by unfold mu; norm_num
    positivity
  have hsec : 1 ≤ orbitPeriodSeconds altitude * 1000000 := by
    unfold orbitPeriodSeconds
    have hpi := Real.pi_gt_d2
    have : 1 ≤ 2 * Real.pi / Real.sqrt (mu / (meanRadius + altitude) ^ 3) := by
      rw [le_div_iff₀ hs0]; linarith
    linarith
  have hround : 1 ≤ orbitPeriod altitude := by
    unfold orbitPeriod roundHalfEven
    have hf : 1 ≤ ⌊orbitPeriodSeconds altitude * 1000000⌋ := Int.le_floor.mpr (by exact_mod_cast hsec)
    simp only
    split_ifs <;> omega
  have hpos : (0 : ℝ) < orbitPeriod altitude := by exact_mod_cast (by omega : 0 < orbitPeriod altitude)
  refine ⟨1 / ((orbitPeriod altitude : ℝ) / 86400000000), ?_, by positivity⟩
  unfold Orbit.meanMotion
  simp only [bind_eq_ok, require_eq_ok, pure, Except.pure]
  exact ⟨(), by linarith, (), by omega, trivial⟩

/-- The hypotheses of C34 are met: a train of circular orbits. -/
example : ∃ mm, Lead.Valid exampleLead ∧ ¬ Lead.IsKeplerian exampleLead ∧ exampleLead.meanMotion = .ok mm := by
  obtain ⟨mm, h, _⟩ := meanMotion_ok 500000 (by norm_num)
  exact ⟨mm, exampleLead_valid, id, h⟩

end Tatc.Props
