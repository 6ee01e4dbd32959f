import Verif.Props.RoundedTle

/-! C187: members of Walker constellations around element sets differ as written. -/

namespace Tatc.Props
open Tatc Tatc.Num Tatc.Ieee Tatc.Spec Tatc.Orbit Tatc.Constellation

/-- `text` (degrees) is the angle `x` (radians) as an element set has it, with four decimals (and a margin for the conversion). -/
def Written (x text : ℝ) : Prop := SameWithin 5.1e-5 text (degrees x)

/-- Multiples of equal parts of a turn that are the same within less than a part are the same multiples. -/
theorem slots_apart {p k l : Nat} {tol : ℝ} (hp : tol * p < 360) (hk : k < p) (hl : l < p) {x : ℝ}
    (h : SameWithin tol (x + k * (360 / p)) (x + l * (360 / p))) : k = l := by
  obtain ⟨s, hs⟩ := h
  have p0 : (0 : ℝ) < p := by exact_mod_cast (show 0 < p by omega)
  have e : x + k * (360 / p) - (x + l * (360 / p) + 360 * s) = (360 / p) * ((k - l - p * s : ℤ) : ℝ) := by
    push_cast; field_simp; ring
  rw [e, abs_mul, abs_of_pos (by positivity)] at hs
  have u : tol < 360 / (p : ℝ) := by rw [lt_div_iff₀ p0]; exact hp
  have z : (k - l - p * s : ℤ) = 0 := by
    by_contra hne
    have h1 : (1 : ℝ) ≤ |((k - l - p * s : ℤ) : ℝ)| := by exact_mod_cast Int.one_le_abs hne
    have : 360 / (p : ℝ) * 1 ≤ 360 / (p : ℝ) * |((k - l - p * s : ℤ) : ℝ)| := mul_le_mul_of_nonneg_left h1 (by positivity)
    linarith
  have hst : s = 0 := by
    by_contra hne
    rcases lt_or_gt_of_ne hne with h | h
    · have : (p : ℤ) * s ≤ -p := by nlinarith
      omega
    · have : (p : ℤ) ≤ p * s := by nlinarith
      omega
  rw [hst] at z
  omega

/-- What is written, against the place in the pattern (degrees). -/
theorem written_close {d x y p : ℝ} (h : SameRadians 3e-11 d (x + radians y)) (hp : Written d p) :
    SameWithin 5.11e-5 p (degrees x + y) := by
  obtain ⟨k, hk⟩ := h
  obtain ⟨l, hl⟩ := hp
  refine ⟨k + l, ?_⟩
  have pp := Real.pi_pos
  have p1 := Real.pi_gt_d2
  have f : |degrees d - (degrees x + y + 360 * k)| ≤ 3e-11 * 60 := by
    have e : degrees d - (degrees x + y + 360 * k) = (d - (x + radians y + 2 * Real.pi * k)) * (180 / Real.pi) := by
      unfold degrees radians; field_simp; ring
    rw [e, abs_mul, abs_of_pos (show 0 < 180 / Real.pi by positivity)]
    refine mul_le_mul hk ?_ (by positivity) (by norm_num)
    rw [div_le_iff₀ pp]; norm_num at *; linarith
  have a1 := abs_le.mp f
  have a2 := abs_le.mp hl
  push_cast
  norm_num at *
  rw [abs_le]; constructor <;> linarith

/-- C187: no two members of a Walker constellation of up to a million satellites around element sets have the same angles as
written: member by member, set `k` differs in the node or in the mean anomaly. -/
theorem C187_distinct {I : Type} (w : Walker I) (hw : Walker.Accepted w) (hn : w.satellites ≤ 10 ^ 6) (hp : w.planes ≤ 2700)
    (sets : List TleElements) (hs : ∀ s ∈ sets, |s.meanAnomaly| ≤ 20 ∧ |s.node| ≤ 20)
    (i j k : Nat) (m m' : Satellite I) (hi : (tleWalkerMembers sets w)[i]? = some m) (hj : (tleWalkerMembers sets w)[j]? = some m')
    (E E' : List TleElements) (hE : m.orbit = .tle E) (hE' : m'.orbit = .tle E')
    (d d' : TleElements) (hd : E[k]? = some d) (hd' : E'[k]? = some d')
    (anomaly node anomaly' node' : ℝ) (w1 : Written d.meanAnomaly anomaly) (w2 : Written d.node node)
    (w3 : Written d'.meanAnomaly anomaly') (w4 : Written d'.node node') (hne : i ≠ j) : node ≠ node' ∨ anomaly ≠ anomaly' := by
  have hn' : w.satellites ≤ 10 ^ 9 := hn.trans (by norm_num)
  obtain ⟨f, hf, hg⟩ := C185_walker w hw hn' hp sets hs
  rw [hf] at hi hj
  simp only [List.getElem?_map, Option.map_eq_some_iff, List.getElem?_eq_some_iff, List.length_range, List.getElem_range] at hi hj
  obtain ⟨_, ⟨hi, rfl⟩, rfl⟩ := hi
  obtain ⟨_, ⟨hj, rfl⟩, rfl⟩ := hj
  simp only [Lead.tle.injEq] at hE hE'
  subst hE hE'
  have gi := hg i hi
  have gj := hg j hj
  have li := gi.length_eq
  have lj := gj.length_eq
  obtain ⟨ki, rfl⟩ := List.getElem?_eq_some_iff.mp hd
  obtain ⟨kj, rfl⟩ := List.getElem?_eq_some_iff.mp hd'
  have ks : k < sets.length := by omega
  obtain ⟨-, -, ta, ra⟩ := (List.forall₂_iff_get.mp gi).2 k ks ki
  obtain ⟨-, -, tb, rb⟩ := (List.forall₂_iff_get.mp gj).2 k ks kj
  simp only [List.get_eq_getElem] at ta ra tb rb
  have ta := written_close ta w1
  have ra := written_close ra w2
  have tb := written_close tb w3
  have rb := written_close rb w4
  generalize degrees sets[k].meanAnomaly = M at *
  generalize degrees sets[k].node = N at *
  obtain ⟨-, q0, q1, q2⟩ := perPlane_eq w hw hn'
  by_contra hcon
  push Not at hcon
  obtain ⟨e1, e2⟩ := hcon
  have r5 : (w.satellites : ℝ) ≤ 1000000 := by exact_mod_cast hn
  have r7 : (w.planes : ℝ) ≤ 2700 := by exact_mod_cast hp
  have r9 : (perPlane w.satellites w.planes : ℝ) ≤ w.satellites := by exact_mod_cast q2
  unfold slotNode at ra rb
  unfold slotAnomaly at ta tb
  generalize perPlane w.satellites w.planes = q at *
  have di : i / q < w.planes := by rw [Nat.div_lt_iff_lt_mul q0]; omega
  have dj : j / q < w.planes := by rw [Nat.div_lt_iff_lt_mul q0]; omega
  have p0 : (0 : ℝ) < w.planes := by exact_mod_cast (show 0 < w.planes from lt_of_le_of_lt (Nat.zero_le _) di)
  -- both are the same as what is written
  have same : ∀ {z a b : ℝ}, SameWithin 5.11e-5 z a → SameWithin 5.11e-5 z b → SameWithin 1.03e-4 a b := by
    rintro z a b ⟨s, h⟩ ⟨t, h'⟩
    refine ⟨t - s, ?_⟩
    have a1 := abs_le.mp h
    have a2 := abs_le.mp h'
    push_cast
    norm_num at *
    rw [abs_le]; constructor <;> linarith
  subst e1 e2
  have R := same ra rb
  have T := same ta tb
  have planes : i / q = j / q := by
    cases hst : w.star
    · simp only [hst, Bool.false_eq_true, if_false] at R
      exact slots_apart (by norm_num; linarith) di dj R
    · simp only [hst, if_true] at R
      have g : (180 : ℝ) / w.planes = 360 / ((2 * w.planes : Nat) : ℝ) := by push_cast; field_simp; norm_num
      rw [g] at R
      exact slots_apart (by push_cast; norm_num; linarith) (by omega) (by omega) R
  rw [← planes] at T
  have slots : i % q = j % q := by
    refine slots_apart (tol := 1.03e-4) (p := q) (x := M + (i / q : Nat) * (360 * w.spacing / w.satellites)) ?_
      (Nat.mod_lt _ q0) (Nat.mod_lt _ q0) ?_
    · norm_num; linarith
    · rw [add_assoc, add_assoc, add_comm ((i / q : Nat) * (360 * w.spacing / w.satellites) : ℝ),
        add_comm ((i / q : Nat) * (360 * w.spacing / w.satellites) : ℝ)]
      exact T
  apply hne
  rw [← Nat.div_add_mod i q, ← Nat.div_add_mod j q, planes, slots]

/-- Twelve satellites in three planes around one element set; a quarter of a turn is written as 90. -/
example : Walker.Accepted (I := Unit) ⟨[], .tle [⟨5.67, 4.32, 15.5, 0⟩], (), false, 12, 3, 1⟩ ∧
    Written (Real.pi / 2) 90 := by
  refine ⟨⟨⟨by norm_num, by norm_num⟩, by norm_num⟩, 0, ?_⟩
  have pp := Real.pi_pos
  have : degrees (Real.pi / 2) = 90 := by unfold degrees; field_simp; norm_num
  rw [this]
  norm_num

end Tatc.Props
