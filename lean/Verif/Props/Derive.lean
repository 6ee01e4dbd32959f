import Verif.Props.Convert
import Verif.Spec.Derive

/-!
# C123: a derived element set describes the same orbit, turned
-/

namespace Tatc.Props
open Tatc.Orbit Tatc.Num Tatc.Spec Tatc.Tle Tatc.Text Tatc.Geometry

variable {read : Line → Line → Except PyErr Record} {ex : Record → Line × Line} {epoch : Line → Line → Except PyErr Int}
  {clock : Int → Int}

/-- Two numbers with the same digits after the point, half a digit apart, are equal. -/
theorem same_digits {a b : Nat} {N : ℝ} (hN : 0 < N) (h : |(a : ℝ) / N - b / N| ≤ 1 / (2 * N)) : a = b := by
  have h1 : (a : ℝ) / N - b / N = ((a : ℝ) - b) / N := by ring
  rw [h1, abs_div, abs_of_pos hN, div_le_div_iff₀ hN (by positivity)] at h
  have h2 : |(a : ℝ) - b| < 1 := by nlinarith
  have h3 : |((a : Int) - b : Int)| < 1 := by
    have : ((|((a : Int) - b : Int)| : Int) : ℝ) < 1 := by push_cast; exact h2
    exact_mod_cast this
  have := abs_lt.mp h3
  omega

theorem degrees_shift (v d : ℝ) : degrees (npMod (radians v + radians d) (2 * Real.pi)) = npMod (v + d) 360 := by
  have hpi := Real.pi_pos
  unfold npMod
  have h1 : (radians v + radians d) / (2 * Real.pi) = (v + d) / 360 := by unfold radians; field_simp; ring
  rw [h1]
  unfold degrees radians
  field_simp
  ring

theorem slice_slice (a b c d : Nat) (s : List Char) (h1 : a ≤ c) (h2 : d ≤ b) :
    slice (c - a) (d - a) (slice a b s) = slice c d s := by
  unfold slice
  rw [List.drop_take, List.take_take, List.drop_drop]
  congr 1
  · omega
  · congr 1; omega

theorem drag_columns {l1 l : Line} (h : slice 33 61 l1 = slice 33 61 l) :
    getFirstDerivative l1 = getFirstDerivative l ∧ getSecondDerivative l1 = getSecondDerivative l ∧
      getBStar l1 = getBStar l := by
  have hs : ∀ c d, 33 ≤ c → d ≤ 61 → slice c d l1 = slice c d l := fun c d hc hd => by
    rw [← slice_slice 33 61 c d l1 hc hd, ← slice_slice 33 61 c d l hc hd, h]
  refine ⟨?_, ?_, ?_⟩
  · unfold getFirstDerivative; rw [hs 33 43 (by norm_num) (by norm_num)]
  · unfold getSecondDerivative
    rw [hs 44 50 (by norm_num) (by norm_num), hs 50 52 (by norm_num) (by norm_num)]
  · unfold getBStar
    rw [hs 53 59 (by norm_num) (by norm_num), hs 59 61 (by norm_num) (by norm_num)]

theorem power_pos (b : Bool) (e : Nat) : 0 < power b e := by unfold power; split <;> positivity

/-- Values that are equal have the same sign, written in the standard way. -/
theorem same_sign {b c : Bool} {p q : ℚ} (hp : 0 ≤ p) (hq : 0 ≤ q) (hb : b = true → p ≠ 0) (hc : c = true → q ≠ 0)
    (h : signed b p = signed c q) : b = c ∧ p = q := by
  cases b <;> cases c <;> simp only [signed, if_true, Bool.false_eq_true, if_false] at h
  · exact ⟨rfl, h⟩
  · have := lt_of_le_of_ne hq (Ne.symm (hc rfl)); linarith
  · have := lt_of_le_of_ne hp (Ne.symm (hb rfl)); linarith
  · exact ⟨rfl, by linarith⟩

theorem standard_ne {x : Nat} {b : Bool} (h : (x = 0 ∧ b = false) ∨ 10 ^ 4 ≤ x) (hb : b = true) : x ≠ 0 := by
  rcases h with ⟨-, h⟩ | h
  · rw [h] at hb; simp at hb
  · omega

/-- Element sets that write the same derivatives and drag read alike. -/
theorem drag_values {x y : Fields} (hx : x.Standard) (hy : y.Standard) (h1 : x.ndotValue = y.ndotValue)
    (h2 : x.nddotValue = y.nddotValue) (h3 : x.bstarValue = y.bstarValue) :
    getFirstDerivative x.line1 = getFirstDerivative y.line1 ∧ getSecondDerivative x.line1 = getSecondDerivative y.line1 ∧
      getBStar x.line1 = getBStar y.line1 := by
  obtain ⟨-, -, -, a1, a2, a3, -⟩ := C20_round_trip_partial x hx.range
  obtain ⟨-, -, -, b1, b2, b3, -⟩ := C20_round_trip_partial y hy.range
  obtain ⟨c3, c2⟩ := C20_negative_false x hx.range
  obtain ⟨d3, d2⟩ := C20_negative_false y hy.range
  have nz : ∀ (z : Nat) (b : Bool) (e : Nat), z ≠ 0 → (z : ℚ) / 10 ^ 5 * power b e ≠ 0 := by
    intro z b e hz
    have := power_pos b e
    have hz' : (0 : ℚ) < z := by exact_mod_cast Nat.pos_of_ne_zero hz
    positivity
  have nn : ∀ (z : Nat) (b : Bool) (e : Nat), 0 ≤ (z : ℚ) / 10 ^ 5 * power b e := by
    intro z b e
    have := power_pos b e
    positivity
  refine ⟨?_, ?_, ?_⟩
  · rw [a1, b1]; exact congrArg _ h1
  · obtain ⟨hs, hv⟩ := same_sign (nn _ _ _) (nn _ _ _) (fun h => nz _ _ _ (standard_ne hx.nddot h))
      (fun h => nz _ _ _ (standard_ne hy.nddot h)) h2
    cases hb : x.nddotNegative
    · rw [a2 hb, b2 (hs ▸ hb), hv]
    · rw [c2 hb, d2 (hs ▸ hb)]
  · obtain ⟨hs, hv⟩ := same_sign (nn _ _ _) (nn _ _ _) (fun h => nz _ _ _ (standard_ne hx.bstar h))
      (fun h => nz _ _ _ (standard_ne hy.bstar h)) h3
    cases hb : x.bstarNegative
    · rw [a3 hb, b3 (hs ▸ hb), hv]
    · rw [c3 hb, d3 (hs ▸ hb)]

/-- An element set that the derivation can use: angles of less than one turn, at most 99 revolutions per day, and an epoch
from 1957 to 2056. -/
structure Usable (clock : Int → Int) (x : Fields) : Prop where
  standard : x.Standard
  inclination : x.inclination < 3600000
  raan : x.raan < 3600000
  perigee : x.perigee < 3600000
  meanAnomaly : x.meanAnomaly < 3600000
  meanMotion : x.meanMotion ≤ 9900000000
  epoch : TwoDigitYear (clock x.instant)

theorem angle_range {a : Nat} (h : a < 3600000) : 0 ≤ degrees (radians ((a : ℝ) / 10 ^ 4)) ∧
    degrees (radians ((a : ℝ) / 10 ^ 4)) < 360 := by
  rw [degrees_radians]
  have : (a : ℝ) < 3600000 := by exact_mod_cast h
  constructor
  · positivity
  · rw [div_lt_iff₀ (by norm_num)]; linarith

theorem turned_reads {v k : Nat} {d : ℝ} {b a : Except PyErr ℚ} (hb : b = .ok ((v : ℚ) / 10 ^ 4)) (ha : a = .ok ((k : ℚ) / 10 ^ 4))
    (h : |(k : ℝ) / 10 ^ 4 - npMod ((v : ℝ) / 10 ^ 4 + d) 360| ≤ 1 / 20000) : TurnedBy b a d := by
  refine ⟨_, _, ⌊((v : ℝ) / 10 ^ 4 + d) / 360⌋, hb, ha, ⟨k, rfl⟩, ?_⟩
  have h0 := npMod_nonneg ((v : ℝ) / 10 ^ 4 + d) (m := 360) (by norm_num)
  have h1 := npMod_lt ((v : ℝ) / 10 ^ 4 + d) (m := 360) (by norm_num)
  unfold npMod at h h0 h1
  push_cast
  exact ⟨h0, h1, h⟩

/-- One element set. -/
theorem derive_pair (hp : Sgp4 read ex epoch clock) (x : Fields) (hx : Usable clock x) (dM dRaan : ℝ) :
    ∃ r t l1 l2, read x.line1 x.line2 = .ok r ∧ epoch x.line1 x.line2 = .ok t ∧
      replaceNul (ex (derivedRecord r t dM dRaan)).1 = l1 ∧ (ex (derivedRecord r t dM dRaan)).2 = l2 ∧
      Derived epoch dM dRaan (x.line1, x.line2) (l1, l2) ∧ getCatalogNumber l1 = .ok 0 := by
  have hpi := Real.pi_pos
  have hr := hx.standard.range
  obtain ⟨r, hread, hsat, hinc, hnode, hecc, harg, hmo, hno, hnd, hndd, hbs⟩ := hp.reads x hr
  have hepo := hp.epochs x hr
  have hmm : r.no * 1440 / (2 * Real.pi) = (x.meanMotion : ℝ) / 10 ^ 8 := by rw [hno]; field_simp
  have hfit : InFormat (derivedRecord r (clock x.instant) dM dRaan).toSatrec := by
    constructor
    · show 0 ≤ degrees r.inclo ∧ degrees r.inclo < 360
      rw [hinc]; exact angle_range hx.inclination
    · show 0 ≤ degrees (npMod (r.nodeo + radians dRaan) (2 * Real.pi)) ∧
        degrees (npMod (r.nodeo + radians dRaan) (2 * Real.pi)) < 360
      rw [hnode, degrees_shift]
      exact ⟨npMod_nonneg _ (m := 360) (by norm_num), npMod_lt _ (m := 360) (by norm_num)⟩
    · show 0 ≤ degrees r.argpo ∧ degrees r.argpo < 360
      rw [harg]; exact angle_range hx.perigee
    · show 0 ≤ degrees (npMod (r.mo + radians dM) (2 * Real.pi)) ∧
        degrees (npMod (r.mo + radians dM) (2 * Real.pi)) < 360
      rw [hmo, degrees_shift]
      exact ⟨npMod_nonneg _ (m := 360) (by norm_num), npMod_lt _ (m := 360) (by norm_num)⟩
    · show 0 ≤ r.ecco ∧ r.ecco ≤ 1 - 1 / 10 ^ 7
      rw [hecc]
      have h1 : x.eccentricity + 1 ≤ 10 ^ 7 := hr.eccentricity
      have h2 : (x.eccentricity : ℝ) + 1 ≤ 10 ^ 7 := by exact_mod_cast h1
      refine ⟨by positivity, ?_⟩
      rw [div_le_iff₀ (by norm_num)]
      norm_num at h2 ⊢
      linarith
    · show 0 ≤ r.no * 1440 / (2 * Real.pi) ∧ r.no * 1440 / (2 * Real.pi) ≤ 99
      rw [hmm]
      have h2 : (x.meanMotion : ℝ) ≤ 9900000000 := by exact_mod_cast hx.meanMotion
      refine ⟨by positivity, ?_⟩
      rw [div_le_iff₀ (by norm_num)]
      norm_num at h2 ⊢
      linarith
    · exact days_range hx.epoch
  obtain ⟨y, hy, hl2, hi, hn, he, hpe, hm, hmo', hnd', hndd', hbs', l1, hl1, hc1, hu, hset1, hcat, hcols, k, hek, hk⟩ :=
    hp.prints (derivedRecord r (clock x.instant) dM dRaan) hfit (by show (0 : Nat) < _; norm_num)
      ⟨x, hx.standard, hnd, hndd, hbs⟩
  have hnul : replaceNul (ex (derivedRecord r (clock x.instant) dM dRaan)).1 = l1 := by
    rcases hset1 with h | h <;> rw [h]
    · exact replaceNul_line1 hl1
    · exact replaceNul_unset hl1 hu
  have hsety := C20_written_accepted y hy.range
  obtain ⟨-, -, -, -, -, -, -, -, xi, xn, xe, xp, xm, xmm, -⟩ := C20_round_trip_partial x hr
  obtain ⟨-, -, -, -, -, -, -, -, yi, yn, ye, yp, ym, ymm, -⟩ := C20_round_trip_partial y hy.range
  have e1 : y.inclination = x.inclination := by
    apply same_digits (N := 10 ^ 4) (by norm_num)
    have hi' : |(y.inclination : ℝ) / 10 ^ 4 - degrees r.inclo| ≤ 1 / 20000 := hi
    rw [hinc, degrees_radians] at hi'
    refine hi'.trans (by norm_num)
  have e2 : y.eccentricity = x.eccentricity := by
    apply same_digits (N := 10 ^ 7) (by norm_num)
    have he' : |(y.eccentricity : ℝ) / 10 ^ 7 - r.ecco| ≤ 1 / 20000000 := he
    rw [hecc] at he'
    refine he'.trans (by norm_num)
  have e3 : y.perigee = x.perigee := by
    apply same_digits (N := 10 ^ 4) (by norm_num)
    have hp' : |(y.perigee : ℝ) / 10 ^ 4 - degrees r.argpo| ≤ 1 / 20000 := hpe
    rw [harg, degrees_radians] at hp'
    refine hp'.trans (by norm_num)
  have e4 : y.meanMotion = x.meanMotion := by
    apply same_digits (N := 10 ^ 8) (by norm_num)
    have hm' : |(y.meanMotion : ℝ) / 10 ^ 8 - r.no * 1440 / (2 * Real.pi)| ≤ 1 / 200000000 := hmo'
    rw [hmm] at hm'
    refine hm'.trans (by norm_num)
  have e5 : k = x.instant := by
    have hdays : (derivedRecord r (clock x.instant) dM dRaan).days * 86400000000 + epoch1949 = clock x.instant := by
      show ((clock x.instant - epoch1949 : Int) : ℝ) / 86400000000 * 86400000000 + epoch1949 = _
      push_cast; ring
    have h1 : |(864 * k : ℝ) - clock x.instant| ≤ 432 := by
      rw [← hdays, add_comm]; exact hk
    have h2 : |864 * k - clock x.instant| ≤ 432 := by exact_mod_cast h1
    have h3 := abs_le.mp (hp.clock_near x.instant)
    have h4 := abs_le.mp h2
    omega
  obtain ⟨f1, f2, f3⟩ := drag_columns hcols
  obtain ⟨g1, g2, g3⟩ := drag_values hy hx.standard (by exact_mod_cast hnd'.symm.trans hnd)
    (by exact_mod_cast hndd'.symm.trans hndd) (by exact_mod_cast hbs'.symm.trans hbs)
  refine ⟨r, clock x.instant, l1, y.line2, hread, hepo, hnul, hl2, ?_, hcat⟩
  rw [hl2] at hek
  exact {
    wellFormed := ⟨hl1, hsety.line2, hc1, hsety.sum2⟩
    epoch := by rw [hek, hepo, e5]
    inclination := by rw [yi, xi, e1]
    eccentricity := by rw [ye, xe, e2]
    perigee := by rw [yp, xp, e3]
    meanMotion := by rw [ymm, xmm, e4]
    ndot := f1.trans g1
    nddot := f2.trans g2
    bstar := f3.trans g3
    raan := by
      refine turned_reads xn yn ?_
      have h : |(y.raan : ℝ) / 10 ^ 4 - degrees (npMod (r.nodeo + radians dRaan) (2 * Real.pi))| ≤ 1 / 20000 := hn
      rwa [hnode, degrees_shift] at h
    meanAnomaly := by
      refine turned_reads xm ym ?_
      have h : |(y.meanAnomaly : ℝ) / 10 ^ 4 - degrees (npMod (r.mo + radians dM) (2 * Real.pi))| ≤ 1 / 20000 := hm
      rwa [hmo, degrees_shift] at h }

/-- The lines of element sets. -/
def setsOf (xs : List Fields) : List (Line × Line) := xs.map fun x => (x.line1, x.line2)

theorem derive_lines (hp : Sgp4 read ex epoch clock) (xs : List Fields) (hx : ∀ x ∈ xs, Usable clock x) (dM dRaan : ℝ) :
    ∃ ys, derivedLines read ex epoch dM dRaan (linesOf (setsOf xs)) = .ok (linesOf ys) ∧
      List.Forall₂ (fun l d => Derived epoch dM dRaan l d ∧ getCatalogNumber d.1 = .ok 0) (setsOf xs) ys := by
  induction xs with
  | nil => exact ⟨[], rfl, .nil⟩
  | cons x xs ih =>
    obtain ⟨ys, h1, h2⟩ := ih fun x' h => hx x' (List.mem_cons_of_mem _ h)
    obtain ⟨r, t, l1, l2, hr, ht, e1, e2, hd, hc⟩ := derive_pair hp x (hx x List.mem_cons_self) dM dRaan
    refine ⟨(l1, l2) :: ys, ?_, .cons ⟨hd, hc⟩ h2⟩
    show derivedLines read ex epoch dM dRaan (x.line1 :: x.line2 :: linesOf (setsOf xs)) = _
    unfold derivedLines
    rw [hr, ht, h1]
    show Except.ok _ = Except.ok _
    rw [e1, e2]
    rfl

theorem forall₂_epochs {l d : List (Line × Line)} {dM dRaan : ℝ} {es : List Int}
    (h : List.Forall₂ (fun l d => Derived epoch dM dRaan l d ∧ getCatalogNumber d.1 = .ok 0) l d)
    (he : List.Forall₂ (fun p e => epoch p.1 p.2 = .ok e) l es) :
    List.Forall₂ (fun p e => epoch p.1 p.2 = .ok e) d es := by
  induction h generalizing es with
  | nil => cases he; exact .nil
  | cons hd _ ih =>
    cases he with
    | cons h1 h2 => exact .cons (hd.1.epoch.trans h1) (ih h2)

/-- Deriving an orbit from accepted element sets. -/
theorem derived_sets (hp : Sgp4 read ex epoch clock) (xs : List Fields) (hx : ∀ x ∈ xs, Usable clock x) (dM dRaan : ℝ)
    (v : List Line) (hv : construct epoch (linesOf (setsOf xs)) = .ok v) :
    ∃ ys, tleGetDerived read ex epoch v dM dRaan = .ok (linesOf ys) ∧
      List.Forall₂ (fun l d => Derived epoch dM dRaan l d ∧ getCatalogNumber d.1 = .ok 0) (setsOf xs) ys := by
  have hv' := C18_unchanged epoch _ _ hv
  obtain ⟨ys, h1, h2⟩ := derive_lines hp xs hx dM dRaan
  obtain ⟨⟨es, he, hmono⟩, -, -, hlen, -⟩ := (construct_ok epoch _ v).mp hv
  refine ⟨ys, ?_, h2⟩
  have hok : ∃ w, construct epoch (linesOf ys) = .ok w := by
    rw [C18_accepted_iff]
    refine ⟨ys, ?_, rfl, ?_, es, forall₂_epochs h2 ((epochsOf_linesOf epoch _ es).mp he), (nonDecreasing_iff es).mp hmono⟩
    · rintro rfl
      cases h2' : setsOf xs with
      | nil => rw [h2'] at hlen; exact absurd hlen (by decide)
      | cons a l => rw [h2'] at h2; cases h2
    · intro p hp'
      obtain ⟨i, hi, rfl⟩ := List.mem_iff_getElem.mp hp'
      have := h2.get (i := i) (by rw [h2.length_eq]; exact hi) hi
      exact this.1.wellFormed
  obtain ⟨w, hw⟩ := hok
  unfold tleGetDerived
  rw [hv', h1]
  show construct epoch (linesOf ys) = _
  rw [hw, C18_unchanged epoch _ _ hw]

/-- C123 for the elements.  Full statement: a derived orbit is that of the same satellite, too.  Proved: deriving an orbit
from accepted element sets is accepted, and gives for each of them, in order, one that describes the same orbit, ahead and
turned by the angles given.  Missing: the catalog number (`C123_identity_false`). -/
theorem C123_derived_partial (hp : Sgp4 read ex epoch clock) (xs : List Fields) (hx : ∀ x ∈ xs, Usable clock x)
    (dM dRaan : ℝ) (v : List Line) (hv : construct epoch (linesOf (setsOf xs)) = .ok v) :
    ∃ ys, tleGetDerived read ex epoch v dM dRaan = .ok (linesOf ys) ∧
      List.Forall₂ (Derived epoch dM dRaan) (setsOf xs) ys ∧ getTleCount (linesOf ys) = getTleCount v := by
  obtain ⟨ys, h1, h2⟩ := derived_sets hp xs hx dM dRaan v hv
  refine ⟨ys, h1, h2.imp fun _ _ h => h.1, ?_⟩
  unfold getTleCount
  rw [C18_unchanged epoch _ _ hv, linesOf_length, linesOf_length, h2.length_eq]

/-- The satellite is lost: whatever the catalog number, that of the derived element set is zero. -/
theorem C123_identity_false (hp : Sgp4 read ex epoch clock) (x : Fields) (hx : Usable clock x) (hc : x.catalog ≠ 0)
    (dM dRaan : ℝ) : ∃ l1 l2, tleGetDerived read ex epoch [x.line1, x.line2] dM dRaan = .ok [l1, l2] ∧
      getCatalogNumber l1 = .ok 0 ∧ getCatalogNumber x.line1 ≠ .ok 0 := by
  have hv := construct_pair epoch x.line1 x.line2 _ (C20_written_accepted x hx.standard.range)
    (hp.epochs x hx.standard.range)
  obtain ⟨ys, h1, h2⟩ := derived_sets hp [x] (by simpa using hx) dM dRaan _ hv
  cases h2 with
  | cons h3 h4 =>
    cases h4
    refine ⟨_, _, h1, h3.2, ?_⟩
    rw [(C20_round_trip_partial x hx.standard.range).1]
    simpa using hc

/-- Angles with four decimals are added exactly. -/
theorem C123_digits {b a : Except PyErr ℚ} {d : ℝ} (h : TurnedBy b a d) (m : Nat) (n : Int) (hb : b = .ok ((m : ℚ) / 10 ^ 4))
    (hd : d = (n : ℝ) / 10 ^ 4) : ∃ j : Int, a = .ok (((m + n : Int) : ℚ) / 10 ^ 4 - 360 * j) ∧
      0 ≤ ((m + n : Int) : ℚ) / 10 ^ 4 - 360 * j ∧ ((m + n : Int) : ℚ) / 10 ^ 4 - 360 * j < 360 := by
  obtain ⟨v, w, j, h1, h2, ⟨k, rfl⟩, h4, h5, h6⟩ := h
  rw [hb, Except.ok.injEq] at h1
  subst h1
  have hval : (((m : ℚ) / 10 ^ 4 : ℚ) : ℝ) + d - 360 * j = ((((m + n : Int) : ℚ) / 10 ^ 4 - 360 * j : ℚ) : ℝ) := by
    rw [hd]; push_cast; ring
  rw [hval] at h4 h5 h6
  refine ⟨j, ?_, by exact_mod_cast h4, by exact_mod_cast h5⟩
  rw [h2]
  congr 1
  have h7 : |(k : ℚ) / 10 ^ 4 - (((m + n : Int) : ℚ) / 10 ^ 4 - 360 * j)| ≤ 1 / 20000 := by
    rw [← Rat.cast_le (K := ℝ)]
    push_cast at h6 ⊢
    exact h6
  have h8 : (k : ℚ) / 10 ^ 4 - (((m + n : Int) : ℚ) / 10 ^ 4 - 360 * j) = (((k : Int) - (m + n) + 3600000 * j : Int) : ℚ) / 10 ^ 4 := by
    push_cast; ring
  rw [h8, abs_div, abs_of_pos (by norm_num : (0 : ℚ) < 10 ^ 4), div_le_iff₀ (by norm_num)] at h7
  have h9 : |((k : Int) - (m + n) + 3600000 * j : Int)| < 1 := by
    have : ((|((k : Int) - (m + n) + 3600000 * j : Int)| : Int) : ℚ) < 1 := by
      rw [Int.cast_abs]; norm_num at h7 ⊢; linarith
    exact_mod_cast this
  have h10 : ((k : Int) - (m + n) + 3600000 * j : Int) = 0 := by
    have := abs_lt.mp h9; omega
  rw [h10] at h8
  norm_num at h8
  push_cast at h8 ⊢
  norm_num
  linarith

/-- Nothing is turned by no angle: the derived element set has the node and the mean anomaly that were given. -/
theorem C123_nothing {b a : Except PyErr ℚ} (h : TurnedBy b a 0) (m : Nat) (hm : m < 3600000)
    (hb : b = .ok ((m : ℚ) / 10 ^ 4)) : a = b := by
  obtain ⟨j, h1, h2, h3⟩ := C123_digits h m 0 hb (by norm_num)
  have hm' : (m : ℚ) < 3600000 := by exact_mod_cast hm
  have hm0 : (0 : ℚ) ≤ m := by positivity
  have hj : j = 0 := by
    push_cast at h2 h3
    have h4 : (j : ℚ) < 1 := by norm_num at h2; linarith
    have h5 : (-1 : ℚ) < j := by norm_num at h3; linarith
    have h6 : j < 1 := by exact_mod_cast h4
    have h7 : -1 < j := by exact_mod_cast h5
    omega
  rw [h1, hb, hj]
  simp

/-! ### The contract can be met -/

/-- A reader. -/
noncomputable def sampleRead (l1 l2 : Line) : Except PyErr Record := do
  let satnum ← pyInt (slice 2 7 l1)
  let ndot ← getFirstDerivative l1
  let dm ← pyInt (slice 44 50 l1).tail
  let de ← pyInt (slice 50 52 l1)
  let bm ← pyInt (slice 53 59 l1).tail
  let be ← pyInt (slice 59 61 l1)
  let i ← getInclination l2
  let n ← getRaan l2
  let e ← getEccentricity l2
  let p ← getPerigeeArgument l2
  let m ← getMeanAnomaly l2
  let mm ← getMeanMotion l2
  return { satnum := satnum.toNat, days := 0, ecco := (e : ℝ), argpo := radians p, inclo := radians i, mo := radians m,
           no := (mm : ℝ) * (2 * Real.pi) / 1440, nodeo := radians n, ndot := (ndot : ℝ),
           nddot := ((signed ((slice 44 50 l1).head? = some '-') ((dm : ℚ) / 10 ^ 5 * 10 ^ de) : ℚ) : ℝ)
           bstar := ((signed ((slice 53 59 l1).head? = some '-') ((bm : ℚ) / 10 ^ 5 * 10 ^ be) : ℚ) : ℝ) }

theorem power_zpow (b : Bool) (e : Nat) : (10 : ℚ) ^ (if b = true then -(e : Int) else e) = power b e := by
  cases b
  · simp [power]
  · simp [power, zpow_neg]

theorem signCol_head (b : Bool) (l : List Char) : decide ((signCol b :: l).head? = some '-') = b := by
  cases b <;> simp [signCol]

theorem sampleRead_written (x : Fields) (h : x.InRange) : ∃ r, sampleRead x.line1 x.line2 = .ok r ∧ r.satnum = x.catalog ∧
    r.inclo = radians (x.inclination / 10 ^ 4) ∧ r.nodeo = radians (x.raan / 10 ^ 4) ∧ r.ecco = x.eccentricity / 10 ^ 7 ∧
    r.argpo = radians (x.perigee / 10 ^ 4) ∧ r.mo = radians (x.meanAnomaly / 10 ^ 4) ∧
    r.no = x.meanMotion / 10 ^ 8 * (2 * Real.pi) / 1440 ∧
    r.ndot = x.ndotValue ∧ r.nddot = x.nddotValue ∧ r.bstar = x.bstarValue := by
  have l1 := fun k a b => slice_line x.body1 _ (body1_lengths x h) k a b
  have s1 : slice 44 50 x.line1 = signCol x.nddotNegative :: field '0' 5 x.nddot := l1 13 44 50 (by simp [Fields.body1]) rfl rfl
  have s2 : slice 50 52 x.line1 = [expSign x.nddotExpNegative, digitChar x.nddotExp] :=
    l1 14 50 52 (by simp [Fields.body1]) rfl rfl
  have s3 : slice 53 59 x.line1 = signCol x.bstarNegative :: field '0' 5 x.bstar := l1 16 53 59 (by simp [Fields.body1]) rfl rfl
  have s4 : slice 59 61 x.line1 = [expSign x.bstarExpNegative, digitChar x.bstarExp] :=
    l1 17 59 61 (by simp [Fields.body1]) rfl rfl
  obtain ⟨ac, -, -, a1, -, -, -, -, xi, xn, xe, xp, xm, xmm, -⟩ := C20_round_trip_partial x h
  unfold getCatalogNumber at ac
  have z := pyInt_field '0' (Or.inr rfl)
  unfold sampleRead
  rw [ac, a1, s1, s2, s3, s4, xi, xn, xe, xp, xm, xmm]
  simp only [List.tail_cons, z, pyInt_expSign _ _ h.nddotExp, pyInt_expSign _ _ h.bstarExp, bind, Except.bind, pure,
    Except.pure, signCol_head, power_zpow]
  refine ⟨_, rfl, by simp, ?_, ?_, ?_, ?_, ?_, ?_, rfl, ?_, ?_⟩
  · simp
  · simp
  · simp
  · simp
  · simp
  · simp
  · show _ = ((Fields.nddotValue x : ℚ) : ℝ); unfold Fields.nddotValue; push_cast; rfl
  · show _ = ((Fields.bstarValue x : ℚ) : ℝ); unfold Fields.bstarValue; push_cast; rfl

/-- A reader of epochs. -/
def sampleClock (l1 _l2 : Line) : Except PyErr Int := do
  let y ← pyInt (slice 18 20 l1)
  let d ← pyFloat (slice 20 32 l1)
  return 864 * ((365 * ((fullYear y.toNat : Int) - 1970) + ((fullYear y.toNat : Int) - 1969) / 4 - 1) * 10 ^ 8 +
    ⌊d * 10 ^ 8⌋)

theorem sampleClock_written (x : Fields) (h : x.InRange) (l : Line) : sampleClock x.line1 l = .ok (864 * x.instant) := by
  have l1 := fun k a b => slice_line x.body1 _ (body1_lengths x h) k a b
  have s : slice 18 20 x.line1 = field '0' 2 x.epochYear := l1 8 18 20 (by simp [Fields.body1]) rfl rfl
  have s' : slice 20 32 x.line1 = fixed x.fill 3 8 x.epochDay := l1 9 20 32 (by simp [Fields.body1]) rfl rfl
  unfold sampleClock
  rw [s, s', pyInt_field '0' (Or.inr rfl), pyFloat_fixed _ h.fill _ _ _ (by decide)]
  have : ⌊(x.epochDay : ℚ) / 10 ^ 8 * 10 ^ 8⌋ = (x.epochDay : Int) := by
    rw [div_mul_cancel₀ _ (by norm_num)]
    exact Int.floor_natCast _
  simp only [bind, Except.bind, pure, Except.pure, this, Int.toNat_natCast]
  rfl

/-- Every instant from 1957 to 2056 can be written. -/
theorem instant_written (k : Int) (h0 : -474800000000 ≤ k) (h1 : k ≤ 3177400000000) : ∃ y d : Nat, y < 10 ^ 2 ∧ d < 10 ^ 11 ∧
    (365 * ((fullYear y : Int) - 1970) + ((fullYear y : Int) - 1969) / 4 - 1) * 10 ^ 8 + d = k := by
  obtain ⟨c, hc⟩ : ∃ c : Int, c = (k + 474800000000) / 36600000000 := ⟨_, rfl⟩
  have hc0 : 0 ≤ c := by omega
  have hc1 : c ≤ 99 := by omega
  by_cases hy : c < 43
  · have hf : (fullYear (57 + c).toNat : Int) = 1957 + c := by unfold fullYear; split <;> omega
    refine ⟨(57 + c).toNat, (k - (365 * (1957 + c - 1970) + (1957 + c - 1969) / 4 - 1) * 10 ^ 8).toNat, by omega, by omega, ?_⟩
    rw [hf]; omega
  · have hf : (fullYear (c - 43).toNat : Int) = 1957 + c := by unfold fullYear; split <;> omega
    refine ⟨(c - 43).toNat, (k - (365 * (1957 + c - 1970) + (1957 + c - 1969) / 4 - 1) * 10 ^ 8).toNat, by omega, by omega, ?_⟩
    rw [hf]; omega

/-- Derivatives and drag that can be written. -/
def Rates (r : Record) : Prop := ∃ y : Fields, y.Standard ∧ r.ndot = y.ndotValue ∧ r.nddot = y.nddotValue ∧ r.bstar = y.bstarValue

/-- The nearest hundred-millionth of a day since 1970. -/
noncomputable def nearestInstant (days : ℝ) : Int := (nearest (days * 10 ^ 8) : Int) - 730600000000

theorem nearestInstant_range {s : Satrec} (h : InFormat s) :
    -474800000000 ≤ nearestInstant s.days ∧ nearestInstant s.days ≤ 3177400000000 := by
  have h1 : 255800000000 ≤ nearest (s.days * 10 ^ 8) := by
    unfold nearest
    apply Nat.le_floor
    push_cast
    linarith [h.epoch.1]
  have h2 : nearest (s.days * 10 ^ 8) < 3908000000001 := by
    apply nearest_lt
    · push_cast; linarith [h.epoch.2]
    · have := h.epoch.1; nlinarith
  unfold nearestInstant
  omega

open Classical in
/-- A printer. -/
noncomputable def sampleFields (r : Record) (h : InFormat r.toSatrec) (hr : Rates r) : Fields :=
  { writtenFields r.toSatrec with
    catalog := r.satnum
    epochYear := (instant_written _ (nearestInstant_range h).1 (nearestInstant_range h).2).choose
    epochDay := (instant_written _ (nearestInstant_range h).1 (nearestInstant_range h).2).choose_spec.choose
    ndotNegative := hr.choose.ndotNegative
    ndot := hr.choose.ndot
    nddotNegative := hr.choose.nddotNegative
    nddot := hr.choose.nddot
    nddotExpNegative := hr.choose.nddotExpNegative
    nddotExp := hr.choose.nddotExp
    bstarNegative := hr.choose.bstarNegative
    bstar := hr.choose.bstar
    bstarExpNegative := hr.choose.bstarExpNegative
    bstarExp := hr.choose.bstarExp }

theorem sampleFields_standard (r : Record) (h : InFormat r.toSatrec) (hr : Rates r) (hs : r.satnum < 10 ^ 5) :
    (sampleFields r h hr).Standard where
  range := { writtenFields_inRange r.toSatrec h with
    catalog := hs
    epochYear := (instant_written _ (nearestInstant_range h).1 (nearestInstant_range h).2).choose_spec.choose_spec.1
    epochDay := (instant_written _ (nearestInstant_range h).1 (nearestInstant_range h).2).choose_spec.choose_spec.2.1
    ndot := hr.choose_spec.1.range.ndot
    nddot := hr.choose_spec.1.range.nddot
    nddotExp := hr.choose_spec.1.range.nddotExp
    bstar := hr.choose_spec.1.range.bstar
    bstarExp := hr.choose_spec.1.range.bstarExp }
  ndot := hr.choose_spec.1.ndot
  nddot := hr.choose_spec.1.nddot
  bstar := hr.choose_spec.1.bstar

theorem sampleFields_instant (r : Record) (h : InFormat r.toSatrec) (hr : Rates r) :
    (sampleFields r h hr).instant = nearestInstant r.days :=
  (instant_written _ (nearestInstant_range h).1 (nearestInstant_range h).2).choose_spec.choose_spec.2.2

open Classical in
noncomputable def samplePrint (r : Record) : Line × Line :=
  if h : InFormat r.toSatrec ∧ Rates r then ((sampleFields r h.1 h.2).line1.set 7 '\x00', (sampleFields r h.1 h.2).line2)
  else ([], [])

theorem sample_sgp4 : Sgp4 sampleRead samplePrint sampleClock (864 * ·) where
  clock_near := by intro k; simp
  epochs := fun x h => sampleClock_written x h _
  reads := sampleRead_written
  prints := by
    intro r h hs hr'
    have hr : Rates r := hr'
    have hst := sampleFields_standard r h hr hs
    have hset := C20_written_accepted _ hst.range
    have he : samplePrint r = ((sampleFields r h hr).line1.set 7 '\x00', (sampleFields r h hr).line2) :=
      dif_pos ⟨h, hr⟩
    refine ⟨sampleFields r h hr, hst, by rw [he], ?_, ?_, ?_, ?_, ?_, ?_, hr.choose_spec.2.1, hr.choose_spec.2.2.1,
      hr.choose_spec.2.2.2, (sampleFields r h hr).line1, hset.line1, hset.sum1, ?_, Or.inr (by rw [he]),
      (C20_round_trip_partial _ hst.range).1, rfl, nearestInstant r.days, ?_, ?_⟩
    · refine (nearest_div (10 ^ 4) (by norm_num) h.inclination.1).trans (by norm_num)
    · refine (nearest_div (10 ^ 4) (by norm_num) h.node.1).trans (by norm_num)
    · refine (nearest_div (10 ^ 7) (by norm_num) h.eccentricity.1).trans (by norm_num)
    · refine (nearest_div (10 ^ 4) (by norm_num) h.perigee.1).trans (by norm_num)
    · refine (nearest_div (10 ^ 4) (by norm_num) h.anomaly.1).trans (by norm_num)
    · refine (nearest_div (10 ^ 8) (by norm_num) h.motion.1).trans (by norm_num)
    · have hc := (C20_round_trip_partial _ hst.range).2.1
      unfold getClassification at hc
      unfold col
      rw [List.getD_eq_getElem?_getD]
      split at hc
      · rename_i c hc'
        rw [hc']
        exact Except.ok.inj hc
      · exact absurd hc (by simp)
    · rw [sampleClock_written _ hst.range, sampleFields_instant]
    · have := nearest_spec (v := r.days * 10 ^ 8) (by have := h.epoch.1; nlinarith)
      obtain ⟨hd1, hd2⟩ := abs_le.mp this
      unfold nearestInstant epoch1949
      rw [abs_le]
      push_cast
      generalize (nearest (r.days * 10 ^ 8) : ℝ) = k at hd1 hd2 ⊢
      norm_num at hd1 hd2 ⊢
      constructor <;> linarith

theorem iss_usable : Usable (864 * ·) issFields := by
  refine ⟨⟨issFields_inRange, by decide, by decide, by decide⟩, by decide, by decide, by decide, by decide, by decide, ?_⟩
  unfold TwoDigitYear
  decide

/-- So the hypotheses of C123 can be met: the element set of the documentation, and the same a day later. -/
example : ∃ ys, tleGetDerived sampleRead samplePrint sampleClock
      (linesOf (setsOf [issFields, { issFields with epochDay := issFields.epochDay + 10 ^ 8 }])) 90 (-45.5) = .ok (linesOf ys) ∧
      List.Forall₂ (Derived sampleClock 90 (-45.5))
        (setsOf [issFields, { issFields with epochDay := issFields.epochDay + 10 ^ 8 }]) ys ∧ getTleCount (linesOf ys) = 2 := by
  have hu : Usable (864 * ·) { issFields with epochDay := issFields.epochDay + 10 ^ 8 } := by
    refine ⟨⟨{ issFields_inRange with epochDay := by decide }, by decide, by decide, by decide⟩, by decide, by decide,
      by decide, by decide, by decide, ?_⟩
    unfold TwoDigitYear
    decide
  refine C123_derived_partial sample_sgp4 _ ?_ 90 (-45.5) _ ?_
  · intro x hx
    simp only [List.mem_cons, List.not_mem_nil, or_false] at hx
    rcases hx with rfl | rfl
    · exact iss_usable
    · exact hu
  · have hok : ∃ w, construct sampleClock
        (linesOf (setsOf [issFields, { issFields with epochDay := issFields.epochDay + 10 ^ 8 }])) = .ok w := by
      rw [C18_accepted_iff]
      refine ⟨setsOf [issFields, { issFields with epochDay := issFields.epochDay + 10 ^ 8 }], by simp [setsOf], rfl, ?_,
        [864 * issFields.instant, 864 * Fields.instant { issFields with epochDay := issFields.epochDay + 10 ^ 8 }], ?_, ?_⟩
      · intro p hp
        simp only [setsOf, List.map_cons, List.map_nil, List.mem_cons, List.not_mem_nil, or_false] at hp
        rcases hp with rfl | rfl
        · exact C20_written_accepted _ iss_usable.standard.range
        · exact C20_written_accepted _ hu.standard.range
      · exact .cons (sampleClock_written _ iss_usable.standard.range _) (.cons (sampleClock_written _ hu.standard.range _) .nil)
      · decide
    obtain ⟨w, hw⟩ := hok
    rw [hw, C18_unchanged _ _ _ hw]

example := C123_identity_false sample_sgp4 issFields iss_usable (by decide) 10 20

end Tatc.Props
