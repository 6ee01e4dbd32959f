import Verif.Props.MeanAnomaly
import Verif.Props.Access
import Verif.Props.TleFields
import Verif.Spec.Export

/-!
# C90 to C92: an orbit and its element set

`ex` and `epoch` are the printing and the reading of the sgp4 package, under the contract `Exporter`.
-/

namespace Tatc.Props
open Tatc.Orbit Tatc.Num Tatc.Spec Tatc.Tle Tatc.Text Tatc.Geometry

theorem degrees_radians (x : ℝ) : degrees (radians x) = x := by
  have := Real.pi_pos
  unfold degrees radians; field_simp

/-- One element set is accepted when its lines are well formed and its epoch can be read. -/
theorem construct_pair (epoch : Line → Line → Except PyErr Int) (l1 l2 : Line) (t : Int)
    (h : ElementSet l1 l2) (he : epoch l1 l2 = .ok t) : construct epoch [l1, l2] = .ok [l1, l2] := by
  obtain ⟨w, hw⟩ := (C18_accepted_iff epoch [l1, l2]).mpr
    ⟨[(l1, l2)], by simp, by simp, by simpa using h, [t], by simpa using he, by simp⟩
  rw [hw, C18_unchanged epoch _ _ hw]

/-- A line in the syntax has no NUL character. -/
theorem replaceNul_line1 {l : Line} (h : Line1Syntax l) : replaceNul l = l := by
  have hno : ∀ c ∈ l, c ≠ '\x00' := by
    intro c hc hz
    obtain ⟨i, hi, hg⟩ := List.mem_iff_getElem.mp hc
    have hcol : col l i = '\x00' := by
      unfold col; rw [List.getD_eq_getElem?_getD, List.getElem?_eq_getElem hi, hg, hz]; rfl
    have hlt : i < 69 := h.length ▸ hi
    have bd : ∀ {c}, BlankOrDigit c → c ≠ '\x00' := by
      rintro c (h | h) rfl
      · exact absurd h (by decide)
      · exact absurd h.1 (by decide)
    have up : ∀ {c}, Upper c → c ≠ '\x00' := by
      rintro c h rfl
      exact absurd h.1 (by decide)
    have cases : ∀ i < 69, i = 0 ∨ i ∈ [1, 8, 17, 32, 43, 52, 61, 63] ∨ i = 2 ∨
        i ∈ [3, 4, 5, 6, 9, 10, 11, 12, 13, 18, 19, 20, 21, 22, 24, 25, 26, 27, 28, 29, 30, 31,
          36, 37, 38, 39, 40, 41, 42, 45, 46, 47, 48, 49, 51, 54, 55, 56, 57, 58, 60, 62, 64, 65, 66, 67, 68] ∨
        i = 7 ∨ i ∈ [14, 15, 16] ∨ i = 23 ∨ i ∈ [44, 53] ∨ i ∈ [50, 59] ∨ i = 33 ∨ i = 34 ∨ i = 35 := by
      decide
    rcases cases i hlt with rfl | hm | rfl | hm | rfl | hm | rfl | hm | hm | rfl | rfl | rfl
    · rw [h.number] at hcol; exact absurd hcol (by decide)
    · rw [h.blanks i hm] at hcol; exact absurd hcol (by decide)
    · rcases h.catalogFirst with hh | hh
      · exact bd hh hcol
      · exact up hh.1 hcol
    · exact bd (h.digits i hm) hcol
    · exact up h.classification hcol
    · rcases h.piece i hm with hh | hh
      · rw [hh] at hcol; exact absurd hcol (by decide)
      · exact up hh hcol
    · rw [h.point] at hcol; exact absurd hcol (by decide)
    · rcases h.signs i hm with hh | hh | hh <;> rw [hh] at hcol <;> exact absurd hcol (by decide)
    · rcases h.exponents i hm with hh | hh <;> rw [hh] at hcol <;> exact absurd hcol (by decide)
    · rcases h.ndot with ⟨hh, -, -⟩ | ⟨hh, -, -⟩
      · rcases hh with hh | hh | hh | hh <;> rw [hh] at hcol <;> exact absurd hcol (by decide)
      · rw [hh] at hcol; exact absurd hcol (by decide)
    · rcases h.ndot with ⟨-, hh, -⟩ | ⟨-, hh, -⟩
      · rw [hh] at hcol; exact absurd hcol (by decide)
      · rcases hh with hh | hh | hh <;> rw [hh] at hcol <;> exact absurd hcol (by decide)
    · rcases h.ndot with ⟨-, -, hh⟩ | ⟨-, -, hh⟩
      · exact bd hh hcol
      · rw [hh] at hcol; exact absurd hcol (by decide)
  unfold replaceNul
  conv_rhs => rw [← List.map_id l]
  apply List.map_congr_left
  intro c hc
  simp [hno c hc]

/-- Replacing the NUL character restores an unset classification. -/
theorem replaceNul_unset {l : Line} (h : Line1Syntax l) (hu : col l 7 = 'U') :
    replaceNul (l.set 7 '\x00') = l := by
  have h1 : replaceNul (l.set 7 '\x00') = (replaceNul l).set 7 'U' := by
    unfold replaceNul
    rw [List.map_set]
    rfl
  rw [h1, replaceNul_line1 h]
  have h7 : 7 < l.length := by rw [h.length]; norm_num
  have : l[7] = 'U' := by
    have h2 := hu
    unfold col at h2
    rw [List.getD_eq_getElem?_getD, List.getElem?_eq_getElem h7] at h2
    exact h2
  rw [← this, List.set_getElem_self]

/-- Elements that fit are exported, and the accessors read them. -/
theorem export_reads {ex : Satrec → Line × Line} {epoch : Line → Line → Except PyErr Int}
    (hx : Exporter ex epoch) (s : Satrec) (hs : InFormat s) (t : Int)
    (ht : s.days = ((t - epoch1949 : Int) : ℝ) / 86400000000) :
    ∃ l1 l2, exportTle ex epoch s = .ok [l1, l2] ∧
      Describes epoch l1 l2 t (degrees s.inclo) (degrees s.nodeo) s.ecco (degrees s.argpo) (degrees s.mo)
        (s.no * 1440 / (2 * Real.pi)) := by
  obtain ⟨x, hr, hl2, hi, hn, he, hp, hm, hmm, l1, hl1, hc1, hu, hset1, e, hep, hclose⟩ := hx.fits s hs
  have hnul : replaceNul (ex s).1 = l1 := by
    rcases hset1 with h | h <;> rw [h]
    · exact replaceNul_line1 hl1
    · exact replaceNul_unset hl1 hu
  have hset := C20_written_accepted x hr
  obtain ⟨-, -, -, -, -, -, -, -, ri, rn, re, rp, rm, rmm, -⟩ := C20_round_trip_partial x hr
  refine ⟨l1, (ex s).2, ?_, ?_⟩
  · show construct epoch [replaceNul (ex s).1, (ex s).2] = _
    rw [hnul]
    refine construct_pair epoch _ _ e ⟨hl1, ?_, hc1, ?_⟩ hep
    · rw [hl2]; exact hset.line2
    · rw [hl2]; exact hset.sum2
  · rw [hl2] at hep ⊢
    refine ⟨⟨_, ri, ?_⟩, ⟨_, rn, ?_⟩, ⟨_, re, ?_⟩, ⟨_, rp, ?_⟩, ⟨_, rm, ?_⟩, ⟨_, rmm, ?_⟩, e, hep, ?_⟩
    · push_cast; exact hi
    · push_cast; exact hn
    · push_cast; exact he
    · push_cast; exact hp
    · push_cast; exact hm
    · push_cast; exact hmm
    · rw [ht] at hclose
      have : (t : ℝ) = epoch1949 + ((t - epoch1949 : Int) : ℝ) / 86400000000 * 86400000000 := by
        push_cast; ring
      rw [← this] at hclose
      exact_mod_cast hclose

/-- An orbit above the surface makes fewer than 99 revolutions per day. -/
theorem meanMotion_lt (altitude : ℝ) (h : 0 ≤ altitude) :
    ∃ mm, Orbit.meanMotion altitude = .ok mm ∧ 0 < mm ∧ mm ≤ 99 := by
  obtain ⟨mm, hok, hpos⟩ := meanMotion_ok altitude h
  refine ⟨mm, hok, hpos, ?_⟩
  have hmul := C49_mean_motion altitude mm hok
  have hR := meanRadius_gt
  have ha : 0 < meanRadius + altitude := by linarith
  have hsq : Real.sqrt (mu / (meanRadius + altitude) ^ 3) ≤ 1 / 500 := by
    rw [Real.sqrt_le_left (by norm_num), div_le_iff₀ (by positivity)]
    have : (6000000 : ℝ) ^ 3 ≤ (meanRadius + altitude) ^ 3 := pow_le_pow_left₀ (by norm_num) (by linarith) 3
    unfold mu
    nlinarith
  have hr := rate_pos ha
  have hsec : 3000 ≤ orbitPeriodSeconds altitude := by
    unfold orbitPeriodSeconds
    have hpi := Real.pi_gt_d2
    simp only
    rw [le_div_iff₀ hr]; nlinarith
  have hround := abs_round_sub (orbitPeriodSeconds altitude * 1000000)
  have hper : 2000 ≤ (orbitPeriod altitude : ℝ) / 1000000 := by
    have := (abs_le.mp hround).1
    rw [le_div_iff₀ (by norm_num)]
    show (2000 : ℝ) * 1000000 ≤ (roundHalfEven (orbitPeriodSeconds altitude * 1000000) : ℝ)
    linarith
  nlinarith

/-- An epoch from the year 1957 to the year 2056, the years an element set can hold. -/
def TwoDigitYear (t : Int) : Prop := -410227200000000 ≤ t ∧ t ≤ 2745273600000000

theorem days_range {t : Int} (h : TwoDigitYear t) :
    2558 ≤ ((t - epoch1949 : Int) : ℝ) / 86400000000 ∧ ((t - epoch1949 : Int) : ℝ) / 86400000000 ≤ 39080 := by
  obtain ⟨h0, h1⟩ := h
  have h0' : (-410227200000000 : ℝ) ≤ t := by exact_mod_cast h0
  have h1' : (t : ℝ) ≤ 2745273600000000 := by exact_mod_cast h1
  unfold epoch1949
  constructor
  · rw [le_div_iff₀ (by norm_num)]; push_cast; linarith
  · rw [div_le_iff₀ (by norm_num)]; push_cast; linarith

theorem motion_cancel (n : ℝ) : n * 2 * Real.pi / 1440 * 1440 / (2 * Real.pi) = n := by
  have := Real.pi_pos
  field_simp

theorem period_cancel (p : ℝ) (hp : 0 < p) : 2 * Real.pi / (p / 60) * 1440 / (2 * Real.pi) = 86400 / p := by
  have := Real.pi_pos
  field_simp
  norm_num

/-- The elements of a Keplerian orbit. -/
theorem keplerian_describes {ex : Satrec → Line × Line} {epoch : Line → Line → Except PyErr Int}
    (hx : Exporter ex epoch) (o : Keplerian) (hv : Keplerian.Valid o) (he : o.eccentricity ≤ 3 / 4)
    (ha : 0 ≤ o.altitude) (ht : TwoDigitYear o.epoch) :
    ∃ l1 l2 mm, o.toTle ex epoch = .ok [l1, l2] ∧ Orbit.meanMotion o.altitude = .ok mm ∧
      Describes epoch l1 l2 o.epoch o.inclination o.raan o.eccentricity o.perigee o.meanAnomaly mm := by
  obtain ⟨mm, hok, hpos, hlt⟩ := meanMotion_lt o.altitude ha
  obtain ⟨⟨hta, hin, hra⟩, he0, hpe⟩ := hv
  let s : Satrec := ⟨((o.epoch - epoch1949 : Int) : ℝ) / 86400000000, o.eccentricity, radians o.perigee,
    radians o.inclination, radians o.meanAnomaly, mm * 2 * Real.pi / 1440, radians o.raan⟩
  have hsat : o.satrec = .ok s := by
    unfold Keplerian.satrec daysSince1949
    rw [hok]; rfl
  have hM : InTurn o.meanAnomaly := trueToMean_inTurn he0 he hta
  have hf : InFormat s := by
    refine ⟨?_, ?_, ?_, ?_, ⟨he0, by show o.eccentricity ≤ _; norm_num; linarith⟩, ?_, days_range ht⟩
    · show 0 ≤ degrees (radians o.inclination) ∧ _ < _
      rw [degrees_radians]; exact ⟨hin.1, by linarith [hin.2]⟩
    · show 0 ≤ degrees (radians o.raan) ∧ degrees (radians o.raan) < 360
      rw [degrees_radians]; exact hra
    · show 0 ≤ degrees (radians o.perigee) ∧ degrees (radians o.perigee) < 360
      rw [degrees_radians]; exact hpe
    · show 0 ≤ degrees (radians o.meanAnomaly) ∧ degrees (radians o.meanAnomaly) < 360
      rw [degrees_radians]; exact hM
    · show 0 ≤ mm * 2 * Real.pi / 1440 * 1440 / (2 * Real.pi) ∧ mm * 2 * Real.pi / 1440 * 1440 / (2 * Real.pi) ≤ 99
      rw [motion_cancel]; exact ⟨hpos.le, hlt⟩
  obtain ⟨l1, l2, h1, h2⟩ := export_reads hx s hf o.epoch rfl
  refine ⟨l1, l2, mm, ?_, hok, ?_⟩
  · unfold Keplerian.toTle
    rw [hsat]; exact h1
  · simp only [s, degrees_radians, motion_cancel] at h2
    exact h2

/-- C90 for circular orbits, in full: every accepted circular orbit above the surface with an epoch from
1957 to 2056 converts, and the element set describes it, with its own mean motion, no eccentricity and the
true anomaly as mean anomaly. -/
theorem C90_circular {ex : Satrec → Line × Line} {epoch : Line → Line → Except PyErr Int}
    (hx : Exporter ex epoch) (o : Circular) (hv : Circular.Valid o) (ha : 0 ≤ o.altitude)
    (ht : TwoDigitYear o.epoch) :
    ∃ l1 l2 mm, o.toTle ex epoch = .ok [l1, l2] ∧ Orbit.meanMotion o.altitude = .ok mm ∧
      Describes epoch l1 l2 o.epoch o.inclination o.raan 0 0 o.trueAnomaly mm := by
  have hk : Keplerian.Valid ⟨o, 0, 0⟩ := ⟨hv, le_rfl, le_rfl, by norm_num⟩
  obtain ⟨l1, l2, mm, h1, h2, h3⟩ := keplerian_describes hx ⟨o, 0, 0⟩ hk (by norm_num) ha ht
  refine ⟨l1, l2, mm, ?_, h2, ?_⟩
  · have hm := (keplerian_valid_iff ⟨o, 0, 0⟩).mp hk
    unfold Circular.toTle Circular.satrec
    rw [show Keplerian.make o.altitude o.trueAnomaly o.epoch o.inclination o.raan 0 0 = .ok ⟨o, 0, 0⟩ from hm]
    exact h1
  · have : Keplerian.meanAnomaly ⟨o, 0, 0⟩ = o.trueAnomaly := trueToMean_zero _
    rw [this] at h3
    exact h3

/-- C90 for sun-synchronous orbits, in full. -/
theorem C90_sun_synchronous {ex : Satrec → Line × Line} {epoch : Line → Line → Except PyErr Int}
    (hx : Exporter ex epoch) (sun : Int → ℝ) (o : Sso) (hv : Sso.Valid o) (ht : TwoDigitYear o.epoch) :
    ∃ l1 l2 mm, o.toTle ex epoch sun = .ok [l1, l2] ∧ Orbit.meanMotion o.altitude = .ok mm ∧
      Describes epoch l1 l2 o.epoch o.inclination (o.raan sun) 0 0 o.trueAnomaly mm := by
  obtain ⟨hi0, hi1⟩ := sso_inclination_range o hv
  have hc : Circular.Valid ⟨o.altitude, o.trueAnomaly, o.epoch, o.inclination, o.raan sun⟩ :=
    ⟨hv.1, ⟨by linarith, hi1⟩, npMod_inTurn _⟩
  obtain ⟨l1, l2, mm, h1, h2, h3⟩ := C90_circular hx _ hc hv.2.1 ht
  exact ⟨l1, l2, mm, h1, h2, h3⟩

/-- C90 for Keplerian orbits.  Full statement: every accepted orbit.  Proved for eccentricities up to 3/4;
missing: higher ones, where it can fail (`C90_eccentric_false`). -/
theorem C90_keplerian_partial {ex : Satrec → Line × Line} {epoch : Line → Line → Except PyErr Int}
    (hx : Exporter ex epoch) (o : Keplerian) (hv : Keplerian.Valid o) (he : o.eccentricity ≤ 3 / 4)
    (ha : 0 ≤ o.altitude) (ht : TwoDigitYear o.epoch) :
    ∃ l1 l2 mm, o.toTle ex epoch = .ok [l1, l2] ∧ Orbit.meanMotion o.altitude = .ok mm ∧
      Describes epoch l1 l2 o.epoch o.inclination o.raan o.eccentricity o.perigee o.meanAnomaly mm :=
  keplerian_describes hx o hv he ha ht

/-- What the schema checks of a Molniya orbit. -/
def Molniya.Valid (o : Molniya) : Prop :=
  InTurn o.trueAnomaly ∧ (0 ≤ o.inclination ∧ o.inclination < 180) ∧ InTurn o.raan ∧ 0 < o.period ∧ InTurn o.perigee

theorem molniya_valid_iff (o : Molniya) : Molniya.Valid o ↔
    Molniya.make o.altitude o.trueAnomaly o.epoch o.inclination o.raan (some o.period) o.perigee = .ok o := by
  rw [molniya_make_ok]
  exact ⟨fun h => ⟨h.1, h.2.1, h.2.2.1, h.2.2.2.1, h.2.2.2.2, rfl⟩,
    fun h => ⟨h.1, h.2.1, h.2.2.1, h.2.2.2.1, h.2.2.2.2.1⟩⟩

/-- What the schema checks of a Tundra orbit. -/
def Tundra.Valid (o : Tundra) : Prop :=
  InTurn o.trueAnomaly ∧ (0 ≤ o.inclination ∧ o.inclination < 180) ∧ InTurn o.raan ∧ 0 < o.period ∧
    InTurn o.perigee ∧ 0 ≤ o.eccentricity

theorem tundra_valid_iff (o : Tundra) : Tundra.Valid o ↔
    Tundra.make o.altitude o.trueAnomaly o.epoch o.inclination o.raan (some o.period) o.perigee o.eccentricity =
      .ok o := by
  rw [tundra_make_ok]
  exact ⟨fun h => ⟨h.1, h.2.1, h.2.2.1, h.2.2.2.1, h.2.2.2.2.1, h.2.2.2.2.2, rfl⟩,
    fun h => ⟨h.1, h.2.1, h.2.2.1, h.2.2.2.1, h.2.2.2.2.1, h.2.2.2.2.2.1⟩⟩

theorem period_format {p : ℝ} (hp : 900 ≤ p) : 0 ≤ 86400 / p ∧ 86400 / p ≤ 99 :=
  ⟨by positivity, by rw [div_le_iff₀ (by linarith)]; linarith⟩

/-- C90 for Molniya orbits.  Full statement: every accepted orbit.  Proved for periods of a quarter of an
hour or more and eccentricities between 0 and 3/4 (which depend on the altitude and the period). -/
theorem C90_molniya_partial {ex : Satrec → Line × Line} {epoch : Line → Line → Except PyErr Int}
    (hx : Exporter ex epoch) (o : Molniya) (hv : Molniya.Valid o) (he0 : 0 ≤ o.eccentricity)
    (he1 : o.eccentricity ≤ 3 / 4) (hp : 900 ≤ o.period) (ht : TwoDigitYear o.epoch) :
    ∃ l1 l2, o.toTle ex epoch = .ok [l1, l2] ∧
      Describes epoch l1 l2 o.epoch o.inclination o.raan o.eccentricity o.perigee o.meanAnomaly
        (86400 / o.period) := by
  obtain ⟨hta, hin, hra, hper, hpe⟩ := hv
  let s : Satrec := ⟨((o.epoch - epoch1949 : Int) : ℝ) / 86400000000, o.eccentricity, radians o.perigee,
    radians o.inclination, radians o.meanAnomaly, 2 * Real.pi / (o.period / 60), radians o.raan⟩
  have hsat : o.satrec = .ok s := rfl
  have hM : InTurn o.meanAnomaly := trueToMean_inTurn he0 he1 hta
  have hf : InFormat s := by
    refine ⟨?_, ?_, ?_, ?_, ⟨he0, by show o.eccentricity ≤ _; norm_num; linarith⟩, ?_, days_range ht⟩
    · show 0 ≤ degrees (radians o.inclination) ∧ _ < _
      rw [degrees_radians]; exact ⟨hin.1, by linarith [hin.2]⟩
    · show 0 ≤ degrees (radians o.raan) ∧ degrees (radians o.raan) < 360
      rw [degrees_radians]; exact hra
    · show 0 ≤ degrees (radians o.perigee) ∧ degrees (radians o.perigee) < 360
      rw [degrees_radians]; exact hpe
    · show 0 ≤ degrees (radians o.meanAnomaly) ∧ degrees (radians o.meanAnomaly) < 360
      rw [degrees_radians]; exact hM
    · show 0 ≤ 2 * Real.pi / (o.period / 60) * 1440 / (2 * Real.pi) ∧
        2 * Real.pi / (o.period / 60) * 1440 / (2 * Real.pi) ≤ 99
      rw [period_cancel _ hper]; exact period_format hp
  obtain ⟨l1, l2, h1, h2⟩ := export_reads hx s hf o.epoch rfl
  refine ⟨l1, l2, ?_, ?_⟩
  · unfold Molniya.toTle
    rw [hsat]; exact h1
  · simp only [s, degrees_radians, period_cancel _ hper] at h2
    exact h2

/-- C90 for Tundra orbits, in the same way. -/
theorem C90_tundra_partial {ex : Satrec → Line × Line} {epoch : Line → Line → Except PyErr Int}
    (hx : Exporter ex epoch) (o : Tundra) (hv : Tundra.Valid o) (he1 : o.eccentricity ≤ 3 / 4)
    (hp : 900 ≤ o.period) (ht : TwoDigitYear o.epoch) :
    ∃ l1 l2, o.toTle ex epoch = .ok [l1, l2] ∧
      Describes epoch l1 l2 o.epoch o.inclination o.raan o.eccentricity o.perigee o.meanAnomaly
        (86400 / o.period) := by
  obtain ⟨hta, hin, hra, hper, hpe, he0⟩ := hv
  let s : Satrec := ⟨((o.epoch - epoch1949 : Int) : ℝ) / 86400000000, o.eccentricity, radians o.perigee,
    radians o.inclination, radians o.meanAnomaly, 2 * Real.pi / (o.period / 60), radians o.raan⟩
  have hsat : o.satrec = .ok s := rfl
  have hM : InTurn o.meanAnomaly := trueToMean_inTurn he0 he1 hta
  have hf : InFormat s := by
    refine ⟨?_, ?_, ?_, ?_, ⟨he0, by show o.eccentricity ≤ _; norm_num; linarith⟩, ?_, days_range ht⟩
    · show 0 ≤ degrees (radians o.inclination) ∧ _ < _
      rw [degrees_radians]; exact ⟨hin.1, by linarith [hin.2]⟩
    · show 0 ≤ degrees (radians o.raan) ∧ degrees (radians o.raan) < 360
      rw [degrees_radians]; exact hra
    · show 0 ≤ degrees (radians o.perigee) ∧ degrees (radians o.perigee) < 360
      rw [degrees_radians]; exact hpe
    · show 0 ≤ degrees (radians o.meanAnomaly) ∧ degrees (radians o.meanAnomaly) < 360
      rw [degrees_radians]; exact hM
    · show 0 ≤ 2 * Real.pi / (o.period / 60) * 1440 / (2 * Real.pi) ∧
        2 * Real.pi / (o.period / 60) * 1440 / (2 * Real.pi) ≤ 99
      rw [period_cancel _ hper]; exact period_format hp
  obtain ⟨l1, l2, h1, h2⟩ := export_reads hx s hf o.epoch rfl
  refine ⟨l1, l2, ?_, ?_⟩
  · unfold Tundra.toTle
    rw [hsat]; exact h1
  · simp only [s, degrees_radians, period_cancel _ hper] at h2
    exact h2

/-- C90 is false of eccentric orbits: an accepted orbit of eccentricity 0.95 whose mean anomaly (the truncated
series) is negative; whatever the exporter, its element set is rejected. -/
theorem C90_eccentric_false {ex : Satrec → Line × Line} {epoch : Line → Line → Except PyErr Int}
    (hx : Exporter ex epoch) :
    ∃ o : Keplerian, Keplerian.Valid o ∧ 0 ≤ o.altitude ∧ o.eccentricity < 1 ∧ TwoDigitYear o.epoch ∧
      o.meanAnomaly < 0 ∧ ∀ w, o.toTle ex epoch ≠ .ok w := by
  let o : Keplerian := ⟨⟨500000, 90, 0, 0, 0⟩, 0.95, 0⟩
  have hpi := Real.pi_pos
  have hpi1 := Real.pi_gt_d2
  have hpi2 := Real.pi_lt_d2
  have hv : Keplerian.Valid o := by
    refine ⟨⟨⟨?_, ?_⟩, ⟨?_, ?_⟩, ?_, ?_⟩, ?_, ?_, ?_⟩ <;> norm_num [o]
  have hM : o.meanAnomaly = degrees (Real.pi / 2 - 1.9 + 0.95 ^ 3 / 3) := by
    show trueToMean 90 0.95 = _
    rw [trueToMean_series, meanSeries_eq, show radians 90 = Real.pi / 2 by unfold radians; ring,
      Real.sin_pi_div_two, Real.cos_pi_div_two]
    unfold meanFactor
    congr 1
    norm_num
    ring
  have hM0 : -99 < o.meanAnomaly ∧ o.meanAnomaly < -1 := by
    rw [hM]
    unfold degrees
    constructor
    · rw [mul_div_assoc', lt_div_iff₀ hpi]; norm_num; linarith
    · rw [mul_div_assoc', div_lt_iff₀ hpi]; norm_num; linarith
  obtain ⟨mm, hok, hpos, hlt⟩ := meanMotion_lt 500000 (by norm_num)
  let s : Satrec := ⟨((0 - epoch1949 : Int) : ℝ) / 86400000000, 0.95, radians 0,
    radians 0, radians o.meanAnomaly, mm * 2 * Real.pi / 1440, radians 0⟩
  have hsat : o.satrec = .ok s := by
    unfold Keplerian.satrec daysSince1949
    rw [show Orbit.meanMotion o.altitude = .ok mm from hok]; rfl
  have hy : TwoDigitYear 0 := ⟨by norm_num, by norm_num⟩
  have hf : InFormat { s with mo := 0 } := by
    refine ⟨?_, ?_, ?_, ?_, ?_, ?_, days_range hy⟩
    · show 0 ≤ degrees (radians 0) ∧ degrees (radians 0) < 360
      rw [degrees_radians]; norm_num
    · show 0 ≤ degrees (radians 0) ∧ degrees (radians 0) < 360
      rw [degrees_radians]; norm_num
    · show 0 ≤ degrees (radians 0) ∧ degrees (radians 0) < 360
      rw [degrees_radians]; norm_num
    · show 0 ≤ degrees 0 ∧ degrees 0 < 360
      unfold degrees; norm_num
    · show (0 : ℝ) ≤ 0.95 ∧ (0.95 : ℝ) ≤ _
      norm_num
    · show 0 ≤ mm * 2 * Real.pi / 1440 * 1440 / (2 * Real.pi) ∧ mm * 2 * Real.pi / 1440 * 1440 / (2 * Real.pi) ≤ 99
      rw [motion_cancel]; exact ⟨hpos.le, hlt⟩
  have hminus := hx.negative s hf (by show -99 < degrees (radians o.meanAnomaly); rw [degrees_radians]; exact hM0.1)
    (by show degrees (radians o.meanAnomaly) < -1; rw [degrees_radians]; exact hM0.2)
  refine ⟨o, hv, by norm_num [o], by norm_num [o], hy, by linarith [hM0.2], ?_⟩
  intro w hw
  unfold Keplerian.toTle at hw
  rw [hsat] at hw
  have hw' : construct epoch [replaceNul (ex s).1, (ex s).2] = .ok w := hw
  obtain ⟨-, hval, -⟩ := (construct_ok epoch _ w).mp hw'
  have hset : ElementSet (replaceNul (ex s).1) (ex s).2 := by
    unfold isValidTle at hval
    simp only [bind_eq_ok] at hval
    obtain ⟨⟨⟩, h1, -⟩ := hval
    exact (checkPair_iff _ _).mp h1
  obtain ⟨i, hi, hget⟩ := List.mem_iff_getElem.mp hminus
  have hlen : (slice 43 46 (ex s).2).length ≤ 3 := by unfold slice; simp
  have hcol : col (ex s).2 (43 + i) = '-' := by
    unfold col
    rw [← hget]
    unfold slice at hi ⊢
    simp only [List.length_take, List.length_drop] at hi
    rw [List.getElem_take, List.getElem_drop, List.getD_eq_getElem?_getD, List.getElem?_eq_getElem (by omega)]
    rfl
  have hi3 : i < 3 := by omega
  have := hset.line2.digits (43 + i) (by omega) (by omega) (by
    simp only [List.mem_cons, List.not_mem_nil, or_false]; omega)
  rw [hcol] at this
  rcases this with h | h
  · exact absurd h (by decide)
  · exact absurd h.1 (by decide)

/-- C90 is false of orbits without an epoch, or with an epoch without time zone, which the schema accepts:
converting them raises `TypeError`. -/
theorem C90_epoch_false (ex : Satrec → Line × Line) (epoch : Line → Line → Except PyErr Int)
    (k : Keplerian) (m : Molniya) (u : Tundra) (t : Int) :
    k.toTle ex epoch .missing = .error .typeError ∧ k.toTle ex epoch (.naive t) = .error .typeError ∧
    m.toTle ex epoch .missing = .error .typeError ∧ m.toTle ex epoch (.naive t) = .error .typeError ∧
    u.toTle ex epoch .missing = .error .typeError ∧ u.toTle ex epoch (.naive t) = .error .typeError :=
  ⟨rfl, rfl, rfl, rfl, rfl, rfl⟩

/-! ### The contract can be met -/

/-- The nearest natural number. -/
noncomputable def nearest (v : ℝ) : Nat := ⌊v + 1 / 2⌋₊

theorem nearest_spec {v : ℝ} (hv : 0 ≤ v) : |(nearest v : ℝ) - v| ≤ 1 / 2 := by
  have h1 := Nat.floor_le (by linarith : 0 ≤ v + 1 / 2)
  have h2 := Nat.lt_floor_add_one (v + 1 / 2)
  unfold nearest
  rw [abs_le]; constructor <;> linarith

theorem nearest_lt {v : ℝ} {n : Nat} (hn : v + 1 / 2 < n) (hv : 0 ≤ v) : nearest v < n := by
  unfold nearest
  rw [Nat.floor_lt (by linarith)]; exact hn

theorem nearest_div {v : ℝ} (k : ℝ) (hk : 0 < k) (hv : 0 ≤ v) : |(nearest (v * k) : ℝ) / k - v| ≤ 1 / (2 * k) := by
  have h := nearest_spec (mul_nonneg hv hk.le)
  have : (nearest (v * k) : ℝ) / k - v = ((nearest (v * k) : ℝ) - v * k) / k := by field_simp
  rw [this, abs_div, abs_of_pos hk, div_le_div_iff₀ hk (by positivity)]
  nlinarith

/-- The fields of an element set with these elements; the days since 1949 are written over the two
digits of the year and the day. -/
noncomputable def writtenFields (s : Satrec) : Fields :=
  { issFields with
    epochYear := nearest (s.days * 10 ^ 8) / 10 ^ 11
    epochDay := nearest (s.days * 10 ^ 8) % 10 ^ 11
    inclination := nearest (degrees s.inclo * 10 ^ 4)
    raan := nearest (degrees s.nodeo * 10 ^ 4)
    eccentricity := nearest (s.ecco * 10 ^ 7)
    perigee := nearest (degrees s.argpo * 10 ^ 4)
    meanAnomaly := nearest (degrees s.mo * 10 ^ 4)
    meanMotion := nearest (s.no * 1440 / (2 * Real.pi) * 10 ^ 8) }

theorem writtenFields_inRange (s : Satrec) (h : InFormat s) : (writtenFields s).InRange := by
  have ang : ∀ x : ℝ, 0 ≤ x ∧ x < 360 → nearest (x * 10 ^ 4) < 10 ^ 7 := by
    intro x hx
    apply nearest_lt
    · push_cast; linarith [hx.2]
    · have := hx.1; positivity
  have hd : nearest (s.days * 10 ^ 8) < 10 ^ 13 := by
    apply nearest_lt
    · push_cast; linarith [h.epoch.2]
    · have := h.epoch.1; nlinarith
  exact { issFields_inRange with
    epochYear := by
      show nearest (s.days * 10 ^ 8) / 10 ^ 11 < 10 ^ 2
      rw [Nat.div_lt_iff_lt_mul (by norm_num)]; exact lt_of_lt_of_le hd (by norm_num)
    epochDay := Nat.mod_lt _ (by norm_num)
    inclination := ang _ h.inclination
    raan := ang _ h.node
    perigee := ang _ h.perigee
    meanAnomaly := ang _ h.anomaly
    eccentricity := by
      apply nearest_lt
      · push_cast; have := h.eccentricity.2; norm_num at this ⊢; linarith
      · have := h.eccentricity.1; positivity
    meanMotion := by
      apply nearest_lt
      · push_cast; have := h.motion.2; norm_num at this ⊢; linarith
      · have := h.motion.1; positivity }

/-- An exporter and a reader of epochs that meet the contract. -/
noncomputable def sampleEx (s : Satrec) : Line × Line := by
  classical
  exact if InFormat s then ((writtenFields s).line1.set 7 '\x00', (writtenFields s).line2)
    else ([], List.replicate 69 '-')

def sampleEpoch (l1 _l2 : Line) : Except PyErr Int := do
  let y ← pyInt (slice 18 20 l1)
  let d ← pyFloat (slice 20 32 l1)
  return epoch1949 + (y * 10 ^ 11 + ⌊d * 10 ^ 8⌋) * 864

theorem sampleEpoch_written (x : Fields) (h : x.InRange) (l : Line) :
    sampleEpoch x.line1 l = .ok (epoch1949 + ((x.epochYear : Int) * 10 ^ 11 + x.epochDay) * 864) := by
  have l1 := fun k a b => slice_line x.body1 _ (body1_lengths x h) k a b
  have s : slice 18 20 x.line1 = field '0' 2 x.epochYear := l1 8 18 20 (by simp [Fields.body1]) rfl rfl
  have s' : slice 20 32 x.line1 = fixed x.fill 3 8 x.epochDay := l1 9 20 32 (by simp [Fields.body1]) rfl rfl
  unfold sampleEpoch
  rw [s, s', pyInt_field '0' (Or.inr rfl), pyFloat_fixed _ h.fill _ _ _ (by decide)]
  have : ⌊(x.epochDay : ℚ) / 10 ^ 8 * 10 ^ 8⌋ = (x.epochDay : Int) := by
    rw [div_mul_cancel₀ _ (by norm_num)]
    exact Int.floor_natCast _
  simp only [bind, Except.bind, pure, Except.pure, this]

theorem sample_exporter : Exporter sampleEx sampleEpoch where
  fits := by
    intro s h
    have hr := writtenFields_inRange s h
    have hset := C20_written_accepted _ hr
    have he : sampleEx s = ((writtenFields s).line1.set 7 '\x00', (writtenFields s).line2) := if_pos h
    refine ⟨writtenFields s, hr, by rw [he], ?_, ?_, ?_, ?_, ?_, ?_, (writtenFields s).line1, hset.line1, hset.sum1, ?_,
      Or.inr (by rw [he]),
      epoch1949 + (((writtenFields s).epochYear : Int) * 10 ^ 11 + (writtenFields s).epochDay) * 864, ?_, ?_⟩
    · refine (nearest_div (10 ^ 4) (by norm_num) h.inclination.1).trans (by norm_num)
    · refine (nearest_div (10 ^ 4) (by norm_num) h.node.1).trans (by norm_num)
    · refine (nearest_div (10 ^ 7) (by norm_num) h.eccentricity.1).trans (by norm_num)
    · refine (nearest_div (10 ^ 4) (by norm_num) h.perigee.1).trans (by norm_num)
    · refine (nearest_div (10 ^ 4) (by norm_num) h.anomaly.1).trans (by norm_num)
    · refine (nearest_div (10 ^ 8) (by norm_num) h.motion.1).trans (by norm_num)
    · have h7 : slice 7 8 (writtenFields s).line1 = [(writtenFields s).classification] :=
        slice_line (writtenFields s).body1 _ (body1_lengths _ hr) 2 7 8 (by simp [Fields.body1]) rfl rfl
      have h69 := hset.line1.length
      have h7' : 7 < (writtenFields s).line1.length := by omega
      unfold slice at h7
      rw [List.drop_eq_getElem_cons h7'] at h7
      simp only [List.take_succ_cons, List.take_zero, List.cons.injEq, and_true, Nat.reduceSub] at h7
      unfold col
      rw [List.getD_eq_getElem?_getD, List.getElem?_eq_getElem h7']
      exact h7
    · exact sampleEpoch_written _ hr _
    · have hk : (((writtenFields s).epochYear : Int) * 10 ^ 11 + (writtenFields s).epochDay) =
          (nearest (s.days * 10 ^ 8) : Int) := by
        have := Nat.div_add_mod (nearest (s.days * 10 ^ 8)) (10 ^ 11)
        show ((nearest (s.days * 10 ^ 8) / 10 ^ 11 : Nat) : Int) * 10 ^ 11 + ((nearest (s.days * 10 ^ 8) % 10 ^ 11 : Nat) : Int) = _
        omega
      rw [hk]
      have := nearest_spec (v := s.days * 10 ^ 8) (by have := h.epoch.1; nlinarith)
      obtain ⟨hd1, hd2⟩ := abs_le.mp this
      rw [abs_le]
      push_cast
      generalize (nearest (s.days * 10 ^ 8) : ℝ) = k at hd1 hd2 ⊢
      generalize (epoch1949 : ℝ) = b
      norm_num at hd1 hd2 ⊢
      constructor <;> linarith
  negative := by
    intro s _ h1 h2
    have hn : ¬ InFormat s := fun h => by have := h.anomaly.1; linarith
    have he : sampleEx s = ([], List.replicate 69 '-') := if_neg hn
    rw [he]
    decide

/-- So the hypotheses of C90 can be met: an inclined circular orbit, an eccentric one, a Molniya orbit. -/
example : ∃ l1 l2 mm, Circular.toTle sampleEx sampleEpoch ⟨500000, 120, 1600000000000000, 51.6, 10⟩ = .ok [l1, l2] ∧
    Orbit.meanMotion 500000 = .ok mm ∧ Describes sampleEpoch l1 l2 1600000000000000 51.6 10 0 0 120 mm :=
  C90_circular sample_exporter ⟨500000, 120, 1600000000000000, 51.6, 10⟩
    (by refine ⟨⟨?_, ?_⟩, ⟨?_, ?_⟩, ?_, ?_⟩ <;> norm_num) (by norm_num) ⟨by norm_num, by norm_num⟩

end Tatc.Props
