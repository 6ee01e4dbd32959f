import Verif.Props.Soc

/-!
# C162: how many satellites streets of coverage need
-/

namespace Tatc.Props
open Tatc.Num Tatc.Geometry Tatc.Spec Tatc.Orbit Tatc.Constellation
open scoped Classical

/-- Both sides of the swath are in view: half of it, as an angle at the centre of the Earth, reaches at most to the horizon
of the altitude. -/
def InSight (altitude swath : ℝ) : Prop :=
  swath / 2 / meanRadius ≤ Real.pi / 2 ∧ meanRadius / (meanRadius + altitude) ≤ Real.cos (swath / 2 / meanRadius)

theorem leastParts_mono {s s' : Nat} {a a' : ℝ} (h : LeastParts s a) (h' : LeastParts s' a') (ha : a ≤ a') : s' ≤ s :=
  h'.2.2 s h.1 (h.2.1.trans ha)

/-- Angles up to half a turn are ordered as their chords. -/
theorem le_of_chord {a b : ℝ} (ha1 : a ≤ Real.pi) (hb0 : 0 ≤ b)
    (h : 2 * meanRadius * Real.sin (a / 2) ≤ 2 * meanRadius * Real.sin (b / 2)) : a ≤ b := by
  have hR := meanRadius_gt
  by_contra hlt
  have := Real.sin_lt_sin_of_lt_of_le_pi_div_two (x := b / 2) (y := a / 2) (by linarith [Real.pi_pos]) (by linarith)
    (by linarith [not_le.1 hlt])
  nlinarith

/-- **C162.** Of two streets of coverage whose swaths are in view, at whatever altitudes and with whatever orbits, that with
the wider swath and footprints packed as far apart or further has at most as many planes, at most as many satellites in each
and at most as many in all. -/
theorem C162_fewer {I : Type} (sun : Int → ℝ) (name name' : List Char) (orbit orbit' : Circular) (instruments instruments' : I)
    (swath swath' packing packing' : ℝ) (c c' : Soc I) (hc : Soc.make name orbit instruments swath packing = .ok c)
    (hc' : Soc.make name' orbit' instruments' swath' packing' = .ok c') (ho : Circular.Valid orbit) (ho' : Circular.Valid orbit')
    (hh : 0 < orbit.altitude) (hh' : 0 < orbit'.altitude) (hs : InSight orbit.altitude swath)
    (hs' : InSight orbit'.altitude swath') (hw : swath ≤ swath') (hp : packing ≤ packing') :
    ∃ (w w' : Walker I) (s s' : Nat) (ms ms' : List (Satellite I)),
      c.walker = .ok w ∧ c'.walker = .ok w' ∧ c.members sun = .ok ms ∧ c'.members sun = .ok ms' ∧
      ms.length = w.planes * s ∧ ms'.length = w'.planes * s' ∧
      w'.planes ≤ w.planes ∧ s' ≤ s ∧ ms'.length ≤ ms.length := by
  have hR := meanRadius_gt
  have hpi := Real.pi_pos
  obtain ⟨w, s, p, ms, a, b, h1, -, -, -, -, -, h2, -, h3, h4, -, h5, h6, h7, h8, h9, h10, h11⟩ :=
    C37_streets sun name orbit instruments swath packing c hc ho hh hs.1 hs.2
  obtain ⟨w', s', p', ms', a', b', h1', -, -, -, -, -, h2', -, h3', h4', -, h5', h6', h7', h8', h9', h10', h11'⟩ :=
    C37_streets sun name' orbit' instruments' swath' packing' c' hc' ho' hh' hs'.1 hs'.2
  unfold Soc.make at hc hc'
  simp only [bind_eq_ok, require_eq_ok, pure, Except.pure, Except.ok.injEq] at hc hc'
  obtain ⟨_, q1, _, q2, _, q3, -⟩ := hc
  obtain ⟨_, q1', _, q2', _, q3', -⟩ := hc'
  have hpi2 : swath / meanRadius ≤ Real.pi := by
    have e : swath / meanRadius = 2 * (swath / 2 / meanRadius) := by field_simp
    rw [e]; linarith [hs.1]
  have hl : swath / 2 / meanRadius ≤ swath' / 2 / meanRadius := by gcongr
  have hl0 : 0 ≤ swath / 2 / meanRadius := by positivity
  have hsin : Real.sin (swath / 2 / meanRadius) ≤ Real.sin (swath' / 2 / meanRadius) :=
    Real.sin_le_sin_of_le_of_le_pi_div_two (by linarith) hs'.1 hl
  have hsin0 : 0 ≤ Real.sin (swath / 2 / meanRadius) := Real.sin_nonneg_of_nonneg_of_le_pi hl0 (by linarith [hs.1])
  have hprod : packing * Real.sin (swath / 2 / meanRadius) ≤ packing' * Real.sin (swath' / 2 / meanRadius) :=
    mul_le_mul hp hsin hsin0 (by linarith)
  have haa : a ≤ a' := by
    refine le_of_chord (by linarith) (by linarith) ?_
    rw [h7, h7']
    nlinarith
  have hbb : b ≤ b' := by
    refine le_of_chord (by linarith) (by linarith) ?_
    rw [h8, h8']
    have h3 : 0 < Real.sqrt 3 / 2 := by positivity
    have := mul_le_mul_of_nonneg_left hprod (by positivity : 0 ≤ Real.sqrt 3 / 2 * (2 * meanRadius))
    nlinarith
  have hss := leastParts_mono h5 h5' haa
  have hpp := leastParts_mono h6 h6' hbb
  refine ⟨w, w', s, s', ms, ms', h1, h1', h3, h3', ?_, ?_, ?_, hss, ?_⟩
  · rw [h4, h2, mul_comm]
  · rw [h4', h2', mul_comm]
  · rw [h2, h2']; exact hpp
  · rw [h4, h4']; exact Nat.mul_le_mul hss hpp

/-- The altitude, and everything else about the orbit, does not matter as long as the swath is in view. -/
theorem C162_altitude {I : Type} (sun : Int → ℝ) (name name' : List Char) (orbit orbit' : Circular)
    (instruments instruments' : I) (swath packing : ℝ) (c c' : Soc I)
    (hc : Soc.make name orbit instruments swath packing = .ok c)
    (hc' : Soc.make name' orbit' instruments' swath packing = .ok c') (ho : Circular.Valid orbit) (ho' : Circular.Valid orbit')
    (hh : 0 < orbit.altitude) (hh' : 0 < orbit'.altitude) (hs : InSight orbit.altitude swath)
    (hs' : InSight orbit'.altitude swath) :
    ∃ (w w' : Walker I) (ms ms' : List (Satellite I)),
      c.walker = .ok w ∧ c'.walker = .ok w' ∧ c.members sun = .ok ms ∧ c'.members sun = .ok ms' ∧
      w'.planes = w.planes ∧ ms'.length = ms.length := by
  obtain ⟨w, w', s, s', ms, ms', h1, h2, h3, h4, -, -, h5, -, h6⟩ := C162_fewer sun name name' orbit orbit' instruments
    instruments' swath swath packing packing c c' hc hc' ho ho' hh hh' hs hs' le_rfl le_rfl
  obtain ⟨v', v, s2, s2', ns', ns, k1, k2, k3, k4, -, -, k5, -, k6⟩ := C162_fewer sun name' name orbit' orbit instruments'
    instruments swath swath packing packing c' c hc' hc ho' ho hh' hh hs' hs le_rfl le_rfl
  rw [h1] at k2
  rw [h2] at k1
  rw [h3] at k4
  rw [h4] at k3
  cases k1; cases k2; cases k3; cases k4
  exact ⟨w, w', ms, ms', h1, h2, h3, h4, le_antisymm h5 k5, le_antisymm h6 k6⟩

/-- There are always at least three planes of at least three satellites. -/
theorem C162_nine {I : Type} (sun : Int → ℝ) (name : List Char) (orbit : Circular) (instruments : I)
    (swath packing : ℝ) (c : Soc I) (hc : Soc.make name orbit instruments swath packing = .ok c) (ho : Circular.Valid orbit)
    (hh : 0 < orbit.altitude) (hs : InSight orbit.altitude swath) :
    ∃ (w : Walker I) (s : Nat) (ms : List (Satellite I)), c.walker = .ok w ∧ c.members sun = .ok ms ∧
      ms.length = w.planes * s ∧ 3 ≤ w.planes ∧ 3 ≤ s := by
  have hR := meanRadius_gt
  have hpi := Real.pi_pos
  obtain ⟨w, s, p, ms, a, b, h1, -, -, -, -, -, h2, -, h3, h4, -, h5, h6, h7, h8, h9, h10, h11⟩ :=
    C37_streets sun name orbit instruments swath packing c hc ho hh hs.1 hs.2
  have hl : swath / 2 / meanRadius < Real.pi / 2 := by
    refine lt_of_le_of_ne hs.1 fun h => ?_
    have := hs.2
    rw [h, Real.cos_pi_div_two] at this
    have : 0 < meanRadius / (meanRadius + orbit.altitude) := by positivity
    linarith
  have ha : a < Real.pi := by
    have e : swath / meanRadius = 2 * (swath / 2 / meanRadius) := by field_simp
    rw [e] at h11
    linarith
  have key : ∀ (n : Nat) (x : ℝ), LeastParts n x → x < Real.pi → 3 ≤ n := by
    intro n x hn hx
    by_contra hlt
    have h0 : (0 : ℝ) < n := by exact_mod_cast hn.1
    have h2 : (n : ℝ) ≤ 2 := by exact_mod_cast (by omega : n ≤ 2)
    have := hn.2.1
    rw [div_le_iff₀ h0] at this
    nlinarith
  exact ⟨w, s, ms, h1, h3, by rw [h4, h2, mul_comm], by rw [h2]; exact key p b h6 (by linarith), key s a h5 ha⟩

/-- One radius up, a swath of half the circumference (or one and a half times that) is designed for with a central angle
whose sine is three fifths (or minus that). -/
theorem beyond_horizon {I : Type} (name : List Char) (orbit : Circular) (instruments : I) (swath sign : ℝ)
    (hh : orbit.altitude = meanRadius) (hsign : sign = 1 ∨ sign = -1) (hs : Real.sin (swath / 2 / meanRadius) = sign)
    (per planes : Int) (h1 : ceilTurn (2 * Real.arcsin (sign * (3 / 5))) = .ok per)
    (h2 : ceilTurn (2 * Real.arcsin (sign * (3 / 5) * (Real.sqrt 3 / 2))) = .ok planes) :
    (⟨name, orbit, instruments, swath, 1⟩ : Soc I).walker =
      Walker.make name (.circular orbit) instruments false (per * planes) planes 0 := by
  have hR := meanRadius_gt
  have hsq : sign ^ 2 = 1 := by rcases hsign with rfl | rfl <;> norm_num
  have h5 : (0 : ℝ) < Real.sqrt 5 := by positivity
  have h55 : Real.sqrt 5 * Real.sqrt 5 = 5 := Real.mul_self_sqrt (by norm_num)
  have h52 : 2 < Real.sqrt 5 := by rw [Real.lt_sqrt (by norm_num)]; norm_num
  have hk : sinRho orbit.altitude 0 = 1 / 2 := by
    unfold sinRho; rw [hh, div_eq_div_iff (by linarith) (by norm_num)]; ring
  have hk' : meanRadius / (meanRadius + orbit.altitude) = 1 / 2 := by
    rw [hh, div_eq_div_iff (by linarith) (by norm_num)]; ring
  have habs : |sign| = 1 := by rcases hsign with rfl | rfl <;> simp
  have hcos : Real.cos (Real.arcsin sign) = 0 := by rw [Real.cos_arcsin, hsq]; simp
  have hf : swathToFor orbit.altitude swath 0 = degrees (2 * Real.arctan (sign / 2)) := by
    unfold swathToFor
    simp only [add_zero, hs, hcos, hk]
    congr 3
    ring
  have hsin : Real.sin (Real.arctan (sign / 2)) = sign / Real.sqrt 5 := by
    rw [Real.sin_arctan]
    have : 1 + (sign / 2) ^ 2 = 5 / 4 := by rw [div_pow, hsq]; norm_num
    rw [this, Real.sqrt_div (by norm_num), show Real.sqrt 4 = 2 by rw [show (4 : ℝ) = 2 ^ 2 by norm_num, Real.sqrt_sq (by norm_num)]]
    field_simp
  have hle : ∀ x : ℝ, 0 ≤ x → x ≤ Real.sqrt 5 → -1 ≤ sign * x / Real.sqrt 5 ∧ sign * x / Real.sqrt 5 ≤ 1 := by
    intro x hx0 hx
    rw [le_div_iff₀ h5, div_le_iff₀ h5]
    rcases hsign with rfl | rfl <;> constructor <;> linarith
  have he : minElevation orbit.altitude (swathToFor orbit.altitude swath 0) 0 =
      degrees (Real.arccos (sign * 2 / Real.sqrt 5)) := by
    unfold minElevation
    rw [hf, radians_degrees, hk]
    have e1 : Real.sin (2 * Real.arctan (sign / 2) / 2) / (1 / 2) = sign * 2 / Real.sqrt 5 := by
      rw [mul_div_cancel_left₀ _ (two_ne_zero), hsin]; field_simp
    simp only [e1]
    rw [if_neg (not_lt.2 (hle 2 (by norm_num) h52.le).2)]
  obtain ⟨b1, b2⟩ := hle 2 (by norm_num) h52.le
  obtain ⟨b3, b4⟩ := hle 1 (by norm_num) (by linarith)
  rw [mul_one] at b3 b4
  have heta : mathAsin (meanRadius / (meanRadius + orbit.altitude) *
      Real.cos (radians (degrees (Real.arccos (sign * 2 / Real.sqrt 5))))) = .ok (Real.arcsin (sign / Real.sqrt 5)) := by
    rw [radians_degrees, Real.cos_arccos b1 b2, hk']
    have : 1 / 2 * (sign * 2 / Real.sqrt 5) = sign / Real.sqrt 5 := by ring
    rw [this]
    unfold mathAsin
    simp only [bind_eq_ok, require_eq_ok, pure, Except.pure]
    exact ⟨(), ⟨b3, b4⟩, trivial⟩
  have hgamma : Real.sin (radians (90 - degrees (Real.arccos (sign * 2 / Real.sqrt 5)) -
      degrees (Real.arcsin (sign / Real.sqrt 5)))) = sign * (3 / 5) := by
    have e1 : radians (90 - degrees (Real.arccos (sign * 2 / Real.sqrt 5)) - degrees (Real.arcsin (sign / Real.sqrt 5))) =
        Real.arcsin (sign * 2 / Real.sqrt 5) - Real.arcsin (sign / Real.sqrt 5) := by
      rw [Real.arccos]
      unfold radians degrees
      field_simp
      ring
    rw [e1, Real.sin_sub, Real.sin_arcsin b1 b2, Real.sin_arcsin b3 b4, Real.cos_arcsin, Real.cos_arcsin]
    have e2 : (1 : ℝ) - (sign / Real.sqrt 5) ^ 2 = 2 ^ 2 / 5 := by
      rw [div_pow, hsq, Real.sq_sqrt (by norm_num)]; norm_num
    have e3 : (1 : ℝ) - (sign * 2 / Real.sqrt 5) ^ 2 = 1 / 5 := by
      rw [div_pow, mul_pow, hsq, Real.sq_sqrt (by norm_num)]; norm_num
    rw [e2, e3, Real.sqrt_div (by norm_num), Real.sqrt_div (by norm_num), Real.sqrt_sq (by norm_num), Real.sqrt_one]
    field_simp
    rw [Real.sq_sqrt (by norm_num)]
    ring
  have hb : -1 ≤ sign * (3 / 5) ∧ sign * (3 / 5) ≤ 1 := by rcases hsign with rfl | rfl <;> norm_num
  have h3 : Real.sqrt 3 ≤ 2 := by rw [Real.sqrt_le_left (by norm_num)]; norm_num
  have h30 : 0 < Real.sqrt 3 := Real.sqrt_pos.mpr (by norm_num)
  have hb' : -1 ≤ sign * (3 / 5) * (Real.sqrt 3 / 2) ∧ sign * (3 / 5) * (Real.sqrt 3 / 2) ≤ 1 := by
    rcases hsign with rfl | rfl <;> constructor <;> linarith
  have asin : ∀ x : ℝ, -1 ≤ x ∧ x ≤ 1 → mathAsin x = .ok (Real.arcsin x) := by
    intro x hx
    unfold mathAsin
    simp only [bind_eq_ok, require_eq_ok, pure, Except.pure]
    exact ⟨(), hx, trivial⟩
  have e1 : (0.5 : ℝ) * (2 * (meanRadius * (sign * (3 / 5))) * 1) / meanRadius = sign * (3 / 5) := by field_simp; norm_num
  have e2 : (0.5 : ℝ) * (Real.sqrt 3 * (meanRadius * (sign * (3 / 5))) * 1) / meanRadius =
    sign * (3 / 5) * (Real.sqrt 3 / 2) := by field_simp; ring
  unfold Soc.walker
  simp only [he, heta, Except.bind, bind, hgamma, e1, e2, asin _ hb, asin _ hb', h1, h2]

/-- Beyond the horizon a wider swath can need more satellites: one radius up, the widest swath in view needs 12, one of half
the circumference at least 25, because it is taken for what a narrower angle sees. -/
theorem C162_beyond_false : ∃ c c' : Soc Unit, ∃ w w' : Walker Unit,
    Soc.make ['S'] ⟨meanRadius, 0, 0, 90, 0⟩ () (2 * meanRadius * (Real.pi / 3)) 1 = .ok c ∧
    Soc.make ['S'] ⟨meanRadius, 0, 0, 90, 0⟩ () (Real.pi * meanRadius) 1 = .ok c' ∧
    2 * meanRadius * (Real.pi / 3) ≤ Real.pi * meanRadius ∧
    c.walker = .ok w ∧ c'.walker = .ok w' ∧ w.satellites ≤ 12 ∧ 25 ≤ w'.satellites := by
  have hR := meanRadius_gt
  have hpi := Real.pi_pos
  have hm : ∀ x : ℝ, 0 < x → Soc.make (I := Unit) ['S'] ⟨meanRadius, 0, 0, 90, 0⟩ () x 1 =
      .ok ⟨['S'], ⟨meanRadius, 0, 0, 90, 0⟩, (), x, 1⟩ := by
    intro x hx
    unfold Soc.make
    simp only [bind_eq_ok, require_eq_ok, pure, Except.pure]
    exact ⟨(), hx, (), by norm_num, (), by norm_num, trivial⟩
  have hm1 := hm (2 * meanRadius * (Real.pi / 3)) (by positivity)
  have hm2 := hm (Real.pi * meanRadius) (by positivity)
  have el : 2 * meanRadius * (Real.pi / 3) / 2 / meanRadius = Real.pi / 3 := by field_simp
  obtain ⟨w, s, p, ms, a, b, h1, -, -, -, -, -, h2, h2', h3, h4, -, h5, h6, h7, h8, h9, h10, h11⟩ :=
    C37_streets (fun _ => 0) ['S'] ⟨meanRadius, 0, 0, 90, 0⟩ () (2 * meanRadius * (Real.pi / 3)) 1 _ hm1
      (by unfold Circular.Valid InTurn; norm_num) (by simp only; linarith) (by rw [el]; linarith)
      (by rw [el, Real.cos_pi_div_three, div_le_div_iff₀ (by simp only; linarith) (by norm_num)]; linarith)
  rw [el, Real.sin_pi_div_three] at h7 h8
  have h33 : Real.sqrt 3 * Real.sqrt 3 = 3 := Real.mul_self_sqrt (by norm_num)
  have h22 : Real.sqrt 2 < 1.5 := by rw [Real.sqrt_lt' (by norm_num)]; norm_num
  have ha : s ≤ 3 := by
    refine h5.2.2 3 (by norm_num) ?_
    refine le_of_chord (by push_cast; linarith) (by linarith) ?_
    rw [h7]
    have : 2 * Real.pi / ((3 : Nat) : ℝ) / 2 = Real.pi / 3 := by push_cast; ring
    rw [this, Real.sin_pi_div_three]
    linarith
  have hb : p ≤ 4 := by
    refine h6.2.2 4 (by norm_num) ?_
    refine le_of_chord (by push_cast; linarith) (by linarith) ?_
    rw [h8]
    have : 2 * Real.pi / ((4 : Nat) : ℝ) / 2 = Real.pi / 4 := by push_cast; ring
    rw [this, Real.sin_pi_div_four]
    nlinarith
  -- the wider one
  have few : ∀ x : ℝ, 0 < x → x < 0.7 → ∃ n : Nat, ceilTurn (2 * Real.arcsin x) = .ok (n : Int) ∧ 5 ≤ n := by
    intro x hx0 hx1
    have hpos := Real.arcsin_pos.2 hx0
    obtain ⟨n, hn, hl⟩ := ceilTurn_ok (x := 2 * Real.arcsin x) (by linarith)
    refine ⟨n, hn, ?_⟩
    by_contra hlt
    have h0 : (0 : ℝ) < n := by exact_mod_cast hl.1
    have h4 : (n : ℝ) ≤ 4 := by exact_mod_cast (by omega : n ≤ 4)
    have hle := hl.2.1
    rw [div_le_iff₀ h0] at hle
    have hq : Real.pi / 4 ≤ Real.arcsin x := by nlinarith
    have := (Real.le_arcsin_iff_sin_le' (by constructor <;> linarith)).1 hq
    rw [Real.sin_pi_div_four] at this
    have : 1.4 < Real.sqrt 2 := by rw [Real.lt_sqrt (by norm_num)]; norm_num
    linarith
  have h30 : 0 < Real.sqrt 3 := Real.sqrt_pos.mpr (by norm_num)
  have h32 : Real.sqrt 3 ≤ 2 := by rw [Real.sqrt_le_left (by norm_num)]; norm_num
  obtain ⟨s', hs1, hs2⟩ := few (1 * (3 / 5)) (by norm_num) (by norm_num)
  obtain ⟨p', hp1, hp2⟩ := few (1 * (3 / 5) * (Real.sqrt 3 / 2)) (by positivity) (by linarith)
  have hw := beyond_horizon (I := Unit) ['S'] ⟨meanRadius, 0, 0, 90, 0⟩ () (Real.pi * meanRadius) 1 rfl (.inl rfl) (by
    rw [show Real.pi * meanRadius / 2 / meanRadius = Real.pi / 2 by field_simp, Real.sin_pi_div_two]) s' p' hs1 hp1
  have hle : p' ≤ s' * p' := Nat.le_mul_of_pos_left p' (by omega)
  have hmake : Walker.make (I := Unit) ['S'] (.circular ⟨meanRadius, 0, 0, 90, 0⟩) () false ((s' : Int) * p') p' 0 =
      .ok ⟨['S'], .circular ⟨meanRadius, 0, 0, 90, 0⟩, (), false, s' * p', p', 0⟩ := by
    unfold Walker.make
    simp only [bind_eq_ok, require_eq_ok, pure, Except.pure, Except.ok.injEq]
    have h1 : (1 : Int) ≤ (s' : Int) * p' := by
      have : 1 ≤ s' * p' := by omega
      exact_mod_cast this
    refine ⟨(), h1, (), by omega, (), le_rfl, (), ?_, (), by omega, ?_⟩
    · have : ((p' : Nat) : Int) ≤ (s' : Int) * p' := by exact_mod_cast hle
      omega
    · congr 1
  refine ⟨_, _, w, _, hm1, hm2, by nlinarith, h1, hw.trans hmake, ?_, ?_⟩
  · rw [h2']; exact Nat.mul_le_mul ha hb
  · exact Nat.mul_le_mul hs2 hp2

/-- A swath that the schema accepts but no constellation can be generated for: one and a half times the circumference. -/
theorem C162_accepted_false : ∃ c : Soc Unit,
    Soc.make ['S'] ⟨meanRadius, 0, 0, 90, 0⟩ () (3 * Real.pi * meanRadius) 1 = .ok c ∧ c.walker = .error .validationError := by
  have hR := meanRadius_gt
  have hpi := Real.pi_pos
  have hm : Soc.make (I := Unit) ['S'] ⟨meanRadius, 0, 0, 90, 0⟩ () (3 * Real.pi * meanRadius) 1 =
      .ok ⟨['S'], ⟨meanRadius, 0, 0, 90, 0⟩, (), 3 * Real.pi * meanRadius, 1⟩ := by
    unfold Soc.make
    simp only [bind_eq_ok, require_eq_ok, pure, Except.pure]
    exact ⟨(), by positivity, (), by norm_num, (), by norm_num, trivial⟩
  have neg : ∀ x : ℝ, x < 0 → ∃ n : Int, ceilTurn (2 * Real.arcsin x) = .ok n ∧ n ≤ 0 := by
    intro x hx
    have h0 := Real.arcsin_lt_zero.2 hx
    refine ⟨⌈2 * Real.pi / (2 * Real.arcsin x)⌉, ?_, ?_⟩
    · unfold ceilTurn
      simp only [bind_eq_ok, require_eq_ok, pure, Except.pure]
      exact ⟨(), by linarith, trivial⟩
    · rw [Int.ceil_le, Int.cast_zero]
      exact div_nonpos_of_nonneg_of_nonpos (by positivity) (by linarith)
  have h30 : 0 < Real.sqrt 3 := Real.sqrt_pos.mpr (by norm_num)
  obtain ⟨s', hs1, hs2⟩ := neg (-1 * (3 / 5)) (by norm_num)
  obtain ⟨p', hp1, hp2⟩ := neg (-1 * (3 / 5) * (Real.sqrt 3 / 2)) (by nlinarith)
  have hw := beyond_horizon (I := Unit) ['S'] ⟨meanRadius, 0, 0, 90, 0⟩ () (3 * Real.pi * meanRadius) (-1) rfl (.inr rfl) (by
    rw [show 3 * Real.pi * meanRadius / 2 / meanRadius = Real.pi / 2 + Real.pi by field_simp; norm_num, Real.sin_add_pi,
      Real.sin_pi_div_two]) s' p' hs1 hp1
  refine ⟨_, hm, hw.trans ?_⟩
  unfold Walker.make
  by_cases h1 : (1 : Int) ≤ s' * p'
  · have h2 : ¬ (1 : Int) ≤ p' := by omega
    simp [require, h1, h2, bind, Except.bind]
  · simp [require, h1, bind, Except.bind]

/-- The hypotheses are met: swaths of 500 km and 1000 km from 1000 km and 2000 km, packed at one half and one. -/
example : ∃ c c', Soc.make (I := Unit) ['S'] ⟨1000000, 0, 0, 90, 0⟩ () 500000 (1 / 2) = .ok c ∧
    Soc.make (I := Unit) ['T'] ⟨2000000, 0, 0, 60, 0⟩ () 1000000 1 = .ok c' ∧
    Circular.Valid ⟨1000000, 0, 0, 90, 0⟩ ∧ Circular.Valid ⟨2000000, 0, 0, 60, 0⟩ ∧
    InSight 1000000 500000 ∧ InSight 2000000 1000000 := by
  have hR := meanRadius_gt
  have hpi := Real.pi_gt_three
  have key : ∀ h w : ℝ, 1000000 ≤ h → 0 ≤ w → w ≤ 1000000 → InSight h w := by
    intro h w hh hw0 hw
    have hx : w / 2 / meanRadius ≤ 1 / 12 := by rw [div_div, div_le_iff₀ (by positivity)]; linarith
    have hx0 : 0 ≤ w / 2 / meanRadius := by positivity
    refine ⟨by linarith, ?_⟩
    have h1 := Real.one_sub_sq_div_two_le_cos (x := w / 2 / meanRadius)
    refine le_trans ?_ h1
    rw [div_le_iff₀ (by linarith)]
    have h2 : (w / 2 / meanRadius) ^ 2 ≤ 1 / 144 := by nlinarith
    have hR2 : meanRadius < 6400000 := by unfold meanRadius equatorialRadius polarRadius; norm_num
    have h3 : (1 - 1 / 288) * (meanRadius + h) ≤ (1 - (w / 2 / meanRadius) ^ 2 / 2) * (meanRadius + h) :=
      mul_le_mul_of_nonneg_right (by linarith) (by linarith)
    linarith
  refine ⟨⟨['S'], ⟨1000000, 0, 0, 90, 0⟩, (), 500000, 1 / 2⟩, ⟨['T'], ⟨2000000, 0, 0, 60, 0⟩, (), 1000000, 1⟩, ?_, ?_, ?_, ?_,
    key _ _ le_rfl (by norm_num) (by norm_num), key _ _ (by norm_num) (by norm_num) le_rfl⟩
  · unfold Soc.make
    simp only [bind_eq_ok, require_eq_ok, pure, Except.pure]
    exact ⟨(), by norm_num, (), by norm_num, (), by norm_num, trivial⟩
  · unfold Soc.make
    simp only [bind_eq_ok, require_eq_ok, pure, Except.pure]
    exact ⟨(), by norm_num, (), by norm_num, (), by norm_num, trivial⟩
  · unfold Circular.Valid InTurn; norm_num
  · unfold Circular.Valid InTurn; norm_num

end Tatc.Props
