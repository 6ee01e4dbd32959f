import Verif.Model.Propagate
import Verif.Props.TleTime
import Mathlib.Tactic.Ring
import Mathlib.Tactic.FieldSimp
import Mathlib.Tactic.LinearCombination

/-!
# C99: the orbit track of a list of times; C100, C101: where a repeated track is, and what it shows

A repeat cycle is a time after which the satellite returns to its position in Earth-fixed axes.
-/

namespace Tatc.Props

open Tatc.TleTime Tatc.Coverage

/-- C99, lists: the orbit track of a list of times is the list of the orbit tracks of each time. -/
theorem C99_list (default : Bool) (tryRepeat : Option Bool) (epochs : List Int) (cycle : Option Int)
    (sgp4 : Nat → Int → V3 × V3) (ts : List Int) :
    orbitTrackList default tryRepeat epochs cycle sgp4 ts =
      ts.map (orbitTrackAt default tryRepeat epochs cycle sgp4) := by
  unfold orbitTrackList orbitTrackAt geocentrics
  simp only
  split
  · rw [C16_closest_list]
    induction ts with
    | nil => rfl
    | cons t ts ih => simp only [List.map_cons, List.zipWith_cons_cons]; rw [ih]
  · unfold propagatedTime repeatTime
    cases tryRepeat.getD default <;> cases cycle <;> simp <;>
    · induction ts with
      | nil => rfl
      | cons t ts ih => simp only [List.map_cons, List.zipWith_cons_cons]; first | (rw [ih]; done) | (rw [ih]; rfl)

/-- C99, several element sets: every time is propagated as it is, by an element set whose epoch is nearest, whether or
not repeats are asked for, and reported as it is. -/
theorem C99_nearest (default : Bool) (tryRepeat : Option Bool) (epochs : List Int) (cycle : Option Int)
    (sgp4 : Nat → Int → V3 × V3) (t : Int) (hs : epochs.Pairwise (· ≤ ·)) (hn : 1 < epochs.length) :
    ∃ i, Nearest epochs t i ∧
      orbitTrackAt default tryRepeat epochs cycle sgp4 t = ⟨(sgp4 i t).1, (sgp4 i t).2, t⟩ := by
  refine ⟨closestIndex epochs t, C16_closest epochs hs (by rintro rfl; simp at hn) t, ?_⟩
  unfold orbitTrackAt
  simp only [hn, if_true]

/-- C99, one element set: reported times are those asked for, and the position is that of a time which is a whole
number of cycles away and within one cycle of the epoch, or the time itself if no repeats are asked for or there is no
cycle. -/
theorem C99_single (default : Bool) (tryRepeat : Option Bool) (epoch : Int) (cycle : Option Int)
    (sgp4 : Nat → Int → V3 × V3) (t : Int) (hc : ∀ c ∈ cycle, 0 < c) :
    ∃ t' : Int, orbitTrackAt default tryRepeat [epoch] cycle sgp4 t = ⟨(sgp4 0 t').1, (sgp4 0 t').2, t⟩ ∧
      ((tryRepeat.getD default = false ∨ cycle = none) → t' = t) ∧
      (tryRepeat.getD default = true → ∀ c ∈ cycle, (∃ k : Int, t' = t + k * c) ∧ |t' - epoch| < c ∧
        (|t - epoch| < c → t' = t)) := by
  refine ⟨propagatedTime (tryRepeat.getD default) epoch cycle t, by simp [orbitTrackAt], ?_, ?_⟩
  · rintro (h | h)
    · rw [h]; rfl
    · rw [h]; unfold propagatedTime; split <;> rfl
  · intro h c hm
    have e : cycle = some c := hm
    have hp := hc c hm
    rw [h, e]
    have := C24_repeat_time epoch c t hp
    refine ⟨this.1, this.2.1, ?_⟩
    intro ht
    show repeatTime epoch c t = t
    unfold repeatTime
    rw [Int.emod_eq_of_lt (abs_nonneg _) ht, Int.sign_mul_abs]
    omega

example : ∃ i, Nearest [0, 10, 30] 12 i ∧
    orbitTrackAt true none [0, 10, 30] (some 7) (fun i t => (⟨i, t, 0⟩, ⟨0, 0, 0⟩)) 12 =
      ⟨⟨i, ((12 : Int) : ℝ), 0⟩, ⟨0, 0, 0⟩, 12⟩ :=
  C99_nearest true none [0, 10, 30] (some 7) (fun i t => (⟨i, t, 0⟩, ⟨0, 0, 0⟩)) 12 (by decide) (by decide)

theorem turnAxes_add (a b : ℝ) (p : V3) : turnAxes (a + b) p = turnAxes a (turnAxes b p) := by
  unfold turnAxes
  ext
  · simp only [Real.cos_add, Real.sin_add]; ring
  · simp only [Real.cos_add, Real.sin_add]; ring
  · rfl

theorem turnAxes_zero (p : V3) : turnAxes 0 p = p := by
  unfold turnAxes; ext <;> simp

/-- Turning the axes leaves a position where it was exactly if it is on the axis or the turn is whole. -/
theorem turnAxes_eq_self_iff (a : ℝ) (p : V3) :
    turnAxes a p = p ↔ (p.x = 0 ∧ p.y = 0) ∨ ∃ n : Int, a = n * (2 * Real.pi) := by
  constructor
  · intro h
    by_cases hp : p.x = 0 ∧ p.y = 0
    · exact Or.inl hp
    · right
      have h1 : Real.cos a * p.x + Real.sin a * p.y = p.x := congrArg V3.x h
      have h2 : -Real.sin a * p.x + Real.cos a * p.y = p.y := congrArg V3.y h
      have hpos : 0 < p.x ^ 2 + p.y ^ 2 := by
        rcases not_and_or.mp hp with hx | hy
        · have := sq_nonneg p.y; have := sq_pos_of_ne_zero hx; linarith
        · have := sq_nonneg p.x; have := sq_pos_of_ne_zero hy; linarith
      have hcos : Real.cos a = 1 := by
        have : (Real.cos a - 1) * (p.x ^ 2 + p.y ^ 2) = 0 := by linear_combination p.x * h1 + p.y * h2
        rcases mul_eq_zero.mp this with h | h
        · linarith
        · linarith
      obtain ⟨n, hn⟩ := (Real.cos_eq_one_iff a).mp hcos
      exact ⟨n, hn.symm⟩
  · rintro (⟨hx, hy⟩ | ⟨n, rfl⟩)
    · unfold turnAxes; ext <;> simp [hx, hy]
    · unfold turnAxes
      have h1 : Real.cos (n * (2 * Real.pi)) = 1 := Real.cos_int_mul_two_pi n
      have h2 : Real.sin (n * (2 * Real.pi)) = 0 := by
        have h := Real.sin_sq_add_cos_sq (n * (2 * Real.pi))
        rw [h1] at h
        have : Real.sin (n * (2 * Real.pi)) ^ 2 = 0 := by linarith
        exact pow_eq_zero_iff (two_ne_zero) |>.mp this
      ext <;> simp [h1, h2]

/-- Where the satellite is at a time, in Earth-fixed axes, as the propagator says. -/
noncomputable def groundPosition (rotation : Int → ℝ) (sgp4 : Nat → Int → V3 × V3) (t : Int) : V3 :=
  turnAxes (rotation t) (sgp4 0 t).1

/-- C100, without repeats or within one cycle of the epoch: the reported Earth-fixed position is where the satellite
is. -/
theorem C100_near_partial (default : Bool) (tryRepeat : Option Bool) (epoch : Int) (cycle : Option Int)
    (sgp4 : Nat → Int → V3 × V3) (rotation : Int → ℝ) (t : Int) (hc : ∀ c ∈ cycle, 0 < c)
    (h : tryRepeat.getD default = false ∨ ∀ c ∈ cycle, |t - epoch| < c) :
    earthFixed rotation (orbitTrackAt default tryRepeat [epoch] cycle sgp4 t) = groundPosition rotation sgp4 t := by
  obtain ⟨t', e, h1, h2⟩ := C99_single default tryRepeat epoch cycle sgp4 t hc
  rw [e]
  have : t' = t := by
    rcases h with h | h
    · exact h1 (Or.inl h)
    · cases hr : tryRepeat.getD default
      · exact h1 (Or.inl hr)
      · cases hcy : cycle with
        | none => exact h1 (Or.inr hcy)
        | some c => exact (h2 hr c hcy).2.2 (h c hcy)
  rw [this]
  rfl

/-- C100, what is reported instead: the Earth-fixed position at a time some whole number of cycles away, turned by the
rotation of the Earth between the two times. -/
theorem C100_reported (epoch cycle : Int) (sgp4 : Nat → Int → V3 × V3) (rotation : Int → ℝ) (t : Int)
    (hc : 0 < cycle) :
    ∃ t' : Int, (∃ k : Int, t' = t + k * cycle) ∧ |t' - epoch| < cycle ∧
      earthFixed rotation (orbitTrackAt true none [epoch] (some cycle) sgp4 t) =
        turnAxes (rotation t - rotation t') (groundPosition rotation sgp4 t') := by
  obtain ⟨t', e, _, h2⟩ := C99_single true none epoch (some cycle) sgp4 t (by simpa using hc)
  obtain ⟨hk, hlt, _⟩ := h2 rfl cycle rfl
  refine ⟨t', hk, hlt, ?_⟩
  rw [e]
  unfold earthFixed groundPosition
  rw [← turnAxes_add]
  congr 1
  ring

/-- C100, exactly when it holds: if the satellite returns to the same Earth-fixed position after every cycle, the
reported position is where it is exactly if it is over a pole or the Earth makes a whole number of turns, in inertial
axes, between the time asked for and the time propagated. -/
theorem C100_iff (epoch cycle : Int) (sgp4 : Nat → Int → V3 × V3) (rotation : Int → ℝ) (t : Int) (hc : 0 < cycle)
    (hrep : ∀ s, groundPosition rotation sgp4 (s + cycle) = groundPosition rotation sgp4 s) :
    ∃ t' : Int, (∃ k : Int, t' = t + k * cycle) ∧ |t' - epoch| < cycle ∧
      (earthFixed rotation (orbitTrackAt true none [epoch] (some cycle) sgp4 t) = groundPosition rotation sgp4 t ↔
        ((groundPosition rotation sgp4 t).x = 0 ∧ (groundPosition rotation sgp4 t).y = 0) ∨
          ∃ n : Int, rotation t - rotation t' = n * (2 * Real.pi)) := by
  obtain ⟨t', ⟨k, hk⟩, hlt, e⟩ := C100_reported epoch cycle sgp4 rotation t hc
  refine ⟨t', ⟨k, hk⟩, hlt, ?_⟩
  have hper : ∀ (k : Int) (s : Int),
      groundPosition rotation sgp4 (s + k * cycle) = groundPosition rotation sgp4 s := by
    intro k
    induction k using Int.induction_on with
    | zero => intro s; simp
    | succ n ih => intro s; rw [add_mul, one_mul, ← add_assoc, hrep]; exact ih s
    | pred n ih =>
      intro s
      rw [← hrep (s + (-(n : Int) - 1) * cycle)]
      have : s + (-(n : Int) - 1) * cycle + cycle = s + -(n : Int) * cycle := by ring
      rw [this]; exact ih s
  rw [e, hk, hper k t, ← hk]
  exact turnAxes_eq_self_iff _ _

/-- C100, by how much: if the orbit plane turns by `drift` in every cycle (the satellite is, after a cycle, where it was,
turned by this angle about the axis in inertial axes), the reported position is the true one turned back by the drift of
all the cycles between the propagated time and the time asked for. -/
theorem C100_drift (epoch cycle : Int) (sgp4 : Nat → Int → V3 × V3) (rotation : Int → ℝ) (drift : ℝ) (t : Int)
    (hc : 0 < cycle) (hdrift : ∀ s, (sgp4 0 s).1 = turnAxes drift (sgp4 0 (s + cycle)).1) :
    ∃ t' k : Int, t = t' + k * cycle ∧ |t' - epoch| < cycle ∧
      earthFixed rotation (orbitTrackAt true none [epoch] (some cycle) sgp4 t) =
        turnAxes (k * drift) (groundPosition rotation sgp4 t) := by
  obtain ⟨t', ⟨k, hk⟩, hlt, e⟩ := C100_reported epoch cycle sgp4 rotation t hc
  refine ⟨t', -k, by rw [hk]; ring, hlt, ?_⟩
  have hall : ∀ (k : Int) (s : Int), (sgp4 0 s).1 = turnAxes (k * drift) (sgp4 0 (s + k * cycle)).1 := by
    intro k
    induction k using Int.induction_on with
    | zero => intro s; simp [turnAxes_zero]
    | succ n ih =>
      intro s
      rw [ih s, hdrift (s + n * cycle), ← turnAxes_add]
      congr 1
      · push_cast; ring
      · congr 2; ring
    | pred n ih =>
      intro s
      have h := hdrift (s + (-(n : Int) - 1) * cycle)
      have e : s + (-(n : Int) - 1) * cycle + cycle = s + -(n : Int) * cycle := by ring
      rw [e] at h
      rw [h, ← turnAxes_add, ih s]
      congr 1
      push_cast; ring
  rw [e]
  unfold groundPosition
  have h := hall (-k) t'
  have e2 : t' + -k * cycle = t := by rw [hk]; ring
  rw [e2] at h
  rw [h, ← turnAxes_add, ← turnAxes_add, ← turnAxes_add]
  congr 1
  ring

/-- A day in microseconds. -/
def solarDay : Int := 86400000000

/-- The angle by which the Earth has turned: one turn in 86164.0905 seconds. -/
noncomputable def earthAngle (t : Int) : ℝ := 2 * Real.pi * t / 86164090500

/-- A circular sun-synchronous orbit of fourteen revolutions in a day: the argument of latitude grows by fourteen turns
a day, and the plane turns with the mean sun, so that the Earth makes one turn a day under it. -/
noncomputable def sunSynchronous (radius inclination : ℝ) (_ : Nat) (t : Int) : V3 × V3 :=
  let u := 2 * Real.pi * 14 * t / solarDay
  (turnAxes (2 * Real.pi * t / solarDay - earthAngle t)
    ⟨radius * Real.cos u, radius * Real.cos inclination * Real.sin u, radius * Real.sin inclination * Real.sin u⟩,
    ⟨0, 0, 0⟩)

theorem sunSynchronous_ground (radius inclination : ℝ) (t : Int) :
    groundPosition earthAngle (sunSynchronous radius inclination) t =
      turnAxes (2 * Real.pi * t / solarDay)
        ⟨radius * Real.cos (2 * Real.pi * 14 * t / solarDay),
          radius * Real.cos inclination * Real.sin (2 * Real.pi * 14 * t / solarDay),
          radius * Real.sin inclination * Real.sin (2 * Real.pi * 14 * t / solarDay)⟩ := by
  unfold groundPosition sunSynchronous
  simp only
  rw [← turnAxes_add]
  congr 1
  ring

theorem sunSynchronous_repeats (radius inclination : ℝ) (t : Int) :
    groundPosition earthAngle (sunSynchronous radius inclination) (t + solarDay) =
      groundPosition earthAngle (sunSynchronous radius inclination) t := by
  rw [sunSynchronous_ground, sunSynchronous_ground]
  have hd : (solarDay : ℝ) ≠ 0 := by norm_num [solarDay]
  have e1 : 2 * Real.pi * ((t + solarDay : Int) : ℝ) / solarDay = 2 * Real.pi * t / solarDay + 2 * Real.pi := by
    push_cast; field_simp
  have e2 : 2 * Real.pi * 14 * ((t + solarDay : Int) : ℝ) / solarDay =
      2 * Real.pi * 14 * t / solarDay + (14 : Nat) * (2 * Real.pi) := by
    push_cast; field_simp
  rw [e1, e2, Real.cos_add_nat_mul_two_pi, Real.sin_add_nat_mul_two_pi]
  unfold turnAxes
  rw [Real.cos_add_two_pi, Real.sin_add_two_pi]

theorem propagatedTime_whole (d : Int) (hd : 0 < d) (n : Nat) : propagatedTime true 0 (some d) (n * d) = 0 := by
  have e : propagatedTime true 0 (some d) (n * d) = repeatTime 0 d (n * d) := rfl
  rw [e]
  unfold repeatTime
  have : |(n : Int) * d - 0| % d = 0 := by
    have hnn : (0 : Int) ≤ n * d := mul_nonneg (by omega) hd.le
    rw [sub_zero, abs_of_nonneg hnn]; exact Int.mul_emod_left _ _
  rw [this]; simp

/-- **C100 fails for sun-synchronous orbits** (and all whose plane turns): the satellite is over the same place of the
equator at the same time of every day, but with the default configuration it is reported, any number of days up to a
year after the epoch, somewhere else; from the 92nd to the 273rd day, on the other side of the Earth. -/
theorem C100_sun_synchronous_false (radius inclination : ℝ) (hr : 0 < radius) (n : Nat) (h0 : 0 < n) (hn : n ≤ 365) :
    (∀ t, groundPosition earthAngle (sunSynchronous radius inclination) (t + solarDay) =
      groundPosition earthAngle (sunSynchronous radius inclination) t) ∧
    groundPosition earthAngle (sunSynchronous radius inclination) (n * solarDay) = ⟨radius, 0, 0⟩ ∧
    earthFixed earthAngle (orbitTrackAt true none [0] (some solarDay) (sunSynchronous radius inclination)
      (n * solarDay)) ≠ ⟨radius, 0, 0⟩ ∧
    (92 ≤ n → n ≤ 273 → (earthFixed earthAngle (orbitTrackAt true none [0] (some solarDay)
      (sunSynchronous radius inclination) (n * solarDay))).x < 0) := by
  have hrep := sunSynchronous_repeats radius inclination
  have hall : ∀ k : Nat, groundPosition earthAngle (sunSynchronous radius inclination) (k * solarDay) =
      ⟨radius, 0, 0⟩ := by
    intro k
    induction k with
    | zero => rw [sunSynchronous_ground]; simp [turnAxes]
    | succ k ih =>
      have : ((k + 1 : Nat) : Int) * solarDay = k * solarDay + solarDay := by push_cast; ring
      rw [this, hrep, ih]
  -- what is reported
  have hx : (earthFixed earthAngle (orbitTrackAt true none [0] (some solarDay)
      (sunSynchronous radius inclination) (n * solarDay))) =
      turnAxes (n * (2 * Real.pi) + n * (2 * Real.pi) * (235909500 / 86164090500)) ⟨radius, 0, 0⟩ := by
    have hp := propagatedTime_whole solarDay (by decide) n
    unfold earthFixed orbitTrackAt
    simp only [Option.getD_none, List.length_singleton, lt_irrefl, if_false, List.getD_cons_zero]
    rw [hp]
    have : (sunSynchronous radius inclination 0 0).1 = ⟨radius, 0, 0⟩ := by
      simp [sunSynchronous, earthAngle, turnAxes]
    rw [this]
    congr 1
    unfold earthAngle solarDay
    push_cast
    ring
  have hturn : ∀ a : ℝ, turnAxes (n * (2 * Real.pi) + a) ⟨radius, 0, 0⟩ = turnAxes a ⟨radius, 0, 0⟩ := by
    intro a
    unfold turnAxes
    have e : (n : ℝ) * (2 * Real.pi) + a = a + n * (2 * Real.pi) := add_comm _ _
    rw [e, Real.cos_add_nat_mul_two_pi, Real.sin_add_nat_mul_two_pi]
  rw [hturn] at hx
  obtain ⟨q, hq⟩ : ∃ q : ℝ, q = 235909500 / 86164090500 := ⟨_, rfl⟩
  rw [← hq] at hx
  have q1 : 1 / 366 < q := by rw [hq]; norm_num
  have q2 : q < 1 / 365 := by rw [hq]; norm_num
  have hpi := Real.pi_pos
  have hn1 : (1 : ℝ) ≤ n := by exact_mod_cast h0
  have hn2 : (n : ℝ) ≤ 365 := by exact_mod_cast hn
  refine ⟨hrep, hall n, ?_, ?_⟩
  · rw [hx]
    intro h
    rcases (turnAxes_eq_self_iff _ _).mp h with ⟨h, _⟩ | ⟨m, hm⟩
    · simp at h; linarith
    · have hm' : (n : ℝ) * q = m := by
        have : (2 * Real.pi) * ((n : ℝ) * q) = (2 * Real.pi) * m := by
          linear_combination hm
        exact mul_left_cancel₀ (by positivity) this
      have q0 : 0 < q := lt_trans (by norm_num) q1
      have g1 : (0 : ℝ) < m := by rw [← hm']; exact mul_pos (by linarith) q0
      have g2 : (m : ℝ) < 1 := by
        rw [← hm']
        calc (n : ℝ) * q ≤ 365 * q := mul_le_mul_of_nonneg_right hn2 q0.le
          _ < 1 := by linarith
      have g1' : (0 : Int) < m := by exact_mod_cast g1
      have g2' : m < 1 := by exact_mod_cast g2
      omega
  · intro h1 h2
    have h1' : (92 : ℝ) ≤ n := by exact_mod_cast h1
    have h2' : (n : ℝ) ≤ 273 := by exact_mod_cast h2
    rw [hx]
    have q0 : 0 < q := lt_trans (by norm_num) q1
    have l1 : 1 / 4 < (n : ℝ) * q := by
      calc (1 / 4 : ℝ) < 92 * q := by linarith
        _ ≤ n * q := mul_le_mul_of_nonneg_right h1' q0.le
    have l2 : (n : ℝ) * q < 3 / 4 := by
      calc (n : ℝ) * q ≤ 273 * q := mul_le_mul_of_nonneg_right h2' q0.le
        _ < 3 / 4 := by linarith
    have hc : Real.cos (n * (2 * Real.pi) * q) < 0 := by
      have e : (n : ℝ) * (2 * Real.pi) * q = 2 * Real.pi * (n * q) := by ring
      rw [e]
      apply Real.cos_neg_of_pi_div_two_lt_of_lt
      · nlinarith
      · nlinarith
    have := mul_neg_of_neg_of_pos hc hr
    unfold turnAxes
    simp only [mul_zero, add_zero]
    exact this

/-- C101: at the time of an event, the orbit track, with the default configuration, is where the event says the
satellite is; `condition` is what an event says of the Earth-fixed position (straight over the place, or at the threshold
of elevation). -/
def EventsShown (rotation : Int → ℝ) (epoch : Int) (cycle : Option Int) (sgp4 : Nat → Int → V3 × V3)
    (condition : EventKind → V3 → Prop) (events : List (Int × EventKind)) : Prop :=
  ∀ e ∈ events, condition e.2 (earthFixed rotation (orbitTrackAt true none [epoch] cycle sgp4 e.1))

/-- C101, windows within one cycle of the epoch, and orbits without a repeat cycle. -/
theorem C101_near_partial (rotation : Int → ℝ) (epoch start end_ : Int) (cycle : Option Int)
    (sgp4 : Nat → Int → V3 × V3) (condition : EventKind → V3 → Prop) (find : Int → Int → List (Int × EventKind))
    (hfind : ∀ a b, ∀ e ∈ find a b, a ≤ e.1 ∧ e.1 ≤ b ∧ condition e.2 (groundPosition rotation sgp4 e.1))
    (hc : ∀ c ∈ cycle, 0 < c ∧ epoch - c < start ∧ end_ < epoch + c ∧ end_ - start ≤ c) :
    EventsShown rotation epoch cycle sgp4 condition (observationEvents true cycle find start end_) := by
  intro e he
  have hfe : observationEvents true cycle find start end_ = find start end_ := by
    unfold observationEvents
    cases hcy : cycle with
    | none => rfl
    | some c =>
      have := hc c hcy
      simp only [if_true]
      rw [if_neg (by omega)]
  rw [hfe] at he
  obtain ⟨h1, h2, h3⟩ := hfind _ _ e he
  rw [C100_near_partial true none epoch cycle sgp4 rotation e.1 (fun c hm => (hc c hm).1)
    (Or.inr fun c hm => by have := hc c hm; rw [abs_lt]; omega)]
  exact h3

/-- C101, orbits whose plane does not turn: the satellite returns to the same Earth-fixed position after every cycle and
the Earth makes a whole number of turns in it, whatever the window. -/
theorem C101_fixed_plane_partial (rotation : Int → ℝ) (epoch start end_ cycle turns : Int)
    (sgp4 : Nat → Int → V3 × V3) (condition : EventKind → V3 → Prop) (find : Int → Int → List (Int × EventKind))
    (hfind : ∀ a b, ∀ e ∈ find a b, a ≤ e.1 ∧ e.1 ≤ b ∧ condition e.2 (groundPosition rotation sgp4 e.1))
    (hc : 0 < cycle) (hrep : ∀ s, groundPosition rotation sgp4 (s + cycle) = groundPosition rotation sgp4 s)
    (hrot : ∀ s, rotation (s + cycle) = rotation s + turns * (2 * Real.pi)) :
    EventsShown rotation epoch (some cycle) sgp4 condition
      (observationEvents true (some cycle) find start end_) := by
  have hrot' : ∀ (k : Int) (s : Int), rotation (s + k * cycle) = rotation s + (k * turns : Int) * (2 * Real.pi) := by
    intro k
    induction k using Int.induction_on with
    | zero => intro s; simp
    | succ n ih =>
      intro s
      have : s + (↑n + 1) * cycle = s + n * cycle + cycle := by ring
      rw [this, hrot, ih s]; push_cast; ring
    | pred n ih =>
      intro s
      have h := hrot (s + (-(n : Int) - 1) * cycle)
      have e : s + (-(n : Int) - 1) * cycle + cycle = s + -(n : Int) * cycle := by ring
      rw [e, ih s] at h
      push_cast at h ⊢
      linarith
  -- the reported position is where the satellite is, at all times
  have hpos : ∀ t, earthFixed rotation (orbitTrackAt true none [epoch] (some cycle) sgp4 t) =
      groundPosition rotation sgp4 t := by
    intro t
    obtain ⟨t', ⟨k, hk⟩, _, hiff⟩ := C100_iff epoch cycle sgp4 rotation t hc hrep
    rw [hiff]
    right
    refine ⟨-(k * turns), ?_⟩
    rw [hk, hrot']
    push_cast
    ring
  intro e he
  rw [hpos]
  unfold observationEvents at he
  simp only [if_true] at he
  split at he
  · unfold repeatEvents at he
    split at he
    · simp at he
    · simp only [List.mem_filter, List.mem_flatMap, List.mem_map, List.mem_range] at he
      obtain ⟨⟨i, _, b, hb, rfl⟩, _⟩ := he
      have hb' := (hfind _ _ b hb).2.2
      have hper : ∀ (k : Nat) (s : Int),
          groundPosition rotation sgp4 (s + k * cycle) = groundPosition rotation sgp4 s := by
        intro k
        induction k with
        | zero => intro s; simp
        | succ n ih =>
          intro s
          have : s + ((n + 1 : Nat) : Int) * cycle = s + n * cycle + cycle := by push_cast; ring
          rw [this, hrep, ih]
      simpa only [hper i b.1] using hb'
  · exact (hfind _ _ e he).2.2

/-- **C101 fails for sun-synchronous orbits**: with the default configuration, in the two hours around a pass straight
over a place, any number of days up to a year after the epoch, the events are right, but the track at the time of the
culmination is not over the place. -/
theorem C101_sun_synchronous_false (radius inclination : ℝ) (hr : 0 < radius) (n : Nat) (h0 : 0 < n) (hn : n ≤ 365)
    (find : Int → Int → List (Int × EventKind))
    (hfind : ∀ a b t, (t, .culminate) ∈ find a b ↔ a ≤ t ∧ t ≤ b ∧
      groundPosition earthAngle (sunSynchronous radius inclination) t = ⟨radius, 0, 0⟩) :
    ((n * solarDay : Int), EventKind.culminate) ∈ observationEvents true (some solarDay) find
        (n * solarDay - 3600000000) (n * solarDay + 3600000000) ∧
      ¬ EventsShown earthAngle 0 (some solarDay) (sunSynchronous radius inclination)
        (fun k p => k = .culminate → p = ⟨radius, 0, 0⟩)
        (observationEvents true (some solarDay) find (n * solarDay - 3600000000) (n * solarDay + 3600000000)) := by
  obtain ⟨_, h2, h3, _⟩ := C100_sun_synchronous_false radius inclination hr n h0 hn
  have hmem : ((n * solarDay : Int), EventKind.culminate) ∈ observationEvents true (some solarDay) find
        (n * solarDay - 3600000000) (n * solarDay + 3600000000) := by
    have hd : ¬ solarDay < (n * solarDay + 3600000000) - (n * solarDay - 3600000000) := by
      have : solarDay = 86400000000 := rfl
      omega
    generalize (n * solarDay : Int) = T at h2 hd
    generalize solarDay = d at hd
    unfold observationEvents
    simp only [if_true]
    rw [if_neg hd, hfind]
    exact ⟨by omega, by omega, h2⟩
  refine ⟨hmem, ?_⟩
  intro h
  generalize observationEvents true (some solarDay) find (n * solarDay - 3600000000)
    (n * solarDay + 3600000000) = events at h hmem
  generalize (n * solarDay : Int) = T at h3 hmem
  generalize solarDay = d at h3 h
  have h4 := h (T, .culminate) hmem
  simp only [forall_const] at h4
  exact h3 h4

/-- The hypothesis of `C100_drift` is met by the sun-synchronous orbit: its plane turns by about a degree a day. -/
example (radius inclination : ℝ) (t : Int) :
    (sunSynchronous radius inclination 0 t).1 =
      turnAxes (2 * Real.pi * 235909500 / 86164090500) (sunSynchronous radius inclination 0 (t + solarDay)).1 := by
  unfold sunSynchronous
  simp only
  rw [← turnAxes_add]
  have hd : (solarDay : ℝ) = 86400000000 := by norm_num [solarDay]
  have e1 : 2 * Real.pi * 235909500 / 86164090500 +
      (2 * Real.pi * ((t + solarDay : Int) : ℝ) / solarDay - earthAngle (t + solarDay)) =
      2 * Real.pi * t / solarDay - earthAngle t := by
    unfold earthAngle; push_cast; rw [hd]; ring
  have e2 : 2 * Real.pi * 14 * ((t + solarDay : Int) : ℝ) / solarDay =
      2 * Real.pi * 14 * t / solarDay + (14 : Nat) * (2 * Real.pi) := by
    push_cast; rw [hd]; ring
  rw [e1, e2, Real.cos_add_nat_mul_two_pi, Real.sin_add_nat_mul_two_pi]

/-- The hypotheses of `C101_fixed_plane_partial` are met by a polar orbit of fifteen revolutions in a turn of the
Earth: in the first hundred turns, every culmination is shown. -/
example (radius : ℝ) (find : Int → Int → List (Int × EventKind))
    (hfind : find = fun a b => if a ≤ 0 ∧ 0 ≤ b then [(0, .culminate)] else []) :
    EventsShown earthAngle 0 (some 86164090500)
      (fun _ t => (⟨radius * Real.cos (2 * Real.pi * 15 * t / 86164090500), 0,
        radius * Real.sin (2 * Real.pi * 15 * t / 86164090500)⟩, ⟨0, 0, 0⟩))
      (fun _ p => p = ⟨radius, 0, 0⟩)
      (observationEvents true (some 86164090500) find (-1000) 8616409050000) := by
  have e15 (s : Int) : 2 * Real.pi * 15 * ((s + 86164090500 : Int) : ℝ) / 86164090500 =
      2 * Real.pi * 15 * s / 86164090500 + (15 : Nat) * (2 * Real.pi) := by push_cast; ring
  have erot (s : Int) : earthAngle (s + 86164090500) = earthAngle s + 2 * Real.pi := by
    unfold earthAngle; push_cast; ring
  refine C101_fixed_plane_partial earthAngle 0 (-1000) 8616409050000 86164090500 1 _ _ find ?_ ?_ ?_ ?_
  · intro a b e he
    rw [hfind] at he
    simp only at he
    split at he
    · rename_i h
      rw [List.mem_singleton] at he
      subst he
      exact ⟨h.1, h.2, by simp [groundPosition, turnAxes, earthAngle]⟩
    · simp at he
  · norm_num
  · intro s
    unfold groundPosition
    simp only
    rw [e15, erot, Real.cos_add_nat_mul_two_pi, Real.sin_add_nat_mul_two_pi]
    unfold turnAxes
    rw [Real.cos_add_two_pi, Real.sin_add_two_pi]
  · intro s; rw [erot]; push_cast; ring

end Tatc.Props
