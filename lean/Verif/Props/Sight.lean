import Mathlib.Topology.Order.IntermediateValue
import Mathlib.Topology.Algebra.Order.LiminfLimsup
import Verif.Spec.Sight
import Verif.Model.Globe
import Verif.Props.Rays

/-!
# What the vertices of footprints are
-/

namespace Tatc.Props
open Tatc Tatc.Instruments Tatc.Spec Tatc.Num
open Tatc.Ro hiding along

/-! ## The ellipsoid -/

theorem depth_eq (e : Axes) (x : V3) : depth e.a e.c x = e.form x x := by
  unfold depth Axes.form; ring

theorem depth_along (e : Axes) (p r : V3) (t : ℝ) :
    depth e.a e.c (along p r t) = e.form r r * t ^ 2 + 2 * e.form p r * t + e.form p p := by
  unfold depth Axes.form along; ring

theorem form_pos (e : Axes) (ha : 0 < e.a) (hc : 0 < e.c) {r : V3} (hr : r ≠ ⟨0, 0, 0⟩) : 0 < e.form r r := by
  have h1 : 0 ≤ (r.x * r.x + r.y * r.y) / e.a ^ 2 := by
    apply div_nonneg _ (by positivity); nlinarith [sq_nonneg r.x, sq_nonneg r.y]
  have h2 : 0 ≤ r.z * r.z / e.c ^ 2 := by
    apply div_nonneg _ (by positivity); nlinarith [sq_nonneg r.z]
  unfold Axes.form
  rcases h1.lt_or_eq with h | h
  · linarith
  rcases h2.lt_or_eq with h' | h'
  · linarith
  exfalso
  apply hr
  have hz : r.z = 0 := by
    rcases div_eq_zero_iff.mp h'.symm with h | h
    · exact mul_self_eq_zero.mp h
    · exact absurd h (by positivity)
  have hxy : r.x * r.x + r.y * r.y = 0 := by
    rcases div_eq_zero_iff.mp h.symm with h | h
    · exact h
    · exact absurd h (by positivity)
  have hx : r.x = 0 := by nlinarith [mul_self_nonneg r.x, mul_self_nonneg r.y]
  have hy : r.y = 0 := by nlinarith [mul_self_nonneg r.x, mul_self_nonneg r.y]
  ext <;> assumption

theorem add_smul_along (p r : V3) (t : ℝ) : p.add (r.smul t) = along p r t := rfl

/-- The two intersections of a line with the ellipsoid. -/
theorem on_line (e : Axes) (p r : V3) (hA : 0 < e.form r r) (hD : 0 ≤ e.form p r ^ 2 - e.form r r * (e.form p p - 1))
    (t : ℝ) : OnEarth e.a e.c (along p r t) ↔
      t = (-e.form p r - Real.sqrt (e.form p r ^ 2 - e.form r r * (e.form p p - 1))) / e.form r r ∨
      t = (-e.form p r + Real.sqrt (e.form p r ^ 2 - e.form r r * (e.form p p - 1))) / e.form r r := by
  unfold OnEarth
  rw [depth_along]
  set A := e.form r r
  set B := e.form p r
  set C := e.form p p
  set q := Real.sqrt (B ^ 2 - A * (C - 1)) with hq
  have hqq : q ^ 2 = B ^ 2 - A * (C - 1) := Real.sq_sqrt hD
  rw [eq_div_iff hA.ne', eq_div_iff hA.ne']
  constructor
  · intro h
    have : (t * A - (-B - q)) * (t * A - (-B + q)) = 0 := by
      have : (t * A - (-B - q)) * (t * A - (-B + q)) = A * (A * t ^ 2 + 2 * B * t + C - 1) +
          (B ^ 2 - A * (C - 1) - q ^ 2) := by ring
      rw [this, hqq, h]; ring
    rcases mul_eq_zero.mp this with h | h
    · left; linarith
    · right; linarith
  · intro h
    have h0 : (t * A - (-B - q)) * (t * A - (-B + q)) = 0 := by
      rcases h with h | h
      · rw [h]; ring
      · rw [h]; ring
    have : A * (A * t ^ 2 + 2 * B * t + C - 1) = 0 := by
      have : A * (A * t ^ 2 + 2 * B * t + C - 1) =
        (t * A - (-B - q)) * (t * A - (-B + q)) - (B ^ 2 - A * (C - 1) - q ^ 2) := by ring
      rw [this, h0, hqq]; ring
    rcases mul_eq_zero.mp this with h | h
    · exact absurd h hA.ne'
    · linarith

theorem disc_nonneg (e : Axes) (p r : V3) {t : ℝ} (h : OnEarth e.a e.c (along p r t)) :
    0 ≤ e.form p r ^ 2 - e.form r r * (e.form p p - 1) := by
  unfold OnEarth at h
  rw [depth_along] at h
  have : e.form p r ^ 2 - e.form r r * (e.form p p - 1) = (e.form r r * t + e.form p r) ^ 2 := by
    linear_combination (-e.form r r) * h
  rw [this]
  exact sq_nonneg _

/-- What `surfpt` finds is where the line of sight first meets the ellipsoid. -/
theorem surfpt_some (e : Axes) (p r : V3) (hA : 0 < e.form r r) {x : V3} (h : surfpt e p r = some x) :
    FirstMet e.a e.c p r x := by
  unfold surfpt at h
  simp only at h
  split at h
  · cases h
  rename_i hD
  push Not at hD
  have hq := Real.sqrt_nonneg (e.form p r ^ 2 - e.form r r * (e.form p p - 1))
  have key := on_line e p r hA hD
  have hle : (-e.form p r - Real.sqrt (e.form p r ^ 2 - e.form r r * (e.form p p - 1))) / e.form r r ≤
      (-e.form p r + Real.sqrt (e.form p r ^ 2 - e.form r r * (e.form p p - 1))) / e.form r r :=
    div_le_div_of_nonneg_right (by linarith) hA.le
  split at h
  · rename_i h1
    cases h
    refine ⟨_, h1, rfl, (key _).mpr (Or.inl rfl), fun u _ hu hon => ?_⟩
    rcases (key u).mp hon with e' | e' <;> linarith
  · rename_i h1
    push Not at h1
    split at h
    · rename_i h2
      cases h
      refine ⟨_, h2, rfl, (key _).mpr (Or.inr rfl), fun u hu0 hu hon => ?_⟩
      rcases (key u).mp hon with e' | e' <;> linarith
    · cases h

/-- When `surfpt` finds nothing, the line of sight misses the ellipsoid. -/
theorem surfpt_none (e : Axes) (p r : V3) (hA : 0 < e.form r r) :
    surfpt e p r = none ↔ Misses e.a e.c p r := by
  constructor
  · intro h t ht hon
    have hD := disc_nonneg e p r hon
    have key := (on_line e p r hA hD t).mp hon
    unfold surfpt at h
    simp only at h
    rw [if_neg (not_lt.mpr hD)] at h
    split at h
    · cases h
    · rename_i h1
      split at h
      · cases h
      · rename_i h2
        rcases key with e' | e'
        · exact h1 (e' ▸ ht)
        · exact h2 (e' ▸ ht)
  · intro h
    cases hs : surfpt e p r with
    | none => rfl
    | some x =>
      obtain ⟨t, ht, rfl, hon, -⟩ := surfpt_some e p r hA hs
      exact absurd hon (h t ht)

/-- Where a line of sight first meets the Earth is in sight. -/
theorem inSight_of_first {a c : ℝ} {p r x : V3} (hp : Above a c p) (h : FirstMet a c p r x) : InSight a c p x := by
  obtain ⟨t, ht, rfl, hon, hfirst⟩ := h
  refine ⟨hon, fun u hu0 hu1 => ?_⟩
  have ht0 : 0 < t := by
    rcases ht.lt_or_eq with h | h
    · exact h
    · exfalso
      subst h
      have : along p r 0 = p := by ext <;> simp [along]
      rw [this] at hon
      unfold Above at hp
      rw [hon] at hp
      exact lt_irrefl _ hp
  have e1 : along p ⟨(along p r t).x - p.x, (along p r t).y - p.y, (along p r t).z - p.z⟩ u = along p r (u * t) := by
    ext <;> simp only [along] <;> ring
  rw [e1]
  by_contra hn
  unfold Above at hn hp
  push Not at hn
  have hcont : Continuous fun s : ℝ => depth a c (along p r s) := by
    unfold depth along
    fun_prop
  have h0 : depth a c (along p r 0) = depth a c p := by
    congr 1; ext <;> simp [along]
  have := intermediate_value_Icc' (mul_nonneg hu0 ht) hcont.continuousOn
  obtain ⟨s, ⟨hs0, hs1⟩, hs⟩ := this ⟨hn, by rw [h0]; exact hp.le⟩
  exact hfirst s hs0 (by nlinarith) hs

/-- A point in which a line from the satellite touches the Earth is in sight. -/
theorem inSight_of_touch (e : Axes) {p x : V3} (hp : Above e.a e.c p) (h1 : e.form x x = 1) (h2 : e.form x p = 1) :
    InSight e.a e.c p x := by
  unfold InSight OnEarth Above at *
  rw [depth_eq] at hp
  refine ⟨by rw [depth_eq, h1], fun u _ hu1 => ?_⟩
  have : depth e.a e.c (along p ⟨x.x - p.x, x.y - p.y, x.z - p.z⟩ u) =
      (1 - u) ^ 2 * e.form p p + 2 * u * (1 - u) * e.form x p + u ^ 2 * e.form x x := by
    unfold depth Axes.form along; ring
  rw [this, h1, h2]
  have h3 : 0 < (1 - u) ^ 2 := by have : 0 < 1 - u := by linarith
                                  positivity
  nlinarith

/-! ## The limb -/

theorem form_polar (e : Axes) (x p : V3) : e.form x p = (e.polar p).dot x := by
  unfold Axes.form Axes.polar V3.dot; ring

/-- A plane with the given normal through the satellite holds a point of the limb. -/
def Cuts (e : Axes) (p normal : V3) : Prop :=
  ∃ y, e.form y y = 1 ∧ e.form y p = 1 ∧ normal.dot ⟨y.x - p.x, y.y - p.y, y.z - p.z⟩ = 0

/-- A vector that is orthogonal to two vectors is a multiple of their product. -/
theorem parallel_cross (g n z : V3) (hg : g.dot z = 0) (hn : n.dot z = 0) (hd : g.cross n ≠ ⟨0, 0, 0⟩) :
    z = (g.cross n).smul ((g.cross n).dot z / (g.cross n).dot (g.cross n)) := by
  have hp := dot_self_pos hd
  set d := g.cross n with hdd
  have c1 : d.y * z.z - d.z * z.y = 0 := by
    rw [hdd]; unfold V3.dot at hg hn; simp only [V3.cross]; linear_combination n.x * hg - g.x * hn
  have c2 : d.z * z.x - d.x * z.z = 0 := by
    rw [hdd]; unfold V3.dot at hg hn; simp only [V3.cross]; linear_combination n.y * hg - g.y * hn
  have c3 : d.x * z.y - d.y * z.x = 0 := by
    rw [hdd]; unfold V3.dot at hg hn; simp only [V3.cross]; linear_combination n.z * hg - g.z * hn
  ext
  · simp only [V3.smul]; rw [div_mul_eq_mul_div, eq_div_iff hp.ne']; unfold V3.dot
    linear_combination d.z * c2 - d.y * c3
  · simp only [V3.smul]; rw [div_mul_eq_mul_div, eq_div_iff hp.ne']; unfold V3.dot
    linear_combination d.x * c3 - d.z * c1
  · simp only [V3.smul]; rw [div_mul_eq_mul_div, eq_div_iff hp.ne']; unfold V3.dot
    linear_combination d.y * c1 - d.x * c2

/-- The two points found in the plane touch the Earth, when the plane cuts the limb; they are in the plane, and no other
point of the limb is. -/
theorem limbCut_spec (e : Axes) (ha : 0 < e.a) (hc : 0 < e.c) {p n y : V3} (hp : Above e.a e.c p)
    (hn : n ≠ ⟨0, 0, 0⟩) (hy1 : e.form y y = 1) (hy2 : e.form y p = 1)
    (hy3 : n.dot ⟨y.x - p.x, y.y - p.y, y.z - p.z⟩ = 0) :
    ((e.form (limbCut e p n).1 (limbCut e p n).1 = 1 ∧ e.form (limbCut e p n).1 p = 1) ∧
    (e.form (limbCut e p n).2 (limbCut e p n).2 = 1 ∧ e.form (limbCut e p n).2 p = 1)) ∧
    (n.dot (limbCut e p n).1 = n.dot p ∧ n.dot (limbCut e p n).2 = n.dot p) ∧
    (y = (limbCut e p n).1 ∨ y = (limbCut e p n).2) := by
  have hnn := dot_self_pos hn
  unfold Above at hp
  rw [depth_eq] at hp
  set g := e.polar p with hg
  have hyg : g.dot y = 1 := by rw [hg, ← form_polar]; exact hy2
  have hpg : g.dot p = e.form p p := by rw [hg, ← form_polar]
  have hd : g.cross n ≠ ⟨0, 0, 0⟩ := by
    intro h0
    have h1 := congrArg V3.x h0
    have h2 := congrArg V3.y h0
    have h3 := congrArg V3.z h0
    have : (g.dot y - g.dot p) * n.dot n = 0 := by
      simp only [V3.cross] at h1 h2 h3
      unfold V3.dot at hy3 ⊢
      simp only at hy3
      linear_combination (g.x * n.x + g.y * n.y + g.z * n.z) * hy3 +
        ((y.y - p.y) * n.z - (y.z - p.z) * n.y) * h1 + ((y.z - p.z) * n.x - (y.x - p.x) * n.z) * h2 +
        ((y.x - p.x) * n.y - (y.y - p.y) * n.x) * h3
    rcases mul_eq_zero.mp this with h | h
    · rw [hyg, hpg] at h; linarith
    · exact hnn.ne' h
  have hdd := dot_self_pos hd
  have hA := form_pos e ha hc hd
  set d := g.cross n with hdef
  have hgw : g.dot (n.cross d) = d.dot d := by
    rw [hdef]; simp only [V3.dot, V3.cross]; ring
  have hgd : g.dot d = 0 := by rw [hdef]; simp only [V3.dot, V3.cross]; ring
  have hnw : n.dot (n.cross d) = 0 := by simp only [V3.dot, V3.cross]; ring
  set x := p.add ((n.cross d).smul ((1 - g.dot p) / g.dot (n.cross d))) with hx
  have hgx : g.dot x = 1 := by
    have : g.dot x = g.dot p + (1 - g.dot p) / g.dot (n.cross d) * g.dot (n.cross d) := by
      rw [hx]; simp only [V3.add, V3.smul, V3.dot]; ring
    rw [this, div_mul_cancel₀ _ (by rw [hgw]; exact hdd.ne')]; ring
  have hnx : n.dot ⟨y.x - x.x, y.y - x.y, y.z - x.z⟩ = 0 := by
    have : n.dot ⟨y.x - x.x, y.y - x.y, y.z - x.z⟩ = n.dot ⟨y.x - p.x, y.y - p.y, y.z - p.z⟩ -
        (1 - g.dot p) / g.dot (n.cross d) * n.dot (n.cross d) := by
      rw [hx]; simp only [V3.add, V3.smul, V3.dot]; ring
    rw [this, hy3, hnw]; ring
  have hgz : g.dot ⟨y.x - x.x, y.y - x.y, y.z - x.z⟩ = 0 := by
    have : g.dot ⟨y.x - x.x, y.y - x.y, y.z - x.z⟩ = g.dot y - g.dot x := by simp only [V3.dot]; ring
    rw [this, hyg, hgx]; ring
  have hz := parallel_cross g n _ hgz hnx hd
  rw [← hdef] at hz
  set t := d.dot ⟨y.x - x.x, y.y - x.y, y.z - x.z⟩ / d.dot d
  have hyx : y = along x d t := by
    have h1 := congrArg V3.x hz
    have h2 := congrArg V3.y hz
    have h3 := congrArg V3.z hz
    simp only [V3.smul] at h1 h2 h3
    ext
    · simp only [along]; linarith
    · simp only [along]; linarith
    · simp only [along]; linarith
  have hon : OnEarth e.a e.c (along x d t) := by
    unfold OnEarth; rw [← hyx, depth_eq, hy1]
  have hD := disc_nonneg e x d hon
  have hline := on_line e x d hA hD
  have hflat : ∀ u, e.form (along x d u) p = 1 := by
    intro u
    have : e.form (along x d u) p = g.dot x + u * g.dot d := by
      rw [hg, ← form_polar, ← form_polar]; unfold Axes.form along; ring
    rw [this, hgx, hgd]; ring
  have e1 := (hline _).mpr (Or.inr rfl)
  have e2 := (hline _).mpr (Or.inl rfl)
  unfold OnEarth at e1 e2
  rw [depth_eq] at e1 e2
  have hnd : n.dot d = 0 := by rw [hdef]; simp only [V3.dot, V3.cross]; ring
  have hnp : ∀ u, n.dot (along x d u) = n.dot p := by
    intro u
    have : n.dot (along x d u) = n.dot p + (1 - g.dot p) / g.dot (n.cross d) * n.dot (n.cross d) + u * n.dot d := by
      rw [hx]; simp only [V3.add, V3.smul, V3.dot, along]; ring
    rw [this, hnw, hnd]; ring
  refine ⟨⟨⟨e1, hflat _⟩, ⟨e2, hflat _⟩⟩, ⟨hnp _, hnp _⟩, ?_⟩
  rcases (hline t).mp hon with ht | ht
  · exact .inr (by rw [hyx, ht]; rfl)
  · exact .inl (by rw [hyx, ht]; rfl)

/-- The two points found in the plane touch the Earth, when the plane cuts the limb. -/
theorem limbCut_touch (e : Axes) (ha : 0 < e.a) (hc : 0 < e.c) {p n : V3} (hp : Above e.a e.c p)
    (hn : n ≠ ⟨0, 0, 0⟩) (h : Cuts e p n) :
    (e.form (limbCut e p n).1 (limbCut e p n).1 = 1 ∧ e.form (limbCut e p n).1 p = 1) ∧
    (e.form (limbCut e p n).2 (limbCut e p n).2 = 1 ∧ e.form (limbCut e p n).2 p = 1) := by
  obtain ⟨y, hy1, hy2, hy3⟩ := h
  exact (limbCut_spec e ha hc hp hn hy1 hy2 hy3).1

/-- A plane through the satellite and the centre of the Earth cuts the limb. -/
theorem cuts_of_centre (e : Axes) (ha : 0 < e.a) (hc : 0 < e.c) {p n : V3} (hp : Above e.a e.c p)
    (hn : n ≠ ⟨0, 0, 0⟩) (h : n.dot p = 0) : Cuts e p n := by
  have hnn := dot_self_pos hn
  unfold Above at hp
  rw [depth_eq] at hp
  set g := e.polar p with hg
  have hpg : g.dot p = e.form p p := by rw [hg, ← form_polar]
  have hd : g.cross n ≠ ⟨0, 0, 0⟩ := by
    intro h0
    have h1 := congrArg V3.x h0
    have h2 := congrArg V3.y h0
    have h3 := congrArg V3.z h0
    have : g.dot p * n.dot n = 0 := by
      simp only [V3.cross] at h1 h2 h3
      unfold V3.dot at h ⊢
      linear_combination (g.x * n.x + g.y * n.y + g.z * n.z) * h +
        (p.y * n.z - p.z * n.y) * h1 + (p.z * n.x - p.x * n.z) * h2 + (p.x * n.y - p.y * n.x) * h3
    rcases mul_eq_zero.mp this with h | h
    · rw [hpg] at h; linarith
    · exact hnn.ne' h
  have hA := form_pos e ha hc hd
  set d := g.cross n with hdef
  have hgd : g.dot d = 0 := by rw [hdef]; simp only [V3.dot, V3.cross]; ring
  have hnd : n.dot d = 0 := by rw [hdef]; simp only [V3.dot, V3.cross]; ring
  have hfd : e.form d p = 0 := by rw [form_polar, ← hg, hgd]
  set Q := e.form p p with hQ
  have hQ0 : 0 < Q := by linarith
  have ht : 0 ≤ (1 - 1 / Q) / e.form d d := by
    apply div_nonneg _ hA.le
    have : 1 / Q ≤ 1 := by rw [div_le_one hQ0]; exact hp.le
    linarith
  refine ⟨along (p.smul (1 / Q)) d (Real.sqrt ((1 - 1 / Q) / e.form d d)), ?_, ?_, ?_⟩
  · have : ∀ t, e.form (along (p.smul (1 / Q)) d t) (along (p.smul (1 / Q)) d t) =
        (1 / Q) ^ 2 * e.form p p + 2 * t * (1 / Q) * e.form d p + t ^ 2 * e.form d d := by
      intro t; unfold Axes.form along V3.smul; ring
    rw [this, hfd, Real.sq_sqrt ht, ← hQ]
    field_simp
    ring
  · have : ∀ t, e.form (along (p.smul (1 / Q)) d t) p = 1 / Q * e.form p p + t * e.form d p := by
      intro t; unfold Axes.form along V3.smul; ring
    rw [this, hfd, ← hQ]
    field_simp
    ring
  · have : ∀ t, n.dot ⟨(along (p.smul (1 / Q)) d t).x - p.x, (along (p.smul (1 / Q)) d t).y - p.y,
        (along (p.smul (1 / Q)) d t).z - p.z⟩ = (1 / Q - 1) * n.dot p + t * n.dot d := by
      intro t; simp only [along, V3.smul, V3.dot]; ring
    rw [this, h, hnd]; ring

/-! ## Rays and planes of a satellite -/

/-- The satellite does not move straight up or down. -/
def Sideways (s : State) : Prop := s.position.cross s.velocity ≠ ⟨0, 0, 0⟩

theorem Level.sideways {s : State} (h : Level s) : Sideways s := by
  intro h0
  have h1 := congrArg V3.x h0
  have h2 := congrArg V3.y h0
  have h3 := congrArg V3.z h0
  have hp := dot_self_pos h.position
  have hv := dot_self_pos h.velocity
  have hl := h.level
  have : s.position.dot s.position * s.velocity.dot s.velocity = 0 := by
    simp only [V3.cross] at h1 h2 h3
    set p := s.position
    set v := s.velocity
    unfold V3.dot at hl ⊢
    linear_combination (p.x * v.x + p.y * v.y + p.z * v.z) * hl + (p.y * v.z - p.z * v.y) * h1 +
      (p.z * v.x - p.x * v.z) * h2 + (p.x * v.y - p.y * v.x) * h3
  nlinarith [mul_pos hp hv]

theorem Sideways.velocity {s : State} (h : Sideways s) : s.velocity ≠ ⟨0, 0, 0⟩ := by
  intro h0; apply h; rw [h0]; ext <;> simp [V3.cross]

theorem Sideways.position {s : State} (h : Sideways s) : s.position ≠ ⟨0, 0, 0⟩ := by
  intro h0; apply h; rw [h0]; ext <;> simp [V3.cross]

theorem Sideways.n_ne {s : State} (h : Sideways s) : s.n ≠ ⟨0, 0, 0⟩ := by
  have hp := Real.sqrt_pos.mpr (dot_self_pos h.position)
  have hv := Real.sqrt_pos.mpr (dot_self_pos h.velocity)
  intro h0
  apply h
  have key : s.position.cross s.velocity = s.n.smul (Real.sqrt (s.position.dot s.position) *
      Real.sqrt (s.velocity.dot s.velocity)) := by
    unfold State.n State.v State.b unit
    ext <;> simp only [V3.cross, V3.smul] <;> field_simp <;> ring
  rw [key, h0]
  ext <;> simp [V3.smul]

theorem ray_ne {s : State} (h : Sideways s) (cf af roll pitch : ℝ) (rect : Bool) (angle : ℝ) :
    ray s cf af roll pitch rect angle ≠ ⟨0, 0, 0⟩ := by
  have key : ∀ α β, rayOf s roll pitch α β ≠ ⟨0, 0, 0⟩ := by
    intro α β h0
    have h1 : (rayOf s roll pitch α β).dot (s.n.cross s.v) = s.n.dot s.n := by
      have hn : s.n.dot s.n = s.b.dot (s.n.cross s.v) := by
        conv_lhs => arg 2; unfold State.n
        simp only [V3.dot, V3.cross]; ring
      rw [hn]; unfold rayOf; simp only [V3.dot, V3.cross, V3.add, V3.smul]; ring
    rw [h0] at h1
    have := dot_self_pos h.n_ne
    rw [← h1] at this
    simp [V3.dot] at this
  unfold ray
  split
  · exact key _ _
  · exact key _ _

theorem limbNormal_ne {s : State} (h : Sideways s) (angle : ℝ) : limbNormal s angle ≠ ⟨0, 0, 0⟩ := by
  intro h0
  have h1 : (limbNormal s angle).dot s.v = Real.sin (Real.pi / 2 + angle) * s.v.dot s.v +
      Real.cos (Real.pi / 2 + angle) * s.n.dot s.v := by
    unfold limbNormal; simp only [V3.dot, V3.add, V3.smul]; ring
  have h2 : (limbNormal s angle).dot s.n = Real.sin (Real.pi / 2 + angle) * s.n.dot s.v +
      Real.cos (Real.pi / 2 + angle) * s.n.dot s.n := by
    unfold limbNormal; simp only [V3.dot, V3.add, V3.smul]; ring
  rw [h0, frame_nv, frame_vv h.velocity] at h1
  rw [h0, frame_nv] at h2
  have hn := dot_self_pos h.n_ne
  simp only [V3.dot, zero_mul, add_zero, mul_one, mul_zero, zero_add] at h1 h2
  have hs := Real.sin_sq_add_cos_sq (Real.pi / 2 + angle)
  have hc : Real.cos (Real.pi / 2 + angle) = 0 := by
    rcases mul_eq_zero.mp h2.symm with h | h
    · exact h
    · unfold V3.dot at hn; linarith
  rw [← h1, hc] at hs
  norm_num at hs

theorem limbNormal_level {s : State} (h : Level s) (angle : ℝ) : (limbNormal s angle).dot s.position = 0 := by
  have hp := Real.sqrt_pos.mpr (dot_self_pos h.position)
  have e1 : s.position = s.b.smul (-Real.sqrt (s.position.dot s.position)) := by
    unfold State.b unit
    ext <;> simp only [V3.smul] <;> field_simp
  have h1 := frame_nb s
  have h2 := frame_vb h.level
  rw [e1]
  have : (limbNormal s angle).dot (s.b.smul (-Real.sqrt (s.position.dot s.position))) =
      -Real.sqrt (s.position.dot s.position) * (Real.sin (Real.pi / 2 + angle) * s.v.dot s.b +
      Real.cos (Real.pi / 2 + angle) * s.n.dot s.b) := by
    unfold limbNormal; simp only [V3.dot, V3.add, V3.smul]; ring
  rw [this, h1, h2]; ring

/-! ## C107 -/

theorem earthAxes_pos {elevation : ℝ} (h : 0 < polarRadius + elevation) :
    0 < (earthAxes elevation).a ∧ 0 < (earthAxes elevation).c := by
  refine ⟨?_, h⟩
  have : polarRadius ≤ equatorialRadius := by unfold polarRadius equatorialRadius; norm_num
  show 0 < equatorialRadius + elevation
  linarith

/-- A projected ray is where the ray meets the Earth first, or a point of the limb when it misses. -/
theorem project_earth (s : State) (cf af roll pitch : ℝ) (rect : Bool) (angle elevation : ℝ)
    (he : 0 < polarRadius + elevation) (hm : Sideways s) :
    (∃ x, FirstMet (equatorialRadius + elevation) (polarRadius + elevation) s.position
        (ray s cf af roll pitch rect angle) x ∧ project earth s cf af roll pitch rect angle elevation = x) ∨
      (Misses (equatorialRadius + elevation) (polarRadius + elevation) s.position
        (ray s cf af roll pitch rect angle) ∧
        project earth s cf af roll pitch rect angle elevation =
          limbPoint s (ray s cf af roll pitch rect angle) angle elevation) := by
  obtain ⟨ha, hc⟩ := earthAxes_pos he
  have hA := form_pos (earthAxes elevation) ha hc (ray_ne hm cf af roll pitch rect angle)
  unfold project
  simp only [earth]
  cases h : surfpt (earthAxes elevation) s.position (ray s cf af roll pitch rect angle) with
  | some x => exact Or.inl ⟨x, surfpt_some _ _ _ hA h, rfl⟩
  | none => exact Or.inr ⟨(surfpt_none _ _ _ hA).mp h, rfl⟩

theorem limbPoint_inSight {s : State} (hm : Sideways s) {elevation angle : ℝ} (he : 0 < polarRadius + elevation)
    (hp : Above (equatorialRadius + elevation) (polarRadius + elevation) s.position)
    (hcut : Cuts (earthAxes elevation) s.position (limbNormal s angle)) (r : V3) :
    InSight (equatorialRadius + elevation) (polarRadius + elevation) s.position (limbPoint s r angle elevation) := by
  obtain ⟨ha, hc⟩ := earthAxes_pos he
  obtain ⟨⟨h1, h2⟩, ⟨h3, h4⟩⟩ := limbCut_touch (earthAxes elevation) ha hc hp (limbNormal_ne hm angle) hcut
  unfold limbPoint
  simp only
  split
  · exact inSight_of_touch (earthAxes elevation) hp h1 h2
  · exact inSight_of_touch (earthAxes elevation) hp h3 h4

/-- Whatever the field of view, roll, pitch, angle and elevation: a ray that is projected from a satellite above the
ground, whose velocity is level, gives a point of the ground that the satellite sees. -/
theorem C107_in_sight (s : State) (cf af roll pitch : ℝ) (rect : Bool) (angle elevation : ℝ)
    (he : 0 < polarRadius + elevation) (hs : Level s)
    (hp : Above (equatorialRadius + elevation) (polarRadius + elevation) s.position) :
    InSight (equatorialRadius + elevation) (polarRadius + elevation) s.position
      (project earth s cf af roll pitch rect angle elevation) := by
  rcases project_earth s cf af roll pitch rect angle elevation he hs.sideways with ⟨x, hx, h⟩ | ⟨_, h⟩
  · rw [h]; exact inSight_of_first hp hx
  · rw [h]
    obtain ⟨ha, hc⟩ := earthAxes_pos he
    exact limbPoint_inSight hs.sideways he hp
      (cuts_of_centre _ ha hc hp (limbNormal_ne hs.sideways angle) (limbNormal_level hs angle)) _

/-- Also when the velocity is not level, if the ray meets the ground or the plane of its angle cuts the limb. -/
theorem C107_in_sight_partial (s : State) (cf af roll pitch : ℝ) (rect : Bool) (angle elevation : ℝ)
    (he : 0 < polarRadius + elevation) (hm : Sideways s)
    (hp : Above (equatorialRadius + elevation) (polarRadius + elevation) s.position)
    (hcut : ¬ Misses (equatorialRadius + elevation) (polarRadius + elevation) s.position
        (ray s cf af roll pitch rect angle) ∨ Cuts (earthAxes elevation) s.position (limbNormal s angle)) :
    InSight (equatorialRadius + elevation) (polarRadius + elevation) s.position
      (project earth s cf af roll pitch rect angle elevation) := by
  rcases project_earth s cf af roll pitch rect angle elevation he hm with ⟨x, hx, h⟩ | ⟨hmiss, h⟩
  · rw [h]; exact inSight_of_first hp hx
  · rw [h]
    rcases hcut with h' | h'
    · exact absurd hmiss h'
    · exact limbPoint_inSight hm he hp h' _

/-- Every vertex of the footprint of a pointed instrument is a point of the ground that the satellite sees. -/
theorem C107_footprint (i : Pointed) (s : State) (n : Nat) (elevation : ℝ) (he : 0 < polarRadius + elevation)
    (hs : Level s) (hp : Above (equatorialRadius + elevation) (polarRadius + elevation) s.position) (x : V3)
    (hx : x ∈ i.footprint s n elevation) :
    InSight (equatorialRadius + elevation) (polarRadius + elevation) s.position x := by
  unfold Pointed.footprint footprintPoints at hx
  obtain ⟨angle, -, rfl⟩ := List.mem_map.mp hx
  exact C107_in_sight s _ _ _ _ _ _ _ he hs hp

/-- So is the centre of a pixel or of a footprint. -/
theorem C107_center (i : Pointed) (s : State) (elevation : ℝ) (he : 0 < polarRadius + elevation)
    (hs : Level s) (hp : Above (equatorialRadius + elevation) (polarRadius + elevation) s.position) :
    InSight (equatorialRadius + elevation) (polarRadius + elevation) s.position (i.center earth s elevation) :=
  C107_in_sight s _ _ _ _ _ _ _ he hs hp

theorem someState_above : Above (equatorialRadius + 0) (polarRadius + 0) someState.position := by
  unfold Above depth someState equatorialRadius polarRadius
  norm_num

/-- The hypotheses are met by a satellite 7000 km from the Earth's centre. -/
example (i : Pointed) (n : Nat) (x : V3) (hx : x ∈ i.footprint someState n 0) :
    InSight (equatorialRadius + 0) (polarRadius + 0) someState.position x :=
  C107_footprint i someState n 0 (by unfold polarRadius; norm_num) someState_level someState_above x hx

/-- A satellite 25512.5 km from the Earth's centre, climbing at 45 degrees, as one on a Molniya orbit does. -/
noncomputable def climbing : State := ⟨⟨4 * equatorialRadius, 0, 0⟩, ⟨4000, 0, 4000⟩⟩

theorem climbing_sideways : Sideways climbing := by
  intro h
  have := congrArg V3.y h
  unfold climbing equatorialRadius at this
  norm_num [V3.cross] at this

theorem climbing_v : climbing.v = ⟨4000 / Real.sqrt 32000000, 0, 4000 / Real.sqrt 32000000⟩ := by
  have : (⟨4000, 0, 4000⟩ : V3).dot ⟨4000, 0, 4000⟩ = 32000000 := by norm_num [V3.dot]
  unfold climbing State.v unit
  simp only [this]
  ext <;> simp only [V3.smul] <;> ring

/-- The coordinates of a point of the ground are at most its largest radius. -/
theorem onEarth_le {a c : ℝ} (ha : 0 < a) (hc : 0 < c) (hca : c ≤ a) {x : V3} (h : OnEarth a c x) :
    x.x ^ 2 + x.y ^ 2 + x.z ^ 2 ≤ a ^ 2 := by
  unfold OnEarth depth at h
  have h1 : x.z ^ 2 / a ^ 2 ≤ x.z ^ 2 / c ^ 2 := by
    apply div_le_div_of_nonneg_left (sq_nonneg _) (by positivity)
    exact pow_le_pow_left₀ hc.le hca 2
  have h2 : (x.x ^ 2 + x.y ^ 2) / a ^ 2 + x.z ^ 2 / a ^ 2 ≤ 1 := by linarith
  rw [← add_div, div_le_one (by positivity)] at h2
  exact h2

/-- For a satellite that climbs steeply there is no such point: the plane of the ray has no point of the ground, and what
is returned in its place is not on the ground. -/
theorem C107_steep_false :
    Above (equatorialRadius + 0) (polarRadius + 0) climbing.position ∧ Sideways climbing ∧
    ¬ Cuts (earthAxes 0) climbing.position (limbNormal climbing 0) ∧
    (∀ x : V3, (limbNormal climbing 0).dot ⟨x.x - climbing.position.x, x.y - climbing.position.y,
      x.z - climbing.position.z⟩ = 0 → ¬ OnEarth (equatorialRadius + 0) (polarRadius + 0) x) ∧
    ∀ r, ¬ InSight (equatorialRadius + 0) (polarRadius + 0) climbing.position (limbPoint climbing r 0 0) := by
  have hn : limbNormal climbing 0 = climbing.v := by
    unfold limbNormal
    simp only [add_zero, Real.sin_pi_div_two, Real.cos_pi_div_two]
    ext <;> simp [V3.add, V3.smul]
  have hq : 0 < Real.sqrt 32000000 := Real.sqrt_pos.mpr (by norm_num)
  have hpl : ∀ x : V3, (limbNormal climbing 0).dot ⟨x.x - climbing.position.x, x.y - climbing.position.y,
      x.z - climbing.position.z⟩ = 0 → ¬ OnEarth (equatorialRadius + 0) (polarRadius + 0) x := by
    intro x hx hon
    have hb := onEarth_le (by unfold equatorialRadius; norm_num) (by unfold polarRadius; norm_num)
      (by unfold polarRadius equatorialRadius; norm_num) hon
    rw [hn, climbing_v] at hx
    have hs : x.x + x.z = 4 * equatorialRadius := by
      unfold climbing V3.dot at hx
      simp only at hx
      have : 4000 / Real.sqrt 32000000 * (x.x - 4 * equatorialRadius + x.z) = 0 := by linarith
      rcases mul_eq_zero.mp this with h | h
      · exact absurd h (by positivity)
      · linarith
    have he : (0 : ℝ) < equatorialRadius := by unfold equatorialRadius; norm_num
    nlinarith [sq_nonneg (x.x - x.z), sq_nonneg x.y]
  refine ⟨?_, climbing_sideways, ?_, hpl, fun r hr => ?_⟩
  · unfold Above depth climbing equatorialRadius polarRadius; norm_num
  · rintro ⟨y, h1, -, h3⟩
    refine hpl y h3 ?_
    unfold OnEarth
    rw [← h1]; exact depth_eq (earthAxes 0) y
  · refine hpl _ ?_ hr.1
    have key : ∀ (p n : V3), n.dot ⟨(limbCut (earthAxes 0) p n).1.x - p.x, (limbCut (earthAxes 0) p n).1.y - p.y,
          (limbCut (earthAxes 0) p n).1.z - p.z⟩ = 0 ∧
        n.dot ⟨(limbCut (earthAxes 0) p n).2.x - p.x, (limbCut (earthAxes 0) p n).2.y - p.y,
          (limbCut (earthAxes 0) p n).2.z - p.z⟩ = 0 := by
      intro p n
      have hw : ∀ (d : V3) (k t : ℝ), n.dot d = 0 →
          n.dot ⟨((p.add ((n.cross d).smul k)).add (d.smul t)).x - p.x,
            ((p.add ((n.cross d).smul k)).add (d.smul t)).y - p.y,
            ((p.add ((n.cross d).smul k)).add (d.smul t)).z - p.z⟩ = 0 := by
        intro d k t hd
        unfold V3.dot at hd
        simp only [V3.dot, V3.add, V3.smul, V3.cross]
        linear_combination t * hd
      have hd : n.dot (((earthAxes 0).polar p).cross n) = 0 := by simp only [V3.dot, V3.cross]; ring
      exact ⟨hw _ _ _ hd, hw _ _ _ hd⟩
    unfold limbPoint
    simp only
    split
    · exact (key _ _).1
    · exact (key _ _).2

/-! ## C108 -/

/-- A ray that meets the ground is projected to where it first does. -/
theorem C108_first_met (s : State) (cf af roll pitch : ℝ) (rect : Bool) (angle elevation : ℝ)
    (he : 0 < polarRadius + elevation) (hm : Sideways s)
    (hit : ¬ Misses (equatorialRadius + elevation) (polarRadius + elevation) s.position
      (ray s cf af roll pitch rect angle)) :
    FirstMet (equatorialRadius + elevation) (polarRadius + elevation) s.position (ray s cf af roll pitch rect angle)
      (project earth s cf af roll pitch rect angle elevation) := by
  rcases project_earth s cf af roll pitch rect angle elevation he hm with ⟨x, hx, h⟩ | ⟨hmiss, _⟩
  · rw [h]; exact hx
  · exact absurd hmiss hit

/-- Every vertex of the footprint of a pointed instrument is where the ray of its fields of view, turned by its roll and
pitch, first meets the ground, if it does. -/
theorem C108_footprint (i : Pointed) (s : State) (n : Nat) (elevation : ℝ) (he : 0 < polarRadius + elevation)
    (hm : Sideways s) (k : Nat) (angle : ℝ)
    (hk : (footprintAngles i.crossFov i.alongFov i.rectangular n)[k]? = some angle)
    (hit : ¬ Misses (equatorialRadius + elevation) (polarRadius + elevation) s.position
      (ray s i.crossFov i.alongFov i.roll i.pitch i.rectangular angle)) :
    ∃ x, (i.footprint s n elevation)[k]? = some x ∧
      FirstMet (equatorialRadius + elevation) (polarRadius + elevation) s.position
        (ray s i.crossFov i.alongFov i.roll i.pitch i.rectangular angle) x := by
  refine ⟨_, ?_, C108_first_met s i.crossFov i.alongFov i.roll i.pitch i.rectangular angle elevation he hm hit⟩
  simp only [Pointed.footprint, footprintPoints, List.getElem?_map, hk, Option.map_some]

/-- The ray to the nadir meets the ground. -/
theorem nadir_hits (s : State) (elevation : ℝ) (he : 0 < polarRadius + elevation) (hp : s.position ≠ ⟨0, 0, 0⟩)
    (hab : Above (equatorialRadius + elevation) (polarRadius + elevation) s.position) :
    ¬ Misses (equatorialRadius + elevation) (polarRadius + elevation) s.position (ray s 0 0 0 0 false 0) := by
  intro h
  have hr : ray s 0 0 0 0 false 0 = s.b := by
    unfold ray ellipse; simp only [zero_div, radians_zero, Real.tan_zero, mul_zero]; exact rayOf_zero s
  rw [hr] at h
  obtain ⟨ha, hc⟩ := earthAxes_pos he
  have hq := Real.sqrt_pos.mpr (dot_self_pos hp)
  unfold Above at hab
  have hde := depth_eq (earthAxes elevation) s.position
  change depth (equatorialRadius + elevation) (polarRadius + elevation) s.position = _ at hde
  set Q := (earthAxes elevation).form s.position s.position with hQ
  rw [hde] at hab
  have hsq : 1 / Real.sqrt Q ≤ 1 := by
    rw [div_le_one (Real.sqrt_pos.mpr (by linarith))]
    exact Real.le_sqrt_of_sq_le (by linarith)
  refine h (Real.sqrt (s.position.dot s.position) * (1 - 1 / Real.sqrt Q)) (mul_nonneg hq.le (by linarith)) ?_
  have e1 : along s.position s.b (Real.sqrt (s.position.dot s.position) * (1 - 1 / Real.sqrt Q)) =
      s.position.smul (1 / Real.sqrt Q) := by
    unfold State.b unit along
    ext <;> simp only [V3.smul] <;> field_simp <;> ring
  unfold OnEarth
  rw [e1]
  have e2 : depth (equatorialRadius + elevation) (polarRadius + elevation) (s.position.smul (1 / Real.sqrt Q)) =
      (1 / Real.sqrt Q) ^ 2 * depth (equatorialRadius + elevation) (polarRadius + elevation) s.position := by
    unfold depth V3.smul; ring
  rw [e2, hde, div_pow, Real.sq_sqrt (by linarith)]
  field_simp

example : FirstMet (equatorialRadius + 0) (polarRadius + 0) someState.position (ray someState 0 0 0 0 false 0)
    (project earth someState 0 0 0 0 false 0 0) :=
  C108_first_met someState 0 0 0 0 false 0 0 (by unfold polarRadius; norm_num) someState_level.sideways
    (nadir_hits someState 0 (by unfold polarRadius; norm_num) someState_level.position someState_above)

/-- 25512.5 km from the Earth's centre, in a circular orbit over the poles. -/
noncomputable def highState : State := ⟨⟨4 * equatorialRadius, 0, 0⟩, ⟨0, 0, 4000⟩⟩

theorem highState_level : Level highState := by
  refine ⟨fun h => ?_, fun h => ?_, ?_⟩
  · have := congrArg V3.x h; norm_num [highState, equatorialRadius] at this
  · have := congrArg V3.z h; norm_num [highState] at this
  · norm_num [highState, V3.dot]

theorem highState_above : Above (equatorialRadius + 0) (polarRadius + 0) highState.position := by
  unfold Above depth highState equatorialRadius polarRadius
  norm_num

/-- An instrument with a circular field of view of 60 degrees that is rolled by 60 degrees. -/
def rolledOut : Pointed :=
  { crossFov := 60, alongFov := 60, roll := 60, pitch := 0, rectangular := false, crossPixels := 1, alongPixels := 1,
    crossOver := 0, alongOver := 0 }

theorem rolledOut_valid : rolledOut.Valid := by
  constructor <;> norm_num [rolledOut]

theorem highState_b : highState.b = ⟨-1, 0, 0⟩ := by
  have h : (0 : ℝ) < equatorialRadius := by unfold equatorialRadius; norm_num
  have : Real.sqrt ((⟨4 * equatorialRadius, 0, 0⟩ : V3).dot ⟨4 * equatorialRadius, 0, 0⟩) = 4 * equatorialRadius := by
    simp only [V3.dot, mul_zero, add_zero]
    exact Real.sqrt_mul_self (by linarith)
  unfold highState State.b unit
  simp only [this]
  ext
  · simp only [V3.smul]; field_simp
  · simp [V3.smul]
  · simp [V3.smul]

theorem highState_v : highState.v = ⟨0, 0, 1⟩ := by
  have : Real.sqrt ((⟨0, 0, 4000⟩ : V3).dot ⟨0, 0, 4000⟩) = 4000 := by
    simp only [V3.dot, mul_zero, zero_add]
    exact Real.sqrt_mul_self (by norm_num)
  unfold highState State.v unit
  simp only [this]
  ext
  · simp [V3.smul]
  · simp [V3.smul]
  · simp [V3.smul]

theorem highState_n : highState.n = ⟨0, -1, 0⟩ := by
  unfold State.n
  rw [highState_b, highState_v]
  ext <;> simp [V3.cross]

theorem tan_radians_60 : Real.tan (radians 60) = Real.sqrt 3 := by
  have : radians 60 = Real.pi / 3 := by unfold radians; ring
  rw [this, Real.tan_pi_div_three]

theorem tan_half {f : ℝ} (h0 : 0 ≤ f) (h1 : f ≤ 60) :
    0 ≤ Real.tan (radians (f / 2)) ∧ Real.tan (radians (f / 2)) ≤ Real.sqrt 3 / 3 := by
  have hpi := Real.pi_pos
  have hlo : 0 ≤ radians (f / 2) := by unfold radians; positivity
  have hhi : radians (f / 2) ≤ Real.pi / 6 := by unfold radians; nlinarith
  constructor
  · exact Real.tan_nonneg_of_nonneg_of_le_pi_div_two hlo (by linarith)
  · have h30 : Real.tan (Real.pi / 6) = Real.sqrt 3 / 3 := by
      rw [Real.tan_pi_div_six]
      have : Real.sqrt 3 ^ 2 = 3 := Real.sq_sqrt (by norm_num)
      have h0 : Real.sqrt 3 ≠ 0 := by positivity
      field_simp; linarith
    rw [← h30]
    rcases hhi.lt_or_eq with h | h
    · exact (Real.tan_lt_tan_of_nonneg_of_lt_pi_div_two hlo (by linarith) h).le
    · rw [h]

/-- No line of sight in its field of view meets the Earth. -/
theorem highState_misses {f : ℝ} (h0 : 0 ≤ f) (h1 : f ≤ 60) (angle : ℝ) :
    Misses (equatorialRadius + 0) (polarRadius + 0) highState.position (ray highState f f 60 0 false angle) := by
  intro t ht hon
  have hb := onEarth_le (by unfold equatorialRadius; norm_num) (by unfold polarRadius; norm_num)
    (by unfold polarRadius equatorialRadius; norm_num) hon
  obtain ⟨t0, t1⟩ := tan_half h0 h1
  have h3 : Real.sqrt 3 ^ 2 = 3 := Real.sq_sqrt (by norm_num)
  have hs3 : 0 < Real.sqrt 3 := by positivity
  set τ := Real.tan (radians (f / 2)) with hτ
  have hk : 2 * Real.sqrt 3 / 3 ≤ Real.sqrt 3 + Real.cos angle * τ := by
    have := Real.neg_one_le_cos angle
    nlinarith
  have hr : ray highState f f 60 0 false angle = ⟨-1, -(Real.sqrt 3 + Real.cos angle * τ), Real.sin angle * τ⟩ := by
    unfold ray rayOf ellipse
    simp only [tan_radians_60, radians_zero, Real.tan_zero, ← hτ]
    rw [highState_b, highState_v, highState_n]
    ext
    · simp [V3.add, V3.smul]
    · simp [V3.add, V3.smul]; ring
    · simp [V3.add, V3.smul]
  rw [hr] at hb
  set k := Real.sqrt 3 + Real.cos angle * τ
  have hk2 : 4 / 3 ≤ k ^ 2 := by nlinarith
  simp only [along, highState, zero_add] at hb
  have he : (0 : ℝ) < equatorialRadius := by unfold equatorialRadius; norm_num
  have hkt : 4 / 3 * t ^ 2 ≤ k ^ 2 * t ^ 2 := mul_le_mul_of_nonneg_right hk2 (sq_nonneg t)
  nlinarith [sq_nonneg (t * (Real.sin angle * τ)), sq_nonneg (7 * t - 12 * equatorialRadius), mul_pos he he]

/-- An instrument whose whole field of view misses the Earth has a footprint on the ground all the same. -/
theorem C108_outside_false (n : Nat) :
    rolledOut.Valid ∧ Level highState ∧
    (∀ f angle, 0 ≤ f → f ≤ rolledOut.crossFov →
      Misses (equatorialRadius + 0) (polarRadius + 0) highState.position
        (ray highState f f rolledOut.roll rolledOut.pitch false angle)) ∧
    (rolledOut.footprint highState n 0).length = n ∧
    ∀ x ∈ rolledOut.footprint highState n 0, InSight (equatorialRadius + 0) (polarRadius + 0) highState.position x :=
  ⟨rolledOut_valid, highState_level, fun _ angle h0 h1 => highState_misses h0 h1 angle,
    by simp [Pointed.footprint, footprintPoints, footprintAngles, linspace, rolledOut],
    fun x hx => C107_footprint rolledOut highState n 0 (by unfold polarRadius; norm_num) highState_level highState_above
      x hx⟩

/-! ## C109 -/

theorem depth_between (e : Axes) (p x : V3) (u : ℝ) (hx : OnEarth e.a e.c x) :
    depth e.a e.c (along p ⟨x.x - p.x, x.y - p.y, x.z - p.z⟩ u) - 1 =
      (1 - u) * ((e.form p p - 1) + u * (2 * e.form x p - e.form p p - 1)) := by
  unfold OnEarth at hx
  rw [depth_eq] at hx
  have : depth e.a e.c (along p ⟨x.x - p.x, x.y - p.y, x.z - p.z⟩ u) =
      (1 - u) ^ 2 * e.form p p + 2 * u * (1 - u) * e.form x p + u ^ 2 * e.form x x := by
    unfold depth Axes.form along; ring
  rw [this, hx]; ring

/-- What is in sight is on the near side of a plane. -/
theorem inSight_iff (e : Axes) {p x : V3} (hp : Above e.a e.c p) (hx : OnEarth e.a e.c x) :
    InSight e.a e.c p x ↔ 1 ≤ e.form x p := by
  have hp' := hp
  unfold Above at hp'
  rw [depth_eq] at hp'
  constructor
  · intro h
    by_contra hn
    push Not at hn
    have hden : 0 < e.form p p + 1 - 2 * e.form x p := by linarith
    have hu0 : 0 ≤ (e.form p p - 1) / (e.form p p + 1 - 2 * e.form x p) := div_nonneg (by linarith) hden.le
    have hu1 : (e.form p p - 1) / (e.form p p + 1 - 2 * e.form x p) < 1 := by
      rw [div_lt_one hden]; linarith
    have h1 := h.2 _ hu0 hu1
    have h2 := depth_between e p x ((e.form p p - 1) / (e.form p p + 1 - 2 * e.form x p)) hx
    have h3 : (e.form p p - 1) + (e.form p p - 1) / (e.form p p + 1 - 2 * e.form x p) *
        (2 * e.form x p - e.form p p - 1) = 0 := by
      field_simp; ring
    rw [h3, mul_zero] at h2
    unfold Above at h1
    linarith
  · intro h
    refine ⟨hx, fun u hu0 hu1 => ?_⟩
    have h2 := depth_between e p x u hx
    unfold Above
    have : 0 < (1 - u) * ((e.form p p - 1) + u * (2 * e.form x p - e.form p p - 1)) := by
      apply mul_pos (by linarith)
      nlinarith
    linarith

/-- The horizon is in that plane. -/
theorem onHorizon_iff (e : Axes) {p x : V3} (hp : Above e.a e.c p) (hx : OnEarth e.a e.c x) :
    OnHorizon e.a e.c p x ↔ e.form x p = 1 := by
  have hp' := hp
  unfold Above at hp'
  rw [depth_eq] at hp'
  constructor
  · intro h
    by_contra hn
    by_cases hden : e.form p p + 1 - 2 * e.form x p = 0
    · have h1 := h.2 2 (by norm_num)
      have h2 := depth_between e p x 2 hx
      unfold Above at h1
      nlinarith
    · have hu1 : (e.form p p - 1) / (e.form p p + 1 - 2 * e.form x p) ≠ 1 := by
        intro h1
        rw [div_eq_one_iff_eq hden] at h1
        exact hn (by linarith)
      have h1 := h.2 _ hu1
      have h2 := depth_between e p x ((e.form p p - 1) / (e.form p p + 1 - 2 * e.form x p)) hx
      have h3 : (e.form p p - 1) + (e.form p p - 1) / (e.form p p + 1 - 2 * e.form x p) *
          (2 * e.form x p - e.form p p - 1) = 0 := by
        field_simp; ring
      rw [h3, mul_zero] at h2
      unfold Above at h1
      linarith
  · intro h
    refine ⟨hx, fun u hu => ?_⟩
    have h2 := depth_between e p x u hx
    have h3 : 0 < (1 - u) ^ 2 := by
      have : 1 - u ≠ 0 := fun h => hu (by linarith)
      positivity
    have h4 : (1 - u) * ((e.form p p - 1) + u * (2 * e.form x p - e.form p p - 1)) = (1 - u) ^ 2 * (e.form p p - 1) := by
      rw [h]; ring
    unfold Above
    rw [h4] at h2
    nlinarith

/-- The horizon is where a plane cuts the Earth, and the satellite sees the ground on the near side of it. -/
theorem C109_plane (p : V3) (elevation : ℝ)
    (hp : Above (equatorialRadius + elevation) (polarRadius + elevation) p) :
    ∃ g : V3, ∀ x, OnEarth (equatorialRadius + elevation) (polarRadius + elevation) x →
      (InSight (equatorialRadius + elevation) (polarRadius + elevation) p x ↔ 1 ≤ g.dot x) ∧
      (OnHorizon (equatorialRadius + elevation) (polarRadius + elevation) p x ↔ g.dot x = 1) := by
  refine ⟨(earthAxes elevation).polar p, fun x hx => ?_⟩
  rw [← form_polar]
  exact ⟨inSight_iff (earthAxes elevation) hp hx, onHorizon_iff (earthAxes elevation) hp hx⟩

/-- The vertices of the limb are on the horizon of the satellite: as many as were asked for, counting the first, which is
also the last, twice. -/
theorem C109_limb (p : V3) (elevation : ℝ) (hp : Above (equatorialRadius + elevation) (polarRadius + elevation) p)
    (l : Ellipse) (hl : EdLimb (earthAxes elevation) p l) (n : Nat) :
    (∀ x ∈ limbVertices l n, OnHorizon (equatorialRadius + elevation) (polarRadius + elevation) p x ∧
      InSight (equatorialRadius + elevation) (polarRadius + elevation) p x) ∧
    (limbVertices l n).length = n ∧
    (2 ≤ n → (limbVertices l n)[0]? = (limbVertices l n)[n - 1]?) := by
  refine ⟨fun x hx => ?_, by simp [limbVertices, linspace], fun hn => ?_⟩
  · unfold limbVertices at hx
    obtain ⟨t, -, rfl⟩ := List.mem_map.mp hx
    obtain ⟨h1, h2⟩ := (hl.touch _).mpr ⟨t, rfl⟩
    have hon : OnEarth (earthAxes elevation).a (earthAxes elevation).c
        ((l.center.add (l.semiMajor.smul (Real.cos t))).add (l.semiMinor.smul (Real.sin t))) := by
      unfold OnEarth; rw [depth_eq, h1]
    exact ⟨(onHorizon_iff (earthAxes elevation) hp hon).mpr h2, inSight_of_touch (earthAxes elevation) hp h1 h2⟩
  · have h0 : 0 < n := by omega
    have h1 : n - 1 < n := by omega
    have hn1 : ((n : ℝ) - 1) ≠ 0 := by
      have : (2 : ℝ) ≤ n := by exact_mod_cast hn
      intro h; linarith
    have e1 : (0 : ℝ) + ((n - 1 : Nat) : ℝ) * ((Real.pi * 2 - 0) / ((n : ℝ) - 1)) = 2 * Real.pi := by
      rw [Nat.cast_sub (by omega), Nat.cast_one]; field_simp; ring
    simp only [limbVertices, linspace, List.map_map, List.getElem?_map, List.getElem?_range h0,
      List.getElem?_range h1, Option.map_some, Function.comp_apply, e1]
    simp

/-- Every point of the horizon is on the ellipse of which the vertices are points. -/
theorem C109_all (p : V3) (elevation : ℝ) (hp : Above (equatorialRadius + elevation) (polarRadius + elevation) p)
    (l : Ellipse) (hl : EdLimb (earthAxes elevation) p l) (x : V3)
    (hx : OnHorizon (equatorialRadius + elevation) (polarRadius + elevation) p x) :
    ∃ t, x = (l.center.add (l.semiMajor.smul (Real.cos t))).add (l.semiMinor.smul (Real.sin t)) := by
  refine (hl.touch x).mp ⟨?_, (onHorizon_iff (earthAxes elevation) hp hx.1).mp hx⟩
  rw [← depth_eq]; exact hx.1

theorem exists_angle {u v : ℝ} (h : u ^ 2 + v ^ 2 = 1) : ∃ t, Real.cos t = u ∧ Real.sin t = v := by
  have h1 : -1 ≤ u := by nlinarith [sq_nonneg v]
  have h2 : u ≤ 1 := by nlinarith [sq_nonneg v]
  have h3 : 1 - u ^ 2 = v ^ 2 := by linarith
  rcases le_total 0 v with hv | hv
  · exact ⟨Real.arccos u, Real.cos_arccos h1 h2, by rw [Real.sin_arccos, h3, Real.sqrt_sq hv]⟩
  · refine ⟨-Real.arccos u, by rw [Real.cos_neg, Real.cos_arccos h1 h2], ?_⟩
    rw [Real.sin_neg, Real.sin_arccos, h3, Real.sqrt_sq_eq_abs, abs_of_nonpos hv, neg_neg]

/-- The limb of a satellite over the equator, at twice the radius of the Earth. -/
noncomputable def someLimb : Ellipse :=
  ⟨⟨(equatorialRadius + 0) / 2, 0, 0⟩, ⟨0, Real.sqrt 3 / 2 * (equatorialRadius + 0), 0⟩,
    ⟨0, 0, Real.sqrt 3 / 2 * (polarRadius + 0)⟩⟩

theorem someLimb_edLimb : EdLimb (earthAxes 0) ⟨2 * (equatorialRadius + 0), 0, 0⟩ someLimb := by
  obtain ⟨ha, hc⟩ := earthAxes_pos (elevation := 0) (by unfold polarRadius; norm_num)
  change 0 < equatorialRadius + 0 at ha
  change 0 < polarRadius + 0 at hc
  constructor
  intro x
  unfold someLimb earthAxes Axes.form
  simp only [V3.add, V3.smul]
  set a := equatorialRadius + 0
  set c := polarRadius + 0
  have h3 : Real.sqrt 3 ^ 2 = 3 := Real.sq_sqrt (by norm_num)
  have hs : 0 < Real.sqrt 3 := by positivity
  constructor
  · rintro ⟨h1, h2⟩
    have hx : x.x = a / 2 := by
      have : (x.x * (2 * a) + x.y * 0) / a ^ 2 + x.z * 0 / c ^ 2 = 2 * x.x / a := by field_simp; ring
      rw [this, div_eq_one_iff_eq ha.ne'] at h2
      linarith
    have hc1 : (x.y / (Real.sqrt 3 / 2 * a)) ^ 2 + (x.z / (Real.sqrt 3 / 2 * c)) ^ 2 = 1 := by
      rw [hx] at h1
      have e1 : (x.y / (Real.sqrt 3 / 2 * a)) ^ 2 = 4 / 3 * (x.y * x.y / a ^ 2) := by
        rw [div_pow, mul_pow, div_pow, h3]; field_simp; ring
      have e2 : (x.z / (Real.sqrt 3 / 2 * c)) ^ 2 = 4 / 3 * (x.z * x.z / c ^ 2) := by
        rw [div_pow, mul_pow, div_pow, h3]; field_simp; ring
      have e3 : (a / 2 * (a / 2) + x.y * x.y) / a ^ 2 = 1 / 4 + x.y * x.y / a ^ 2 := by field_simp; ring
      rw [e1, e2]
      rw [e3] at h1
      linarith
    obtain ⟨t, ht1, ht2⟩ := exists_angle hc1
    refine ⟨t, ?_⟩
    rw [ht1, ht2]
    ext
    · simp only []; linarith
    · simp only []; field_simp; ring
    · simp only []; field_simp; ring
  · rintro ⟨t, rfl⟩
    have hcs := Real.sin_sq_add_cos_sq t
    simp only [mul_zero, add_zero, zero_add]
    constructor
    · field_simp
      nlinarith
    · field_simp
      ring

example : (limbVertices someLimb 16).length = 16 ∧ ∀ x ∈ limbVertices someLimb 16,
    OnHorizon (equatorialRadius + 0) (polarRadius + 0) ⟨2 * (equatorialRadius + 0), 0, 0⟩ x := by
  obtain ⟨h1, h2, -⟩ := C109_limb ⟨2 * (equatorialRadius + 0), 0, 0⟩ 0
    (by unfold Above depth equatorialRadius polarRadius; norm_num) someLimb someLimb_edLimb 16
  exact ⟨h2, fun x hx => (h1 x hx).1⟩

/-! ## C107: the point of the limb that is used -/

theorem dot_limbNormal (s : State) (angle : ℝ) (d : V3) : (limbNormal s angle).dot d =
    Real.cos angle * (s.velocity.dot d / Real.sqrt (s.velocity.dot s.velocity)) -
      Real.sin angle * ((s.velocity.cross (s.position.smul (-1))).dot d /
        (Real.sqrt (s.velocity.dot s.velocity) * Real.sqrt (s.position.dot s.position))) := by
  have h1 : Real.sin (Real.pi / 2 + angle) = Real.cos angle := by rw [add_comm, Real.sin_add_pi_div_two]
  have h2 : Real.cos (Real.pi / 2 + angle) = -Real.sin angle := by rw [add_comm, Real.cos_add_pi_div_two]
  unfold limbNormal
  rw [h1, h2]
  simp only [State.n, State.v, State.b, Ro.unit, V3.dot, V3.add, V3.smul, V3.cross]
  field_simp
  ring

theorem inPlaneOf_iff (s : State) (angle : ℝ) (x : V3) : InPlaneOf s.position s.velocity angle x ↔
    (limbNormal s angle).dot ⟨x.x - s.position.x, x.y - s.position.y, x.z - s.position.z⟩ = 0 := by
  rw [dot_limbNormal, sub_eq_zero]; rfl

theorem angleBetween_arc {r x : V3} (hr : r ≠ ⟨0, 0, 0⟩) (hx : x ≠ ⟨0, 0, 0⟩) {θ : ℝ} (h : AngleBetween r x θ) :
    θ = arcAngle r x := by
  obtain ⟨h0, h1, h2⟩ := h
  have p1 := Real.sqrt_pos.mpr (dot_self_pos hr)
  have p2 := Real.sqrt_pos.mpr (dot_self_pos hx)
  unfold arcAngle
  rw [h2, mul_assoc, mul_div_cancel_left₀ _ p1.ne', mul_div_cancel_left₀ _ p2.ne', Real.arccos_cos h0 h1]

/-- **C107**: for a ray that misses the ground, from a satellite whose velocity is level, the point that is used is on the
horizon, in the plane of the ray's angle; and of all points of the horizon in that plane none makes a smaller angle with the
ray (at the centre of the Earth). -/
theorem C107_limb (s : State) (cf af roll pitch : ℝ) (rect : Bool) (angle elevation : ℝ)
    (he : 0 < polarRadius + elevation) (hs : Level s)
    (hp : Above (equatorialRadius + elevation) (polarRadius + elevation) s.position)
    (hmiss : Misses (equatorialRadius + elevation) (polarRadius + elevation) s.position
      (ray s cf af roll pitch rect angle)) :
    OnHorizon (equatorialRadius + elevation) (polarRadius + elevation) s.position
      (project earth s cf af roll pitch rect angle elevation) ∧
    InPlaneOf s.position s.velocity angle (project earth s cf af roll pitch rect angle elevation) ∧
    ∀ y, OnHorizon (equatorialRadius + elevation) (polarRadius + elevation) s.position y →
      InPlaneOf s.position s.velocity angle y → ∀ θ φ,
      AngleBetween (ray s cf af roll pitch rect angle) (project earth s cf af roll pitch rect angle elevation) θ →
      AngleBetween (ray s cf af roll pitch rect angle) y φ → θ ≤ φ := by
  obtain ⟨ha, hc⟩ := earthAxes_pos he
  have hn := limbNormal_ne hs.sideways angle
  have hr := ray_ne hs.sideways cf af roll pitch rect angle
  obtain ⟨y0, h1, h2, h3⟩ := cuts_of_centre _ ha hc hp hn (limbNormal_level hs angle)
  obtain ⟨⟨⟨t1, t2⟩, t3, t4⟩, ⟨n1, n2⟩, -⟩ := limbCut_spec (earthAxes elevation) ha hc hp hn h1 h2 h3
  have hx : project earth s cf af roll pitch rect angle elevation =
      limbPoint s (ray s cf af roll pitch rect angle) angle elevation := by
    rcases project_earth s cf af roll pitch rect angle elevation he hs.sideways with ⟨x, hx, -⟩ | ⟨-, h⟩
    · obtain ⟨t, ht, hxt, hon, -⟩ := hx
      exact absurd (hxt ▸ hon) (hmiss t ht)
    · exact h
  set r := ray s cf af roll pitch rect angle
  have touch : ∀ x, (earthAxes elevation).form x x = 1 → (earthAxes elevation).form x s.position = 1 →
      OnHorizon (equatorialRadius + elevation) (polarRadius + elevation) s.position x := fun x h h' =>
    (onHorizon_iff (earthAxes elevation) hp (by unfold OnEarth; rw [depth_eq, h])).mpr h'
  have plane : ∀ x, (limbNormal s angle).dot x = (limbNormal s angle).dot s.position →
      InPlaneOf s.position s.velocity angle x := fun x h => by
    rw [inPlaneOf_iff]
    have : (limbNormal s angle).dot ⟨x.x - s.position.x, x.y - s.position.y, x.z - s.position.z⟩ =
      (limbNormal s angle).dot x - (limbNormal s angle).dot s.position := by simp only [V3.dot]; ring
    rw [this, h, sub_self]
  have nonzero : ∀ x, (earthAxes elevation).form x x = 1 → x ≠ ⟨0, 0, 0⟩ := by
    rintro x h rfl
    simp [Axes.form] at h
  rw [hx]
  refine ⟨?_, ?_, ?_⟩
  · unfold limbPoint
    simp only
    split
    · exact touch _ t1 t2
    · exact touch _ t3 t4
  · unfold limbPoint
    simp only
    split
    · exact plane _ n1
    · exact plane _ n2
  · intro y hy hpl θ φ hθ hφ
    have hy1 : (earthAxes elevation).form y y = 1 := by rw [← depth_eq]; exact hy.1
    have hy2 : (earthAxes elevation).form y s.position = 1 := (onHorizon_iff (earthAxes elevation) hp hy.1).mp hy
    obtain ⟨-, -, hy3⟩ := limbCut_spec (earthAxes elevation) ha hc hp hn hy1 hy2 ((inPlaneOf_iff s angle y).mp hpl)
    rw [angleBetween_arc hr (nonzero y hy1) hφ]
    unfold limbPoint at hθ
    simp only at hθ
    split at hθ
    · rename_i hle
      rw [angleBetween_arc hr (nonzero _ t1) hθ]
      rcases hy3 with rfl | rfl
      · exact le_refl _
      · exact hle
    · rename_i hle
      rw [angleBetween_arc hr (nonzero _ t3) hθ]
      rcases hy3 with rfl | rfl
      · exact (not_le.mp hle).le
      · exact le_refl _

/-- The hypotheses are met by every line of sight of the instrument of C108. -/
example (f angle : ℝ) (h0 : 0 ≤ f) (h1 : f ≤ 60) : OnHorizon (equatorialRadius + 0) (polarRadius + 0) highState.position
    (project earth highState f f 60 0 false angle 0) :=
  (C107_limb highState f f 60 0 false angle 0 (by unfold polarRadius; norm_num) highState_level highState_above
    (highState_misses h0 h1 angle)).1

end Tatc.Props
