import Verif.Model.Times
import Verif.Lemmas.Generation

/-! C166: the footprints and limbs of several times. -/

namespace Tatc.Props
open Tatc Tatc.Instruments

/-! ## Lists -/

theorem mapM_forall₂ {α β : Type} (f : α → Except PyErr β) (l : List α) (bs : List β) :
    l.mapM f = .ok bs ↔ List.Forall₂ (fun a b => f a = .ok b) l bs := by
  induction l generalizing bs with
  | nil =>
    rw [List.mapM_nil, List.forall₂_nil_left_iff]
    exact ⟨fun h => (Except.ok.inj h).symm, fun h => by rw [h]; rfl⟩
  | cons a l ih =>
    rw [List.mapM_cons, List.forall₂_cons_left_iff]
    cases ha : f a with
    | error e =>
      constructor
      · intro h; cases h
      · rintro ⟨b, t, hb, -⟩; cases hb
    | ok b =>
      cases hl : l.mapM f with
      | error e =>
        constructor
        · intro h; cases h
        · rintro ⟨b', t, -, ht, -⟩
          rw [(ih t).mpr ht] at hl; cases hl
      | ok t =>
        constructor
        · intro h
          refine ⟨b, t, rfl, (ih t).mp hl, (Except.ok.inj h).symm⟩
        · rintro ⟨b', t', hb, ht, rfl⟩
          rw [(ih t').mpr ht] at hl
          cases hb; cases hl; rfl

theorem ok_bind_eq {α β : Type} (x : Except PyErr α) (f : α → Except PyErr β) (b : β) :
    (x >>= f) = .ok b ↔ ∃ a, x = .ok a ∧ f a = .ok b := by
  cases x with
  | error e => exact ⟨fun h => (nomatch h), fun ⟨a, h, _⟩ => (nomatch h)⟩
  | ok a => exact ⟨fun h => ⟨a, rfl, h⟩, fun ⟨a', h, h'⟩ => by cases h; exact h'⟩

section
variable {Geo G : Type} (g : Globe Geo) (polygon : List Geo → Except PyErr G) (crossFov alongFov roll pitch : ℝ)
  (rectangular : Bool) (n : Nat) (elevation : ℝ)

/-- **C166**, one time: the footprint is the polygon of the projected rays, in the order of their angles. -/
theorem C166_one (s : State) (r : PerTime G) :
    footprintTimes g polygon crossFov alongFov roll pitch rectangular n elevation (.scalar s) = .ok r ↔
      ∃ f, polygon ((footprintAngles crossFov alongFov rectangular n).map fun angle =>
        project g s crossFov alongFov roll pitch rectangular angle elevation) = .ok f ∧ r = .scalar f := by
  have hp : ((footprintAngles crossFov alongFov rectangular n).map fun angle =>
      projectTimes g crossFov alongFov roll pitch rectangular angle elevation (.scalar s)).mapM PerTime.number =
      .ok ((footprintAngles crossFov alongFov rectangular n).map fun angle =>
        project g s crossFov alongFov roll pitch rectangular angle elevation) := by
    rw [mapM_forall₂, List.forall₂_map_left_iff, List.forall₂_map_right_iff]
    exact List.forall₂_same.mpr fun _ _ => rfl
  unfold footprintTimes
  simp only [PerTime.size, PerTime.toList, List.length_singleton, gt_iff_lt, lt_irrefl, if_false, hp, ok_bind_eq]
  constructor
  · rintro ⟨_, h0, f, h, h'⟩
    cases h0
    exact ⟨f, h, (Except.ok.inj h').symm⟩
  · rintro ⟨f, h, rfl⟩
    exact ⟨_, rfl, f, h, rfl⟩

/-- **C166**, where it holds: for an array of two or more times the result is a list, in order, of what each time gives on
its own; it is an error when one of them is. -/
theorem C166_footprints_partial (ss : List State) (h2 : 2 ≤ ss.length) (r : PerTime G) :
    footprintTimes g polygon crossFov alongFov roll pitch rectangular n elevation (.vector ss) = .ok r ↔
      ∃ fs, r = .vector fs ∧ List.Forall₂ (fun s f =>
        footprintTimes g polygon crossFov alongFov roll pitch rectangular n elevation (.scalar s) = .ok (.scalar f)) ss fs := by
  have hitem : ∀ i (hi : i < ss.length), ((footprintAngles crossFov alongFov rectangular n).map fun angle =>
      projectTimes g crossFov alongFov roll pitch rectangular angle elevation (.vector ss)).mapM (PerTime.item i) =
      .ok ((footprintAngles crossFov alongFov rectangular n).map fun angle =>
        project g ss[i] crossFov alongFov roll pitch rectangular angle elevation) := by
    intro i hi
    rw [mapM_forall₂, List.forall₂_map_left_iff, List.forall₂_map_right_iff]
    refine List.forall₂_same.mpr fun _ _ => ?_
    simp [projectTimes, PerTime.item, hi]
  have hlen : (1 : Nat) < ss.length := h2
  have hall : ∀ fs, List.Forall₂ (fun i f => (do
        polygon (← ((footprintAngles crossFov alongFov rectangular n).map fun angle =>
          projectTimes g crossFov alongFov roll pitch rectangular angle elevation (.vector ss)).mapM
            (PerTime.item i))) = .ok f) (List.range ss.length) fs ↔
      List.Forall₂ (fun s f =>
        footprintTimes g polygon crossFov alongFov roll pitch rectangular n elevation (.scalar s) = .ok (.scalar f)) ss fs := by
    intro fs
    have one : ∀ i (h1 : i < ss.length) f, ((do
        polygon (← ((footprintAngles crossFov alongFov rectangular n).map fun angle =>
          projectTimes g crossFov alongFov roll pitch rectangular angle elevation (.vector ss)).mapM
            (PerTime.item i))) = Except.ok f) ↔
        footprintTimes g polygon crossFov alongFov roll pitch rectangular n elevation (.scalar ss[i]) =
          .ok (.scalar f) := by
      intro i h1 f
      rw [hitem i h1, C166_one]
      constructor
      · intro h
        exact ⟨_, h, rfl⟩
      · rintro ⟨f, h, e⟩
        cases e; exact h
    rw [List.forall₂_iff_get, List.forall₂_iff_get]
    simp only [List.get_eq_getElem, List.getElem_range, List.length_range]
    exact and_congr_right fun hl => forall_congr' fun i => forall_congr' fun h1 => forall_congr' fun h1' => one i h1 _
  conv_lhs => unfold footprintTimes
  simp only [PerTime.size, PerTime.toList, gt_iff_lt, hlen, if_true]
  rw [ok_bind_eq]
  simp only [mapM_forall₂ _ (List.range _)]
  constructor
  · rintro ⟨fs, h, h'⟩
    exact ⟨fs, (Except.ok.inj h').symm, (hall fs).mp h⟩
  · rintro ⟨fs, rfl, h⟩
    exact ⟨fs, (hall fs).mpr h, rfl⟩

/-- **C166** fails for an array of one time: the result is that of the time itself, and not a list of it. -/
theorem C166_single_false (s : State) :
    footprintTimes g polygon crossFov alongFov roll pitch rectangular n elevation (.vector [s]) =
      footprintTimes g polygon crossFov alongFov roll pitch rectangular n elevation (.scalar s) ∧
    ∀ fs, footprintTimes g polygon crossFov alongFov roll pitch rectangular n elevation (.vector [s]) ≠ .ok (.vector fs) := by
  have e : footprintTimes g polygon crossFov alongFov roll pitch rectangular n elevation (.vector [s]) =
      footprintTimes g polygon crossFov alongFov roll pitch rectangular n elevation (.scalar s) := by
    unfold footprintTimes
    simp only [PerTime.size, PerTime.toList, List.length_singleton, gt_iff_lt, lt_irrefl, if_false]
    have : ∀ l : List ℝ, (l.map fun angle =>
        projectTimes g crossFov alongFov roll pitch rectangular angle elevation (.vector [s])).mapM PerTime.number =
        (l.map fun angle =>
          projectTimes g crossFov alongFov roll pitch rectangular angle elevation (.scalar s)).mapM PerTime.number := by
      intro l
      induction l with
      | nil => rfl
      | cons a t ih => rw [List.map_cons, List.map_cons, List.mapM_cons, List.mapM_cons, ih]; rfl
    rw [this]
  refine ⟨e, fun fs h => ?_⟩
  rw [e, C166_one] at h
  obtain ⟨f, -, h⟩ := h
  cases h

/-- **C166** fails for an array of no times, unless the footprint has no vertices: there is no footprint for it, not even an
empty list. -/
theorem C166_none_false (h : footprintAngles crossFov alongFov rectangular n ≠ []) :
    footprintTimes g polygon crossFov alongFov roll pitch rectangular n elevation (.vector []) = .error .typeError := by
  unfold footprintTimes
  obtain ⟨a, t, ht⟩ := List.exists_cons_of_ne_nil h
  simp only [PerTime.size, PerTime.toList, List.length_nil, gt_iff_lt, Nat.not_lt_zero, if_false, ht, List.map_cons,
    List.mapM_cons]
  rfl

end

/-- **C166** for positions: an array of positions, one for each time. -/
theorem C166_positions {Geo : Type} (g : Globe Geo) (crossFov alongFov roll pitch : ℝ) (rectangular : Bool)
    (angle elevation : ℝ) (ss : List State) :
    ∃ ps, projectTimes g crossFov alongFov roll pitch rectangular angle elevation (.vector ss) = .vector ps ∧
      List.Forall₂ (fun s p => projectTimes g crossFov alongFov roll pitch rectangular angle elevation (.scalar s) =
        .scalar p) ss ps :=
  ⟨_, rfl, List.forall₂_map_right_iff.mpr (List.forall₂_same.mpr fun _ _ => rfl)⟩

/-- **C166** for limbs holds for every number of times. -/
theorem C166_limbs {G : Type} (edlimb : V3 → Ellipse) (polygon : List V3 → Except PyErr G) (n : Nat) (ss : List State)
    (r : PerTime G) :
    limbTimes edlimb polygon n (.vector ss) = .ok r ↔
      ∃ fs, r = .vector fs ∧ List.Forall₂ (fun s f => limbTimes edlimb polygon n (.scalar s) = .ok (.scalar f)) ss fs := by
  have hone : ∀ s f, polygon (limbVertices (edlimb s.position) n) = .ok f ↔
      limbTimes edlimb polygon n (.scalar s) = .ok (.scalar f) := by
    intro s f
    simp only [limbTimes, ok_bind_eq]
    constructor
    · intro h; exact ⟨f, h, rfl⟩
    · rintro ⟨f', h, e⟩; cases e; exact h
  unfold limbTimes at hone ⊢
  simp only [ok_bind_eq, mapM_forall₂] at hone ⊢
  constructor
  · rintro ⟨fs, h, h'⟩
    exact ⟨fs, (Except.ok.inj h').symm, h.imp fun s f => (hone s f).mp⟩
  · rintro ⟨fs, rfl, h⟩
    exact ⟨fs, h.imp fun s f => (hone s f).mpr, rfl⟩

/-- Two different times give two different footprints, in order. -/
example (s s' : State) : footprintTimes earth (fun l => .ok l) 10 10 0 0 false 4 0 (.vector [s, s']) =
    .ok (.vector [footprintPoints earth s 10 10 0 0 false 4 0, footprintPoints earth s' 10 10 0 0 false 4 0]) := by
  rw [C166_footprints_partial _ _ _ _ _ _ _ _ _ _ (by simp)]
  exact ⟨_, rfl, .cons ((C166_one _ _ _ _ _ _ _ _ _ _ _).mpr ⟨_, rfl, rfl⟩)
    (.cons ((C166_one _ _ _ _ _ _ _ _ _ _ _).mpr ⟨_, rfl, rfl⟩) .nil)⟩

end Tatc.Props
