import Verif.Model.Config
import Verif.Lemmas.ExceptList
import Mathlib.Tactic.NormNum

/-! C72: loading a configuration. -/

namespace Tatc.Props
open Tatc.Config
open scoped Classical

/-- The documented constraints. -/
structure ConfigValid (c : RuntimeConfig) : Prop where
  pointsElliptical : 4 ≤ c.pointsElliptical
  pointsRectangularSide : 1 ≤ c.pointsRectangularSide
  deltaPosition : 0 < c.deltaPosition
  deltaVelocity : 0 < c.deltaVelocity
  searchElevation : 0 < c.searchElevation

/-- A field holds what the document says: the default if it is silent, otherwise the value as it is read. -/
def Says {α : Type} (m : List (String × Yaml)) (read : Yaml → Option α) (key : String) (default a : α) : Prop :=
  (m.lookup key = none ∧ a = default) ∨ ∃ v, m.lookup key = some v ∧ read v = some a

/-- Every field holds what the document says under the field's name. -/
structure ConfigOf (r : Reading) (m : List (String × Yaml)) (c : RuntimeConfig) : Prop where
  pointsElliptical : Says m r.int "footprint_points_elliptical" 32 c.pointsElliptical
  pointsRectangularSide : Says m r.int "footprint_points_rectangular_side" 8 c.pointsRectangularSide
  deltaPosition : Says m r.float "repeat_cycle_delta_position_m" 10000 c.deltaPosition
  deltaVelocity : Says m r.float "repeat_cycle_delta_velocity_m_per_s" 10 c.deltaVelocity
  searchElevation : Says m r.float "repeat_cycle_search_elevation_deg" 88 c.searchElevation
  searchDuration : Says m r.float "repeat_cycle_search_duration_days" 30 c.searchDuration
  lazyLoad : Says m r.bool "repeat_cycle_lazy_load" true c.lazyLoad
  forOrbitTrack : Says m r.bool "repeat_cycle_for_orbit_track" true c.forOrbitTrack
  forObservationEvents : Says m r.bool "repeat_cycle_for_observation_events" true c.forObservationEvents
  tleLazyLoad : Says m r.bool "orbit_tle_lazy_load" true c.tleLazyLoad

theorem field_ok {α : Type} {m : List (String × Yaml)} {key : String} {default : α} {read : Yaml → Option α}
    {ok : α → Prop} {a : α} (h : field m key default read ok = .ok a) :
    Says m read key default a ∧ (ok default → ok a) := by
  unfold field at h
  cases hl : m.lookup key with
  | none =>
    rw [hl] at h; cases h
    exact ⟨Or.inl ⟨hl, rfl⟩, id⟩
  | some v =>
    rw [hl] at h
    simp only at h
    cases hr : read v with
    | none => rw [hr] at h; cases h
    | some b =>
      rw [hr] at h
      simp only at h
      split_ifs at h with hok
      cases h
      exact ⟨Or.inr ⟨v, hl, hr⟩, fun _ => hok⟩

theorem field_error {α : Type} (m : List (String × Yaml)) (key : String) (default : α) (read : Yaml → Option α)
    (ok : α → Prop) : (∃ a, field m key default read ok = .ok a) ∨ field m key default read ok = .error .validationError := by
  unfold field
  cases m.lookup key with
  | none => exact Or.inl ⟨_, rfl⟩
  | some v =>
    simp only
    cases read v with
    | none => exact Or.inr rfl
    | some a =>
      simp only
      split_ifs
      · exact Or.inl ⟨_, rfl⟩
      · exact Or.inr rfl

theorem configConstruct_ok {r : Reading} {m : List (String × Yaml)} {c : RuntimeConfig} (h : construct r m = .ok c) :
    ConfigOf r m c ∧ ConfigValid c := by
  unfold construct at h
  simp only [bind_eq_ok, pure, Except.pure, Except.ok.injEq] at h
  obtain ⟨a1, h1, a2, h2, a3, h3, a4, h4, a5, h5, a6, h6, a7, h7, a8, h8, a9, h9, a10, h10, rfl⟩ := h
  exact ⟨⟨(field_ok h1).1, (field_ok h2).1, (field_ok h3).1, (field_ok h4).1, (field_ok h5).1, (field_ok h6).1,
    (field_ok h7).1, (field_ok h8).1, (field_ok h9).1, (field_ok h10).1⟩,
    ⟨(field_ok h1).2 (by norm_num), (field_ok h2).2 (by norm_num), (field_ok h3).2 (by norm_num),
    (field_ok h4).2 (by norm_num), (field_ok h5).2 (by norm_num)⟩⟩

theorem bind_validation {α β : Type} {a : Except PyErr α} {f : α → Except PyErr β}
    (ha : (∃ x, a = .ok x) ∨ a = .error .validationError)
    (hf : ∀ x, (∃ y, f x = .ok y) ∨ f x = .error .validationError) :
    (∃ y, (a >>= f) = .ok y) ∨ (a >>= f) = .error .validationError := by
  rcases ha with ⟨x, rfl⟩ | rfl
  · exact hf x
  · exact Or.inr rfl

theorem configConstruct_error (r : Reading) (m : List (String × Yaml)) :
    (∃ c, construct r m = .ok c) ∨ construct r m = .error .validationError := by
  unfold construct
  repeat
    refine bind_validation (field_error _ _ _ _ _) fun _ => ?_
  exact Or.inl ⟨_, rfl⟩

/-- **C72**, validity: whatever the file holds, a configuration that is loaded meets the documented constraints, and came
from a mapping whose values it holds, with the documented defaults where it is silent. -/
theorem C72_valid (r : Reading) (d : Document) (c : RuntimeConfig) (h : load r d = .ok c) :
    ConfigValid c ∧ ∃ m, d = .value (.map (m.map fun kv => (.str kv.1, kv.2))) ∧ ConfigOf r m c := by
  have hkw : ∀ (l : List (Yaml × Yaml)) (m : List (String × Yaml)), keywords l = some m →
      l = m.map fun kv => (.str kv.1, kv.2) := by
    intro l
    induction l with
    | nil => intro m hm; simp [keywords] at hm; subst hm; rfl
    | cons a t ih =>
      intro m hm
      obtain ⟨k, v⟩ := a
      cases k with
      | str s =>
        simp only [keywords, Option.map_eq_some_iff] at hm
        obtain ⟨m', hm', rfl⟩ := hm
        rw [ih m' hm']; rfl
      | _ => simp [keywords] at hm
  cases d with
  | value y =>
    cases y with
    | map l =>
      simp only [load] at h
      cases hk : keywords l with
      | none => rw [hk] at h; cases h
      | some m =>
        rw [hk] at h
        simp only at h
        rcases configConstruct_error r m with ⟨c', hc⟩ | hc
        · rw [hc] at h
          cases h
          obtain ⟨h1, h2⟩ := configConstruct_ok hc
          exact ⟨h2, m, by rw [hkw l m hk], h1⟩
        · rw [hc] at h; cases h
    | _ => cases h
  | _ => cases h

/-- **C72**, errors: a missing file, a syntax error that the parser finds, and every mapping with text keys give a
configuration or a configuration error. -/
theorem C72_error_partial (r : Reading) (d : Document)
    (hd : d = .missing ∨ d = .parserError ∨ ∃ m : List (String × Yaml), d = .value (.map (m.map fun kv => (.str kv.1, kv.2)))) :
    (∃ c, load r d = .ok c) ∨ load r d = .error .configError := by
  have hkw : ∀ m : List (String × Yaml), keywords (m.map fun kv => (.str kv.1, kv.2)) = some m := by
    intro m
    induction m with
    | nil => rfl
    | cons a t ih => simp only [List.map_cons, keywords, ih]; rfl
  rcases hd with rfl | rfl | ⟨m, rfl⟩
  · exact Or.inr rfl
  · exact Or.inr rfl
  · simp only [load, hkw m]
    rcases configConstruct_error r m with ⟨c, hc⟩ | hc
    · rw [hc]; exact Or.inl ⟨c, rfl⟩
    · rw [hc]; exact Or.inr rfl

/-- **C72** fails for the other files: an empty file or a list, a mapping with a number as a key, a file with an error that
the scanner finds, one that is not UTF-8, and a directory raise other exceptions. -/
theorem C72_error_false (r : Reading) :
    load r (.value .null) = .error .typeError ∧ (∀ l, load r (.value (.list l)) = .error .typeError) ∧
    (∀ i v, load r (.value (.map [(.int i, v)])) = .error .typeError) ∧ load r .otherYamlError = .error .yamlError ∧
    load r .undecodable = .error .valueError ∧ load r .unreadable = .error .fileError :=
  ⟨rfl, fun _ => rfl, fun _ _ => rfl, rfl, rfl, rfl⟩

/-- **C72**, refusal: a value out of its range is a configuration error, whatever else the document says. -/
theorem C72_refused (r : Reading) (m : List (String × Yaml))
    (h : (∃ v n, m.lookup "footprint_points_elliptical" = some v ∧ r.int v = some n ∧ n < 4) ∨
      (∃ v n, m.lookup "footprint_points_rectangular_side" = some v ∧ r.int v = some n ∧ n < 1) ∨
      (∃ v x, m.lookup "repeat_cycle_delta_position_m" = some v ∧ r.float v = some x ∧ x ≤ 0) ∨
      (∃ v x, m.lookup "repeat_cycle_delta_velocity_m_per_s" = some v ∧ r.float v = some x ∧ x ≤ 0) ∨
      (∃ v x, m.lookup "repeat_cycle_search_elevation_deg" = some v ∧ r.float v = some x ∧ x ≤ 0)) :
    load r (.value (.map (m.map fun kv => (.str kv.1, kv.2)))) = .error .configError := by
  rcases C72_error_partial r _ (Or.inr (Or.inr ⟨m, rfl⟩)) with ⟨c, hc⟩ | he
  · exfalso
    obtain ⟨hv, m', hm', ho⟩ := C72_valid r _ c hc
    have hmm : m = m' := by
      simp only [Document.value.injEq, Yaml.map.injEq] at hm'
      have hinj : Function.Injective fun kv : String × Yaml => (Yaml.str kv.1, kv.2) := by
        intro a b hab
        simp only [Prod.mk.injEq, Yaml.str.injEq] at hab
        exact Prod.ext hab.1 hab.2
      exact (List.map_injective_iff.mpr hinj) hm'
    subst hmm
    have told : ∀ {α : Type} {read : Yaml → Option α} {key : String} {d a b : α} {v : Yaml},
        Says m read key d a → m.lookup key = some v → read v = some b → a = b := by
      intro α read key d a b v hs hl hr
      rcases hs with ⟨hn, _⟩ | ⟨w, hw, hrw⟩
      · rw [hn] at hl; cases hl
      · rw [hl] at hw; cases hw
        rw [hr] at hrw; cases hrw; rfl
    rcases h with ⟨v, n, hl, hr, hlt⟩ | ⟨v, n, hl, hr, hlt⟩ | ⟨v, n, hl, hr, hlt⟩ | ⟨v, n, hl, hr, hlt⟩ | ⟨v, n, hl, hr, hlt⟩
    · have := told ho.pointsElliptical hl hr
      have := hv.pointsElliptical; omega
    · have := told ho.pointsRectangularSide hl hr
      have := hv.pointsRectangularSide; omega
    · have e := told ho.deltaPosition hl hr
      exact absurd hv.deltaPosition (by rw [e]; exact not_lt.mpr hlt)
    · have e := told ho.deltaVelocity hl hr
      exact absurd hv.deltaVelocity (by rw [e]; exact not_lt.mpr hlt)
    · have e := told ho.searchElevation hl hr
      exact absurd hv.searchElevation (by rw [e]; exact not_lt.mpr hlt)
  · exact he

/-- **C72**, import: whatever the file of defaults holds, the configuration with which the package starts is valid, and
it is the documented one if the file gives a configuration error. -/
theorem C72_import (r : Reading) (d : Document) :
    (∀ c, atImport r d = .ok c → ConfigValid c) ∧ (load r d = .error .configError → atImport r d = .ok defaults) := by
  constructor
  · intro c h
    unfold atImport at h
    cases hl : load r d with
    | ok c' => rw [hl] at h; cases h; exact (C72_valid r d _ hl).1
    | error e =>
      rw [hl] at h
      cases e <;> simp only [reduceCtorEq, Except.ok.injEq] at h
      subst h
      constructor <;> norm_num [defaults]
  · intro h
    unfold atImport; rw [h]

/-- A reading of integers and numbers as they are. -/
def plainReading : Reading where
  int | .int i => some i | _ => none
  float | .float x => some x | .int i => some (i : ℝ) | _ => none
  bool | .bool b => some b | _ => none

/-- A document with two settings is loaded, and one with too few points is refused. -/
example : (∃ c, load plainReading (.value (.map [(.str "footprint_points_elliptical", .int 16), (.str "other", .null)])) = .ok c ∧
      c.pointsElliptical = 16 ∧ c.deltaPosition = 10000) ∧
    load plainReading (.value (.map [(.str "footprint_points_elliptical", .int 3)])) = .error .configError := by
  constructor
  · refine ⟨⟨16, 8, 10000, 10, 88, 30, true, true, true, true⟩, ?_, rfl, rfl⟩
    simp [load, keywords, construct, field, List.lookup, plainReading, bind, Except.bind, pure, Except.pure]
  · exact C72_refused plainReading [("footprint_points_elliptical", .int 3)]
      (Or.inl ⟨.int 3, 3, rfl, rfl, by norm_num⟩)

end Tatc.Props
