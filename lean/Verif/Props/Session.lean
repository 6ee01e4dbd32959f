import Mathlib.Tactic.NormNum
import Mathlib.Tactic.Ring
import Verif.Spec.Session

/-!
# Settings count from the time they are changed
-/

namespace Tatc.Props
open Tatc Tatc.Session Tatc.Config Tatc.Spec

/-- The state after the first steps. -/
noncomputable def stateAfter (search : Criteria → Option Int) (s : State) (ops : List Op) : State :=
  ops.foldl (fun s op => (step search s op).2) s

theorem run_get (search : Criteria → Option Int) (s : State) (ops : List Op) (k : Nat) (hk : k < ops.length) :
    (run search s ops)[k]? = some (step search (stateAfter search s (ops.take k)) ops[k]).1 := by
  induction ops generalizing s k with
  | nil => simp at hk
  | cons op ops ih =>
    cases k with
    | zero => simp [run, stateAfter]
    | succ k =>
      have := ih (step search s op).2 k (by simpa using hk)
      simp only [run, List.getElem?_cons_succ, List.take_succ_cons, List.getElem_cons_succ]
      rw [this]
      rfl

theorem step_settings (search : Criteria → Option Int) (s : State) (op : Op) :
    (step search s op).2.settings = settingsAfter s.settings [op] := by
  cases op with
  | configure rc => rfl
  | repeatCycle a => rfl
  | track t => simp only [step]; split_ifs <;> rfl
  | events t => simp only [step]; split_ifs <;> rfl
  | footprint r p => rfl

theorem settingsAfter_cons (rc : RuntimeConfig) (op : Op) (ops : List Op) :
    settingsAfter rc (op :: ops) = settingsAfter (settingsAfter rc [op]) ops := by
  cases op <;> rfl

theorem stateAfter_settings (search : Criteria → Option Int) (s : State) (ops : List Op) :
    (stateAfter search s ops).settings = settingsAfter s.settings ops := by
  induction ops generalizing s with
  | nil => rfl
  | cons op ops ih =>
    rw [settingsAfter_cons, ← step_settings search]
    exact ih _

theorem microseconds (x : ℝ) : x * 86400000000 = x * 24 * 60 * 60 * 1000000 := by ring

/-- The repeat cycle that is stored after a search, and that is used. -/
theorem getRepeatCycle_eq (search : Criteria → Option Int) (hpos : ∀ c v, search c = some v → 0 < v) (c : Criteria)
    (lazy : Bool) (stored : Option Int) (hs : ∀ v, stored = some v → lazy = false) :
    Cache.getRepeatCycle search c lazy stored = (search c, some ((search c).getD 0)) := by
  have key : (if 0 < (search c).getD 0 then some ((search c).getD 0) else none) = search c := by
    cases h : search c with
    | none => simp
    | some v => simp [hpos c v h]
  unfold Cache.getRepeatCycle
  cases lazy with
  | false => simp [key]
  | true =>
    cases stored with
    | none => simp [key]
    | some v => exact absurd (hs v rfl) (by simp)

/-- One step by what it asks for. -/
theorem step_asks (search : Criteria → Option Int) (s : State) (op : Op) :
    (asks s.settings op = none → (step search s op).1 = wanted search s.settings op ∧
      (step search s op).2.stored = s.stored) ∧
    (∀ c l, asks s.settings op = some (c, l) →
      wanted search s.settings op = some (.cycle (search c)) ∧
      (step search s op).1 = some (.cycle (Cache.getRepeatCycle search c l s.stored).1) ∧
      (step search s op).2.stored = (Cache.getRepeatCycle search c l s.stored).2) := by
  cases op with
  | configure rc => exact ⟨fun _ => ⟨rfl, rfl⟩, fun c l h => by simp [asks] at h⟩
  | footprint r p =>
    refine ⟨fun _ => ⟨?_, rfl⟩, fun c l h => by simp [asks] at h⟩
    cases r <;> cases p <;> rfl
  | repeatCycle a =>
    refine ⟨fun h => by simp [asks] at h, fun c l h => ?_⟩
    simp only [asks, Option.some.injEq, Prod.mk.injEq] at h
    obtain ⟨rfl, rfl⟩ := h
    simp only [wanted, asks, Option.bind_some, step, cycleCall, criteria, microseconds, and_self]
  | track t =>
    by_cases ht : t.getD s.settings.forOrbitTrack = true
    · refine ⟨fun h => by simp [asks, ht] at h, fun c l h => ?_⟩
      simp only [asks, ht, if_true, Option.some.injEq, Prod.mk.injEq] at h
      obtain ⟨rfl, rfl⟩ := h
      simp only [wanted, asks, ht, if_true, Option.bind_some, step, cycleCall, criteria, microseconds, Option.getD_none,
        and_self]
    · refine ⟨fun _ => ?_, fun c l h => by simp [asks, ht] at h⟩
      simp [wanted, asks, ht, step]
  | events t =>
    by_cases ht : t.getD s.settings.forObservationEvents = true
    · refine ⟨fun h => by simp [asks, ht] at h, fun c l h => ?_⟩
      simp only [asks, ht, if_true, Option.some.injEq, Prod.mk.injEq] at h
      obtain ⟨rfl, rfl⟩ := h
      simp only [wanted, asks, ht, if_true, Option.bind_some, step, cycleCall, criteria, microseconds, Option.getD_none,
        and_self]
    · refine ⟨fun _ => ?_, fun c l h => by simp [asks, ht] at h⟩
      simp [wanted, asks, ht, step]

/-- What step `k` of a session asks for. -/
noncomputable def asksAt (rc : RuntimeConfig) (ops : List Op) (k : Nat) : Option (Criteria × Bool) :=
  ops[k]?.bind fun op => asks (settingsAfter rc (ops.take k)) op

/-- **C164, settings.** In every session, whatever was done before, a call that does not load a stored repeat cycle is
computed with the arguments that are given and, for those that are not, with the settings at the time of the call: numbers of
points, whether repeat cycles are used, and how they are searched for. -/
theorem C164_current_partial (search : Criteria → Option Int) (hpos : ∀ c v, search c = some v → 0 < v)
    (rc : RuntimeConfig) (stored : Option Int) (ops : List Op) (k : Nat) (hk : k < ops.length)
    (hlazy : ∀ c, asksAt rc ops k ≠ some (c, true)) :
    (run search ⟨rc, stored⟩ ops)[k]? = some (wanted search (settingsAfter rc (ops.take k)) ops[k]) := by
  rw [run_get search _ ops k hk]
  have hset := stateAfter_settings search ⟨rc, stored⟩ (ops.take k)
  obtain ⟨h1, h2⟩ := step_asks search (stateAfter search ⟨rc, stored⟩ (ops.take k)) ops[k]
  simp only at hset
  rw [hset] at h1 h2
  have hat : asksAt rc ops k = asks (settingsAfter rc (ops.take k)) ops[k] := by
    unfold asksAt; rw [List.getElem?_eq_getElem hk]; rfl
  cases ha : asks (settingsAfter rc (ops.take k)) ops[k] with
  | none => rw [(h1 ha).1]
  | some cl =>
    obtain ⟨c, l⟩ := cl
    have hl : l = false := by
      cases l with
      | false => rfl
      | true => exact absurd (hat.trans ha) (hlazy c)
    subst hl
    obtain ⟨hw, hs, -⟩ := h2 c false ha
    rw [hw, hs, getRepeatCycle_eq search hpos c false _ (fun _ _ => rfl)]

/-- The search whose result step `k` would find stored: the last one that was made.  The first call that asks makes one, and
so does every call that does not load lazily. -/
def LastSearch (rc : RuntimeConfig) (ops : List Op) (k j : Nat) (c : Criteria) : Prop :=
  ∃ l, asksAt rc ops j = some (c, l) ∧
    (∀ i, j < i → i < k → ∀ c', asksAt rc ops i ≠ some (c', false)) ∧
    (l = true → ∀ i < j, asksAt rc ops i = none)

theorem stored_after (search : Criteria → Option Int) (hpos : ∀ c v, search c = some v → 0 < v) (rc : RuntimeConfig)
    (ops : List Op) (k : Nat) (hk : k ≤ ops.length) :
    ((stateAfter search ⟨rc, none⟩ (ops.take k)).stored = none ∧ ∀ i < k, asksAt rc ops i = none) ∨
    ∃ j < k, ∃ c, LastSearch rc ops k j c ∧
      (stateAfter search ⟨rc, none⟩ (ops.take k)).stored = some ((search c).getD 0) := by
  induction k with
  | zero => exact .inl ⟨rfl, fun i hi => absurd hi (by omega)⟩
  | succ k ih =>
    have hk' : k < ops.length := hk
    have hst : stateAfter search ⟨rc, none⟩ (ops.take (k + 1)) =
        (step search (stateAfter search ⟨rc, none⟩ (ops.take k)) ops[k]).2 := by
      unfold stateAfter
      rw [List.take_succ_eq_append_getElem hk', List.foldl_append]
      rfl
    have hset := stateAfter_settings search ⟨rc, none⟩ (ops.take k)
    obtain ⟨h1, h2⟩ := step_asks search (stateAfter search ⟨rc, none⟩ (ops.take k)) ops[k]
    simp only at hset
    rw [hset] at h1 h2
    have hat : asksAt rc ops k = asks (settingsAfter rc (ops.take k)) ops[k] := by
      unfold asksAt; rw [List.getElem?_eq_getElem hk']; rfl
    rw [← hat] at h1 h2
    rw [hst]
    cases ha : asksAt rc ops k with
    | none =>
      rw [(h1 ha).2]
      rcases ih hk'.le with ⟨hn, hall⟩ | ⟨j, hj, c, ⟨l, hl, hb, hf⟩, hs⟩
      · refine .inl ⟨hn, fun i hi => ?_⟩
        rcases Nat.lt_succ_iff_lt_or_eq.mp hi with hi | rfl
        · exact hall i hi
        · exact ha
      · refine .inr ⟨j, by omega, c, ⟨l, hl, fun i hi hik c' => ?_, hf⟩, hs⟩
        rcases Nat.lt_succ_iff_lt_or_eq.mp hik with hik | rfl
        · exact hb i hi hik c'
        · rw [ha]; simp
    | some cl =>
      obtain ⟨c, l⟩ := cl
      obtain ⟨-, -, hs'⟩ := h2 c l ha
      rw [hs']
      rcases ih hk'.le with ⟨hn, hall⟩ | ⟨j, hj, c', ⟨l', hl', hb, hf⟩, hs⟩
      · right
        refine ⟨k, by omega, c, ⟨l, ha, fun i hi hik => absurd hik (by omega), fun _ => hall⟩, ?_⟩
        rw [getRepeatCycle_eq search hpos c l _ (fun v hv => by rw [hn] at hv; cases hv)]
      · cases l with
        | false =>
          right
          refine ⟨k, by omega, c, ⟨false, ha, fun i hi hik => absurd hik (by omega), fun h => by cases h⟩, ?_⟩
          rw [getRepeatCycle_eq search hpos c false _ (fun _ _ => rfl)]
        | true =>
          right
          refine ⟨j, by omega, c', ⟨l', hl', fun i hi hik c'' => ?_, hf⟩, ?_⟩
          · rcases Nat.lt_succ_iff_lt_or_eq.mp hik with hik | rfl
            · exact hb i hi hik c''
            · rw [ha]; simp
          · rw [hs]
            simp [Cache.getRepeatCycle]

/-- **C164, stored repeat cycles.** A call that may use a stored repeat cycle uses the one that was found by the last search
that was made — with the settings and arguments of that search, not with those of the call. -/
theorem C164_stored (search : Criteria → Option Int) (hpos : ∀ c v, search c = some v → 0 < v) (rc : RuntimeConfig)
    (ops : List Op) (k : Nat) (hk : k < ops.length) (c : Criteria) (ha : asksAt rc ops k = some (c, true)) :
    ((∀ i < k, asksAt rc ops i = none) ∧ (run search ⟨rc, none⟩ ops)[k]? = some (some (.cycle (search c)))) ∨
    ∃ j < k, ∃ c', LastSearch rc ops k j c' ∧
      (run search ⟨rc, none⟩ ops)[k]? = some (some (.cycle (search c'))) := by
  rw [run_get search _ ops k hk]
  have hset := stateAfter_settings search ⟨rc, none⟩ (ops.take k)
  obtain ⟨-, h2⟩ := step_asks search (stateAfter search ⟨rc, none⟩ (ops.take k)) ops[k]
  simp only at hset
  rw [hset] at h2
  have hat : asksAt rc ops k = asks (settingsAfter rc (ops.take k)) ops[k] := by
    unfold asksAt; rw [List.getElem?_eq_getElem hk]; rfl
  obtain ⟨-, hs', -⟩ := h2 c true (hat ▸ ha)
  rw [hs']
  rcases stored_after search hpos rc ops k hk.le with ⟨hn, hall⟩ | ⟨j, hj, c', hls, hs⟩
  · left
    rw [getRepeatCycle_eq search hpos c true _ (fun v hv => by rw [hn] at hv; cases hv)]
    exact ⟨hall, rfl⟩
  · right
    refine ⟨j, hj, c', hls, ?_⟩
    rw [hs]
    cases h : search c' with
    | none => simp [Cache.getRepeatCycle]
    | some v => simp [Cache.getRepeatCycle, hpos c' v h]

/-- **C164, constant criteria.** If every call of a session asks for the same repeat — the settings of the search do not change
and no call gives others — every call is computed with what it should be, loading lazily or not. -/
theorem C164_constant (search : Criteria → Option Int) (hpos : ∀ c v, search c = some v → 0 < v) (rc : RuntimeConfig)
    (ops : List Op) (c : Criteria) (hsame : ∀ k c' l, asksAt rc ops k = some (c', l) → c' = c) (k : Nat)
    (hk : k < ops.length) :
    (run search ⟨rc, none⟩ ops)[k]? = some (wanted search (settingsAfter rc (ops.take k)) ops[k]) := by
  by_cases hl : ∃ c', asksAt rc ops k = some (c', true)
  · obtain ⟨c', hc'⟩ := hl
    have hat : asksAt rc ops k = asks (settingsAfter rc (ops.take k)) ops[k] := by
      unfold asksAt; rw [List.getElem?_eq_getElem hk]; rfl
    have hset := stateAfter_settings search ⟨rc, none⟩ (ops.take k)
    obtain ⟨-, h2⟩ := step_asks search (stateAfter search ⟨rc, none⟩ (ops.take k)) ops[k]
    simp only at hset
    rw [hset] at h2
    obtain ⟨hw, -, -⟩ := h2 c' true (hat ▸ hc')
    rw [hw]
    rcases C164_stored search hpos rc ops k hk c' hc' with ⟨-, h⟩ | ⟨j, -, c'', ⟨l, hj, -, -⟩, h⟩
    · exact h
    · rw [h, hsame j c'' l hj, hsame k c' true hc']
  · push Not at hl
    exact C164_current_partial search hpos rc none ops k hk hl

/-- **C164 is false of stored repeat cycles.** With the default settings: an orbit track, then other settings under which the
search finds another repeat cycle, then an orbit track — it is computed with the old repeat cycle. -/
theorem C164_stale_false (search : Criteria → Option Int) (hpos : ∀ c v, search c = some v → 0 < v) (x : ℝ)
    (hne : search (criteria { defaults with deltaPosition := x } {}) ≠ search (criteria defaults {})) :
    ¬ ∀ (ops : List Op) (k : Nat) (hk : k < ops.length),
      (run search ⟨defaults, none⟩ ops)[k]? = some (wanted search (settingsAfter defaults (ops.take k)) ops[k]) := by
  intro hall
  have h := hall [.track none, .configure { defaults with deltaPosition := x }, .track none] 2 (by simp)
  have hfirst : (Cache.getRepeatCycle search (criteria defaults {}) true none) =
      (search (criteria defaults {}), some ((search (criteria defaults {})).getD 0)) :=
    getRepeatCycle_eq search hpos _ true none (fun v hv => by cases hv)
  have hsecond : ∀ c, (Cache.getRepeatCycle search c true (some ((search (criteria defaults {})).getD 0))).1 =
      search (criteria defaults {}) := fun c => by
    cases h : search (criteria defaults {}) with
    | none => simp [Cache.getRepeatCycle]
    | some v => simp [Cache.getRepeatCycle, hpos _ v h]
  have hrun : (run search ⟨defaults, none⟩
      [.track none, .configure { defaults with deltaPosition := x }, .track none])[2]? =
      some (some (.cycle (search (criteria defaults {})))) := by
    have e1 : (step search ⟨defaults, none⟩ (.track none)).2 =
        ⟨defaults, some ((search (criteria defaults {})).getD 0)⟩ := by
      show State.mk defaults (Cache.getRepeatCycle search (criteria defaults {}) true none).2 = _
      rw [hfirst]
    simp only [run, List.getElem?_cons_succ, List.getElem?_cons_zero]
    rw [e1]
    show some (some (Used.cycle (Cache.getRepeatCycle search (criteria { defaults with deltaPosition := x } {}) true
      (some ((search (criteria defaults {})).getD 0))).1)) = _
    rw [hsecond]
  rw [hrun] at h
  have hw : wanted search { defaults with deltaPosition := x } (.track none) =
      some (.cycle (search (criteria { defaults with deltaPosition := x } {}))) := by
    simp [wanted, asks, criteria, defaults]
    congr 2
    norm_num
  have h' : some (some (Used.cycle (search (criteria defaults {})))) =
      some (wanted search { defaults with deltaPosition := x } (.track none)) := h
  rw [hw] at h'
  simp only [Option.some.injEq, Used.cycle.injEq] at h'
  exact hne h'.symm

/-- A repeat after one day that is 20 km off: the default settings do not find it, a tolerance of 30 km does. -/
example : ∃ search : Criteria → Option Int, (∀ c v, search c = some v → 0 < v) ∧
    search (criteria { defaults with deltaPosition := 30000 } {}) ≠ search (criteria defaults {}) := by
  classical
  refine ⟨fun c => if 20000 < c.deltaPosition then some 86400000000 else none, fun c v h => ?_, ?_⟩
  · by_cases hc : 20000 < c.deltaPosition
    · simp only [hc, if_true, Option.some.injEq] at h
      omega
    · simp [hc] at h
  · simp only [criteria, defaults, Option.getD_none]
    norm_num
    exact Option.some_ne_none _

/-- Numbers of points: the setting, the setting changed, the argument. -/
example (search : Criteria → Option Int) : run search ⟨defaults, none⟩
    [.footprint false none, .configure { defaults with pointsElliptical := 100 }, .footprint false none,
      .footprint true none, .footprint false (some 7)] =
    [some (.points 32), none, some (.points 100), some (.points 8), some (.points 7)] := rfl

end Tatc.Props
