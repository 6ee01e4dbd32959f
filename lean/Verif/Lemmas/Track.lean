import Verif.Model.Track
import Verif.Lemmas.ExceptList
import Verif.Spec.Ray

/-! The validity and the records of tracks, in closed form. -/

namespace Tatc.Track
open Tatc.Instruments Tatc.Num Tatc.Spec Tatc.Geometry
open scoped Classical

/-- Whether a satellite's observation of a place meets both requirements of its instrument. -/
noncomputable def verdict (sky : Sky) (tool : Tool) (s : Sample) (p : Place) : Bool :=
  decide (Meets tool.reqSelfSunlit s.sunlit ∧ Meets tool.reqTargetSunlit (decide (0 < sky.solarAltitude p s.time)))

theorem applyRequirement_map {α : Type} (l : List α) (req : Option Bool) (f g : α → Bool) :
    applyRequirement req (l.map f) (l.map g) = l.map fun a => decide (g a = true ∧ Meets req (f a)) := by
  cases req with
  | none => simp [applyRequirement, Meets]
  | some r =>
    induction l with
    | nil => rfl
    | cons a t ih =>
      simp only [applyRequirement, List.map_cons, List.zipWith_cons_cons] at ih ⊢
      rw [ih]
      simp only [List.cons.injEq, and_true, Meets, Option.some.injEq, forall_eq']
      cases g a <;> cases f a <;> cases r <;> simp

theorem validity_pairs (sky : Sky) (tool : Tool) (pairs : List (Sample × Place)) (target : Option (List Place))
    (ht : target.getD ((pairs.map Prod.fst).map Sample.subpoint) = pairs.map Prod.snd) (hne : pairs ≠ []) :
    (validity sky tool (pairs.map Prod.fst) target >>= asArray pairs.length) =
      .ok (pairs.map fun q => verdict sky tool q.1 q.2) := by
  unfold validity validObservation
  simp only [PerTime.toList, ht]
  have e1 : List.replicate (List.map (fun x => x.sunlit) (pairs.map Prod.fst)).length true = pairs.map fun _ => true := by
    simp
  have e2 : List.map (fun x => x.sunlit) (pairs.map Prod.fst) = pairs.map fun q => q.1.sunlit := by simp
  have e3 : List.map (fun a => decide (a > 0))
      (List.zipWith (fun p s => sky.solarAltitude p s.time) (pairs.map Prod.snd) (pairs.map Prod.fst)) =
      pairs.map fun q => decide (0 < sky.solarAltitude q.2 q.1.time) := by
    rw [List.zipWith_map, List.zipWith_self]; simp
  rw [e1, e3, e2, applyRequirement_map, applyRequirement_map]
  have e4 : (pairs.map fun a => decide ((decide (True ∧ Meets tool.reqSelfSunlit a.1.sunlit) = true ∧
      Meets tool.reqTargetSunlit (decide (0 < sky.solarAltitude a.2 a.1.time))))) =
      pairs.map fun q => verdict sky tool q.1 q.2 := by
    simp [verdict]
  simp only [true_and, decide_eq_true_eq, List.length_map] at e4 ⊢
  have e5 : (pairs.map fun a => decide (Meets tool.reqSelfSunlit a.1.sunlit ∧
      Meets tool.reqTargetSunlit (decide (0 < sky.solarAltitude a.2 a.1.time)))) =
      pairs.map fun q => verdict sky tool q.1 q.2 := rfl
  rw [e5]
  match pairs, hne with
  | [a], _ => simp [bind, Except.bind, asArray]
  | a :: b :: t, _ => simp [bind, Except.bind, asArray]

theorem zipIdx_mapM_ok {α β : Type} (l : List α) (f : α × Nat → Except PyErr β) (g : α → β)
    (h : ∀ (i : Nat) (hi : i < l.length), f (l[i], i) = .ok (g l[i])) : l.zipIdx.mapM f = .ok (l.map g) := by
  rw [mapM_ok f (fun p => g p.1)]
  · congr 1
    conv_rhs => rw [← List.zipIdx_map_fst 0 l]
    rw [List.map_map]; rfl
  · rintro ⟨a, i⟩ ha
    have := List.mem_zipIdx ha
    obtain ⟨_, h2, h3⟩ := this
    simp only [Nat.sub_zero, Nat.zero_add] at h2 h3
    show f (a, i) = .ok (g a)
    rw [h3]; exact h i h2

theorem getItem_nat {α : Type} (l : List α) (i : Nat) (hi : i < l.length) : getItem l (i : Int) = .ok l[i] := by
  have h : ¬ ((i : Int) < 0) := by omega
  simp [getItem, h, hi]

/-- The record of a sample in an orbit track. -/
noncomputable def recordOf (sky : Sky) (tool : Tool) (elevation : ℝ) (coordinates : Coordinates) (velocity : Bool)
    (s : Sample) : Record :=
  { time := sky.report s.time, swathWidth := forToSwath s.height tool.fieldOfRegard elevation,
    validObs := verdict sky tool s s.subpoint, geometry := s.point coordinates,
    velocity := if velocity then some (s.velocity coordinates) else none }

theorem orbitRecords_eq (sky : Sky) (tool : Tool) (track : List Sample) (hne : track ≠ []) (elevation : ℝ)
    (coordinates : Coordinates) (velocity : Bool) :
    orbitRecords sky tool track elevation coordinates velocity =
      .ok (track.map (recordOf sky tool elevation coordinates velocity)) := by
  have key := validity_pairs sky tool (track.map fun s => (s, s.subpoint)) none (by simp) (by simpa using hne)
  simp only [List.map_map, Function.comp_def, List.map_id', List.length_map] at key
  unfold orbitRecords
  rw [← bind_assoc, key]
  show List.mapM _ track.zipIdx = _
  rw [zipIdx_mapM_ok _ _ (recordOf sky tool elevation coordinates velocity)]
  intro i hi
  simp only
  rw [getItem_nat _ _ (by simpa using hi)]
  simp only [List.getElem_map]
  rfl

theorem collectOrbitTrack_none (sky : Sky) (clip : Clip Record) (tools : List Tool) (index : Int) (times : List Int)
    (elevation : ℝ) (coordinates : Coordinates) (velocity : Bool) (tool : Tool) (ht : getItem tools index = .ok tool) :
    collectOrbitTrack sky clip tools index times elevation none coordinates velocity =
      .ok ((times.map sky.propagate).map (recordOf sky tool elevation coordinates velocity)) := by
  unfold collectOrbitTrack
  by_cases h : times = []
  · rw [if_pos h, h]; rfl
  · rw [if_neg h, ht]
    exact orbitRecords_eq sky tool _ (by simpa using h) elevation coordinates velocity

theorem collectOrbitTrack_some (sky : Sky) (clip : Clip Record) (tools : List Tool) (index : Int) (times : List Int)
    (elevation : ℝ) (m : Mask) (coordinates : Coordinates) (velocity : Bool) (tool : Tool)
    (ht : getItem tools index = .ok tool) :
    ∃ out, collectOrbitTrack sky clip tools index times elevation (some m) coordinates velocity = .ok out ∧
      out.Perm ((((times.map sky.propagate).filter fun s => m.contains s.lon s.lat).map
        (recordOf sky tool elevation coordinates velocity)).filter fun r => m.meets r.geometry.x r.geometry.y) := by
  unfold collectOrbitTrack
  by_cases h : times = []
  · rw [if_pos h, h]; exact ⟨[], rfl, by simp⟩
  · rw [if_neg h, ht]
    simp only [bind, Except.bind]
    by_cases h2 : (times.map sky.propagate).filter (fun s => m.contains s.lon s.lat) = []
    · rw [if_pos h2, h2]; exact ⟨[], rfl, by simp⟩
    · rw [if_neg h2, orbitRecords_eq sky tool _ h2]
      exact ⟨_, rfl, clip.perm _ _⟩

end Tatc.Track

namespace Tatc.Track
open Tatc.Instruments Tatc.Num Tatc.Spec Tatc.Geometry
open scoped Classical

/-- The geometry of a sample in a ground track. -/
noncomputable def geometryOf {P G : Type} (sky : Sky) (ops : Ops P G) (tool : Tool) (elevation : ℝ) (spice : Bool)
    (s : Sample) : G :=
  if spice then ops.footprint s
  else ops.buffered (sky.propagate (sky.report s.time))
    (forToSwath (sky.propagate (sky.report s.time)).height tool.fieldOfRegard elevation)

/-- The record of a sample in a ground track. -/
noncomputable def groundRecordOf {P G : Type} (sky : Sky) (ops : Ops P G) (tool : Tool) (elevation : ℝ) (spice : Bool)
    (s : Sample) : GroundRecord G :=
  ⟨sky.report s.time, verdict sky tool s (ops.center s), geometryOf sky ops tool elevation spice s⟩

theorem groundGeometries_eq {P G : Type} (sky : Sky) (ops : Ops P G) (clip : Clip Record) (tools : List Tool)
    (index : Int) (elevation : ℝ) (spice : Bool) (track : List Sample) (tool : Tool)
    (ht : getItem tools index = .ok tool) :
    groundGeometries sky ops clip tools index elevation spice track =
      .ok (track.map (geometryOf sky ops tool elevation spice)) := by
  unfold groundGeometries
  cases spice with
  | true => simp [geometryOf]
  | false =>
    simp only [Bool.false_eq_true, if_false]
    rw [collectOrbitTrack_none _ _ _ _ _ _ _ _ tool ht]
    show Except.ok _ = _
    congr 1
    rw [List.map_map, List.zipWith_map_right, List.zipWith_self, List.map_map]
    apply List.map_congr_left
    intro s _
    simp [geometryOf, recordOf]

/-- The records of a ground track from its samples. -/
theorem groundRecords_eq {P G : Type} (sky : Sky) (ops : Ops P G) (clipRecords : Clip Record) (tools : List Tool)
    (index : Int) (elevation : ℝ) (spice : Bool) (track : List Sample) (tool : Tool)
    (ht : getItem tools index = .ok tool) (hne : track ≠ []) (k : List (GroundRecord G) → Except PyErr (List (GroundRecord G))) :
    (do
      let valid ← validity sky tool track (some (track.map ops.center))
      let valid ← asArray track.length valid
      let geometries ← groundGeometries sky ops clipRecords tools index elevation spice track
      let records ← track.zipIdx.mapM fun (s, i) => do
        let v ← getItem valid i
        let g ← getItem geometries i
        return { time := sky.report s.time, validObs := v, geometry := g }
      k records) = k (track.map (groundRecordOf sky ops tool elevation spice)) := by
  have key := validity_pairs sky tool (track.map fun s => (s, ops.center s)) (some (track.map ops.center))
    (by simp) (by simpa using hne)
  simp only [List.map_map, Function.comp_def, List.map_id', List.length_map] at key
  rw [← bind_assoc, key, groundGeometries_eq _ _ _ _ _ _ _ _ tool ht]
  show (List.mapM _ track.zipIdx >>= k) = _
  rw [zipIdx_mapM_ok _ _ (groundRecordOf sky ops tool elevation spice)]
  · rfl
  · intro i hi
    simp only
    rw [getItem_nat _ _ (by simpa using hi), getItem_nat _ _ (by simpa using hi)]
    simp only [List.getElem_map]
    rfl

theorem collectGroundTrack_none {P G : Type} (sky : Sky) (ops : Ops P G) (clipRecords : Clip Record)
    (clip : Clip (GroundRecord G)) (tools : List Tool) (index : Int) (times : List Int) (elevation : ℝ) (spice : Bool)
    (tool : Tool) (ht : getItem tools index = .ok tool) :
    collectGroundTrack sky ops clipRecords clip tools index times elevation none spice =
      .ok ((times.map sky.propagate).map (groundRecordOf sky ops tool elevation spice)) := by
  unfold collectGroundTrack
  by_cases h : times = []
  · rw [if_pos h, h]; rfl
  · have hne : times.map sky.propagate ≠ [] := by simpa using h
    rw [if_neg h, ht]
    simp only [cull]
    show (if times.map sky.propagate = [] then _ else _) = _
    rw [if_neg hne]
    exact groundRecords_eq sky ops clipRecords tools index elevation spice _ tool ht hne _

theorem collectGroundTrack_some {P G : Type} (sky : Sky) (ops : Ops P G) (clipRecords : Clip Record)
    (clip : Clip (GroundRecord G)) (tools : List Tool) (index : Int) (times : List Int) (elevation : ℝ) (spice : Bool)
    (tool : Tool) (ht : getItem tools index = .ok tool) (m : MaskShape P) (track : List Sample)
    (hc : cull ops (some m) (times.map sky.propagate) = .ok track) :
    ∃ out, collectGroundTrack sky ops clipRecords clip tools index times elevation (some m) spice = .ok out ∧
      out.Perm (((track.map (groundRecordOf sky ops tool elevation spice)).filter
        fun r => m.meets ops.intersects r.geometry).map fun r => { r with geometry := ops.cut m r.geometry }) := by
  unfold collectGroundTrack
  by_cases h : times = []
  · subst h
    have : track = [] := by simpa [cull, eq_comm] using hc
    rw [if_pos rfl, this]; exact ⟨[], rfl, by simp⟩
  · rw [if_neg h, ht, hc]
    show ∃ out, (if track = [] then _ else _) = _ ∧ _
    by_cases h2 : track = []
    · rw [if_pos h2, h2]; exact ⟨[], rfl, by simp⟩
    · rw [if_neg h2]
      refine ⟨_, groundRecords_eq sky ops clipRecords tools index elevation spice _ tool ht h2 _, ?_⟩
      exact (clip.perm _ _).map _

end Tatc.Track
