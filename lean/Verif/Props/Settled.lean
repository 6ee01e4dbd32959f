import Verif.Props.Region

/-!
# Splitting a polygon that has been split changes nothing
-/

namespace Tatc.Props
open Tatc.Polygons Tatc.Spec Tatc.Lemmas
open Tatc.Pandas (SortValues)
open scoped Classical

/-- No two neighbouring longitudes are more than `d` degrees apart. -/
def StepsWithin (d : ℝ) (lon : List ℝ) : Prop := ∀ e ∈ lon.zip lon.tail, |e.2 - e.1| ≤ d

/-- What is used of shapely beyond `Cutter`: a cut along a meridian does not lengthen a side from west to east, and a ring with
a side through the pole (two neighbouring vertices exactly half a turn apart) does not have the pole in its interior. -/
structure Settler (s : Shapely) : Prop extends Cutter s where
  steps : ∀ p c q d, 0 ≤ d → q ∈ s.split p (.meridian c) → StepsWithin d (p.exterior.map (·.x)) → StepsWithin d (q.exterior.map (·.x))
  through : ∀ lon, (∃ e ∈ lon.zip lon.tail, |e.2 - e.1| = 180) → s.containsPole lon = false

/-! ## Steps -/

theorem smallSteps_below : ∀ lon : List ℝ, smallSteps lon ↔ ∀ e ∈ lon.zip lon.tail, |e.2 - e.1| < 180
  | [] => by simp [smallSteps]
  | [a] => by simp [smallSteps]
  | a :: b :: t => by
    have ih := smallSteps_below (b :: t)
    simp only [smallSteps, ih, List.tail_cons, List.zip_cons_cons, List.mem_cons, forall_eq_or_imp]

theorem near_of_small {lon : List ℝ} (h : smallSteps lon) : StepsWithin 180 lon := fun e he => ((smallSteps_below lon).mp h e he).le

theorem near_of_index {d : ℝ} {l : List ℝ} (h : ∀ i (h : i + 1 < l.length), |l[i + 1] - l[i]| ≤ d) : StepsWithin d l := by
  intro e he
  obtain ⟨i, hi, rfl⟩ := List.getElem_of_mem he
  have hi' : i + 1 < l.length := by
    simp only [List.length_zip, List.length_tail] at hi
    omega
  simpa using h i hi'

theorem near_shift {d c : ℝ} {l : List ℝ} (h : StepsWithin d l) : StepsWithin d (l.map (· + c)) := by
  intro e he
  rw [← List.map_tail, List.zip_map] at he
  obtain ⟨⟨a, b⟩, hab, rfl⟩ := List.mem_map.mp he
  have := h _ hab
  simpa using this

theorem half_rounds_to_zero {x : ℝ} (h : |x| ≤ 1 / 2) : Num.roundHalfEven x = 0 := by
  obtain ⟨h1, h2⟩ := abs_le.mp h
  unfold Num.roundHalfEven
  rcases lt_or_ge x 0 with h0 | h0
  · have hf : ⌊x⌋ = -1 := by rw [Int.floor_eq_iff]; push_cast; constructor <;> linarith
    simp only [hf]
    push_cast
    split_ifs <;> first | rfl | (exfalso; linarith)
  · have hf : ⌊x⌋ = 0 := by rw [Int.floor_eq_iff]; push_cast; constructor <;> linarith
    simp only [hf]
    push_cast
    split_ifs <;> first | rfl | (exfalso; linarith)

theorem shiftFrom_zero : ∀ (a : ℝ) (l : List ℝ), StepsWithin 180 (a :: l) → ∀ k ∈ shiftFrom 0 a l, k = 0
  | _, [], _ => by simp [shiftFrom]
  | a, b :: t, h => by
    have h1 : |(b - a) / 360| ≤ 1 / 2 := by
      have := h (a, b) (by simp)
      rw [abs_div, abs_of_pos (by norm_num : (0 : ℝ) < 360), div_le_iff₀ (by norm_num)]
      simpa using by linarith
    have h2 : StepsWithin 180 (b :: t) := fun e he => h e (by simp only [List.tail_cons, List.zip_cons_cons]; exact List.mem_cons_of_mem _ he)
    intro k hk
    simp only [shiftFrom, half_rounds_to_zero h1, add_zero, List.mem_cons] at hk
    rcases hk with rfl | hk
    · rfl
    · exact shiftFrom_zero b t h2 k hk

theorem shifts_zero {lon : List ℝ} (h : StepsWithin 180 lon) : ∀ k ∈ shifts lon, k = 0 := by
  cases lon with
  | nil => simp [shifts]
  | cons a t =>
    intro k hk
    rcases List.mem_cons.mp hk with rfl | hk
    · rfl
    · exact shiftFrom_zero a t h k hk

theorem interpFrom_zero (x x0 : ℝ) (l : List (ℝ × ℝ)) (h : ∀ q ∈ l, q.2 = 0) : interpFrom x x0 0 l = 0 := by
  induction l generalizing x0 with
  | nil => rfl
  | cons q t ih =>
    obtain ⟨x1, f1⟩ := q
    have hf : f1 = 0 := h (x1, f1) (by simp)
    subst hf
    unfold interpFrom
    split_ifs
    · exact ih x1 fun q hq => h q (List.mem_cons_of_mem _ hq)
    · simp

theorem interp_zero (x : ℝ) (l : List (ℝ × ℝ)) (h : ∀ q ∈ l, q.2 = 0) : interp x l = 0 := by
  cases l with
  | nil => rfl
  | cons q t =>
    obtain ⟨x0, f0⟩ := q
    have hf : f0 = 0 := h (x0, f0) (by simp)
    subst hf
    simp only [interp]
    split_ifs
    · rfl
    · exact interpFrom_zero x x0 t fun q hq => h q (List.mem_cons_of_mem _ hq)

/-- A coordinate without its height. -/
def flat (c : Coord) : Coord := ⟨c.x, c.y, none⟩

/-- A polygon without long steps is not moved before it is split. -/
theorem unwrap_near (sort' : SortValues (α := ℝ × ℝ) Prod.fst) {r : Polygon} (h : StepsWithin 180 (r.exterior.map (·.x))) :
    unwrap sort' r = mkPolygon (r.exterior.map flat) (r.interiors.map fun i => i.map flat) := by
  have hz := shifts_zero h
  have he : unwrapExterior r.exterior = r.exterior.map flat := by
    unfold unwrapExterior
    have hl := shifts_length (r.exterior.map (·.x))
    rw [List.length_map] at hl
    refine List.ext_getElem (by simp [hl]) fun i h1 h2 => ?_
    simp only [List.getElem_zipWith, List.getElem_map]
    rw [hz _ (List.getElem_mem _)]
    simp [flat]
  have hi : ∀ x, unwrapInterior sort' (r.exterior.map (·.x)) x = x := by
    intro x
    unfold unwrapInterior
    rw [interp_zero, mul_zero, sub_zero]
    intro q hq
    have hq' := (sort'.perm _).mem_iff.mp hq
    obtain ⟨k, hk, he⟩ := List.mem_map.mp (List.of_mem_zip (show (q.1, q.2) ∈ _ from hq')).2
    rw [← he, hz k hk]
    simp
  unfold unwrap
  rw [he]
  simp only [hi]
  rfl

theorem covers_flat {r : Polygon} (P : ℝ × ℝ) :
    Covers ⟨r.exterior.map flat, r.interiors.map fun i => i.map flat⟩ P ↔ Covers r P := by
  have ho : ∀ l : List Coord, outline (l.map flat) = outline l := fun l => by
    unfold outline; rw [List.map_map]; rfl
  unfold Covers
  simp only [ho, List.mem_map, forall_exists_index, and_imp, forall_apply_eq_imp_iff₂]

theorem onBoundary_flat {r : Polygon} (P : ℝ × ℝ) :
    OnBoundary ⟨r.exterior.map flat, r.interiors.map fun i => i.map flat⟩ P ↔ OnBoundary r P := by
  have ho : ∀ l : List Coord, outline (l.map flat) = outline l := fun l => by
    unfold outline; rw [List.map_map]; rfl
  unfold OnBoundary
  simp only [ho, List.mem_map, exists_exists_and_eq_and]

/-! ## The first time -/

/-- A part that splitting leaves as it is. -/
structure Settled (s : Shapely) (r : Polygon) : Prop where
  closed : ClosedPolygon r
  lon : ∀ v ∈ r.exterior, -180 ≤ v.x ∧ v.x ≤ 180
  lat : ∀ v ∈ r.exterior, -90 ≤ v.y ∧ v.y ≤ 90
  near : StepsWithin 180 (r.exterior.map (·.x))
  valid : smallSteps (r.exterior.map (·.x)) ∨ s.isValid r = true

/-- The polygons of C165: closed rings on the globe; less than 360 degrees wide, or around a pole without heights. -/
structure Fitting (s : Shapely) (p : Polygon) : Prop where
  closed : ClosedPolygon p
  lon : ∀ v ∈ p.exterior, -180 ≤ v.x ∧ v.x ≤ 180
  lat : ∀ v ∈ p.exterior, -90 ≤ v.y ∧ v.y ≤ 90
  wide : Narrow p ∨ (s.containsPole (p.exterior.map (·.x)) = true ∧ ∀ v ∈ p.exterior, v.z = none)

theorem wrap_kept {s : Shapely} {q r : Polygon} (hc : ClosedPolygon q) (hv : s.isValid q = true)
    (h : wrapAntimeridian s q = .ok r) : ClosedPolygon r ∧ s.isValid r = true := by
  unfold wrapAntimeridian at h
  split_ifs at h <;> try simp only at h
  all_goals try split_ifs at h
  all_goals first
    | (obtain rfl := Except.ok.inj h; exact ⟨hc, hv⟩)
    | (obtain rfl := Except.ok.inj h; exact ⟨mkPolygon_closed _ _, by assumption⟩)

theorem turned_near {d : ℝ} {k : Int} {q r : Polygon} (ht : Turned k q r) (h : StepsWithin d (q.exterior.map (·.x))) :
    StepsWithin d (r.exterior.map (·.x)) := by
  have e : r.exterior.map (·.x) = (q.exterior.map (·.x)).map (· + 360 * (k : ℝ)) := by
    have := congrArg (List.map Prod.fst) ht.1
    simpa [List.map_map, Function.comp_def] using this
  rw [e]
  exact near_shift h

/-- The parts of a polygon around a pole: each on one side of the prime meridian. -/
theorem splitPole_settled {s : Shapely} (hs : Splitter s) (sort : SortValues Coord.x) (p : Polygon)
    (hne : p.exterior.dropLast ≠ []) (hz : ∀ v ∈ p.exterior, v.z = none)
    (hx : ∀ v ∈ p.exterior, -180 ≤ v.x ∧ v.x ≤ 180) (hy : ∀ v ∈ p.exterior, -90 ≤ v.y ∧ v.y ≤ 90) :
    ∃ shape, splitPole s sort p = .ok shape ∧ ∀ r ∈ shape.parts, Settled s r := by
  have hperm := sort.perm p.exterior.dropLast
  have hmem : ∀ v ∈ sort.run p.exterior.dropLast, v ∈ p.exterior := fun v hv =>
    List.dropLast_subset _ (hperm.mem_iff.mp hv)
  have hne' : sort.run p.exterior.dropLast ≠ [] := by
    intro h; rw [h] at hperm; exact hne (List.nil_perm.mp hperm)
  generalize hcoords : sort.run p.exterior.dropLast = coords at *
  obtain ⟨first, hf⟩ : ∃ a, coords.head? = some a := by
    rcases coords with _ | ⟨a, t⟩
    · exact absurd rfl hne'
    · exact ⟨a, rfl⟩
  obtain ⟨last, hl⟩ : ∃ a, coords.getLast? = some a := ⟨_, List.getLast?_eq_some_getLast hne'⟩
  have hfm := hmem first (List.mem_of_head? hf)
  have hlm := hmem last (List.mem_of_getLast? hl)
  have hzc : ∀ c ∈ coords, c.z = none := fun c hc => hz c (hmem c hc)
  have hlat := poleLatitude_between first last (hx last hlm).2 (hy first hfm) (hy last hlm)
  set ns : ℝ := if (coords.map (·.y)).sum / coords.length > 0 then 1 else -1 with hns
  have hnsr : -90 ≤ 90 * ns ∧ 90 * ns ≤ 90 := by
    rw [hns]; split_ifs <;> constructor <;> linarith
  set pg := mkPolygon ([⟨-180, 90 * ns, none⟩, ⟨-180, poleLatitude first last, none⟩] ++ coords ++
      [⟨180, poleLatitude first last, none⟩, ⟨180, 90 * ns, none⟩, ⟨-180, 90 * ns, none⟩]) p.interiors with hpg
  have hok : splitPole s sort p = .ok (ofList (s.split pg (.meridian 0))) := by
    unfold splitPole
    simp only [hcoords, hf, hl]
    unfold require
    rw [if_pos hzc]
    rfl
  have hext : ∀ v ∈ pg.exterior, (-180 ≤ v.x ∧ v.x ≤ 180) ∧ -90 ≤ v.y ∧ v.y ≤ 90 := by
    intro v hv
    rw [hpg] at hv
    simp only [mkPolygon] at hv
    have hv' := mem_ring hv
    simp only [List.mem_append, List.mem_cons, List.not_mem_nil, or_false] at hv'
    rcases hv' with ((rfl | rfl) | hv') | rfl | rfl | rfl
    · exact ⟨by norm_num, hnsr⟩
    · exact ⟨by norm_num, hlat⟩
    · exact ⟨hx v (hmem v hv'), hy v (hmem v hv')⟩
    · exact ⟨by norm_num, hlat⟩
    · exact ⟨by norm_num, hnsr⟩
    · exact ⟨by norm_num, hnsr⟩
  refine ⟨_, hok, ?_⟩
  intro r hr
  rw [ofList_parts] at hr
  have hb : ∀ v ∈ r.exterior, WithinRange pg v := hs.inside _ _ r hr
  have hlon : ∀ v ∈ r.exterior, -180 ≤ v.x ∧ v.x ≤ 180 := fun v hv => inBox_x (hb v hv) fun w hw => (hext w hw).1
  refine ⟨hs.closed _ _ r hr, hlon, fun v hv => inBox_y (hb v hv) fun w hw => (hext w hw).2, ?_,
    .inr (hs.valid _ _ r hr)⟩
  have hside := hs.meridian pg 0 r (fun v hv => by have := (hext v hv).2; constructor <;> linarith [this.1, this.2]) hr
  intro e he
  have h1 := List.of_mem_zip (show (e.1, e.2) ∈ _ from he)
  obtain ⟨a, ha, ea⟩ := List.mem_map.mp h1.1
  obtain ⟨b, hb', eb⟩ := List.mem_map.mp (List.mem_of_mem_tail h1.2)
  have ra := hlon a ha
  have rb := hlon b hb'
  rw [← ea, ← eb, abs_le]
  rcases hside with h | h
  · have := h a ha; have := h b hb'; constructor <;> linarith [ra.1, rb.1]
  · have := h a ha; have := h b hb'; constructor <;> linarith [ra.2, rb.2]

theorem first_time {s : Shapely} (hs : Settler s) (sort : SortValues Coord.x)
    (sort' : SortValues (α := ℝ × ℝ) Prod.fst) {p : Polygon} (h : Fitting s p) :
    ∃ shape, splitAntimeridian s sort sort' p = .ok shape ∧ ∀ r ∈ shape.parts, Settled s r := by
  by_cases hsm : smallSteps (p.exterior.map (·.x))
  · refine ⟨.polygon p, by unfold splitAntimeridian; simp only [if_pos hsm], fun r hr => ?_⟩
    obtain rfl : r = p := by simpa [Shape.parts] using hr
    exact ⟨h.closed, h.lon, h.lat, near_of_small hsm, .inl hsm⟩
  by_cases hp : s.containsPole (p.exterior.map (·.x)) = true
  · have hz : ∀ v ∈ p.exterior, v.z = none := by
      rcases h.wide with hn | ⟨-, hz⟩
      · obtain ⟨u, hu, hne⟩ := hs.pole _ hp
        exact absurd (unwraps_closed hu (lons_closed h.closed.1) (hn.span u hu)) hne
      · exact hz
    have hne : p.exterior.dropLast ≠ [] := by
      intro he
      apply hsm
      rcases hl : p.exterior with _ | ⟨a, _ | ⟨b, t⟩⟩
      · exact trivial
      · exact trivial
      · rw [hl] at he; simp at he
    obtain ⟨shape, hok, hr⟩ := splitPole_settled hs.toSplitter sort p hne hz h.lon h.lat
    refine ⟨shape, ?_, hr⟩
    unfold splitAntimeridian
    simp only [if_neg hsm, hp, if_true]
    exact hok
  · have hn : Narrow p := h.wide.resolve_right fun hw => hp hw.1
    have hp' : s.containsPole (p.exterior.map (·.x)) = false := by simpa using hp
    obtain ⟨shape, c, hok, -, hparts, hlon⟩ := crossing_parts hs.toSplitter sort sort' p h.lon
      (fun v hv => by have := h.lat v hv; constructor <;> linarith [this.1, this.2]) hn.ring hp' hsm
    refine ⟨shape, hok, fun r hr => ?_⟩
    obtain ⟨q, hq, hw, k, ht⟩ := forall₂_mem_right hparts hr
    obtain ⟨hcl, hv⟩ := wrap_kept (hs.closed _ _ q hq) (hs.valid _ _ q hq) hw
    have hlat : ∀ v ∈ q.exterior, -90 ≤ v.y ∧ v.y ≤ 90 := fun v hv => inBox_y (hs.inside _ _ q hq v hv) fun w hw => by
      obtain ⟨-, w', hw', e⟩ := unwrap_exterior sort' p hw
      rw [e]; exact h.lat w' hw'
    refine ⟨hcl, fun v hv => hlon r hr v (List.mem_append_left _ hv), fun v hv => ?_, ?_, .inr hv⟩
    · obtain ⟨w, -, -, e, hw⟩ := turned_coords ht (List.mem_append_left _ hv)
      rw [e]; exact hlat w (hw hv)
    · refine turned_near ht (hs.steps _ c q 180 (by norm_num) hq ?_)
      have he : (unwrap sort' p).exterior = unwrapExterior p.exterior := ring_closed (unwrapExterior_closed h.closed hn)
      rw [he, unwrapExterior_x]
      exact near_of_index (unwrapped_unwraps _).steps

/-! ## The second time -/

theorem second_time {s : Shapely} (hs : Settler s) (sort : SortValues Coord.x)
    (sort' : SortValues (α := ℝ × ℝ) Prod.fst) {r : Polygon} (h : Settled s r) :
    ∃ shape, splitAntimeridian s sort sort' r = .ok shape ∧ (∀ q ∈ shape.parts, ∀ v ∈ q.exterior, -90 ≤ v.y ∧ v.y ≤ 90) ∧
      (∀ P : ℝ × ℝ, P.1 ≠ 180 → ¬ OnBoundary r P → ((∃ q ∈ shape.parts, Covers q P) ↔ Covers r P)) ∧
      (smallSteps (r.exterior.map (·.x)) → shape.parts = [r]) := by
  by_cases hsm : smallSteps (r.exterior.map (·.x))
  · refine ⟨.polygon r, by unfold splitAntimeridian; simp only [if_pos hsm], ?_, ?_, fun _ => rfl⟩
    · intro q hq
      obtain rfl : q = r := by simpa [Shape.parts] using hq
      exact h.lat
    · intro P _ _
      simp [Shape.parts]
  have hv := h.valid.resolve_left hsm
  have hp : s.containsPole (r.exterior.map (·.x)) = false := by
    refine hs.through _ ?_
    rw [smallSteps_below] at hsm
    push Not at hsm
    obtain ⟨e, he, h1⟩ := hsm
    exact ⟨e, he, le_antisymm (h.near e he) h1⟩
  have hdir : ¬ ∃ k ∈ shifts (r.exterior.map (·.x)), k ≥ 1 := by
    rintro ⟨k, hk, h1⟩
    have := shifts_zero h.near k hk
    omega
  have hu := unwrap_near sort' h.near
  have hflat := mkPolygon_map h.closed flat
  have hvalid : s.isValid (unwrap sort' r) = true := by
    rw [hu]
    exact hs.moved r flat (fun a b => rfl) hv
  have hext : (unwrap sort' r).exterior = r.exterior.map flat := by rw [hu, hflat]
  have hrange : ∀ v ∈ (unwrap sort' r).exterior, (-180 ≤ v.x ∧ v.x ≤ 180) ∧ -90 ≤ v.y ∧ v.y ≤ 90 := by
    intro v hv
    rw [hext] at hv
    obtain ⟨w, hw, rfl⟩ := List.mem_map.mp hv
    exact ⟨h.lon w hw, h.lat w hw⟩
  have hpiece : ∀ q ∈ s.split (unwrap sort' r) (.meridian 180), wrapAntimeridian s q = .ok q := by
    intro q hq
    unfold wrapAntimeridian
    rw [if_pos fun v hv => inBox_x (hs.inside _ _ q hq v hv) fun w hw => (hrange w hw).1]
  obtain ⟨shape, hok, hparts⟩ := eachPart_ok (wrapAntimeridian s) id (ofList (s.split (unwrap sort' r) (.meridian 180)))
    (by rw [ofList_parts]; exact hpiece)
  rw [ofList_parts, List.map_id] at hparts
  refine ⟨shape, ?_, ?_, ?_, fun h => absurd h hsm⟩
  · unfold splitAntimeridian
    simp only [if_neg hsm, hp, if_neg hdir, Bool.false_eq_true, if_false]
    rw [wrapShape_each]; exact hok
  · intro q hq v hv
    rw [hparts] at hq
    exact inBox_y (hs.inside _ _ q hq v hv) fun w hw => (hrange w hw).2
  · intro P hP hb
    have hsp : Spanned (.meridian 180) (unwrap sort' r) := fun v hv => by
      have := (hrange v hv).2; constructor <;> linarith [this.1, this.2]
    have hb' : ¬ OnBoundary (unwrap sort' r) P := by
      rw [hu, hflat]
      exact fun h => hb ((onBoundary_flat P).mp h)
    rw [hparts, hs.covers _ _ P hvalid hsp hP hb', hu, hflat]
    exact covers_flat P

/-! ## Shapes -/

theorem forParts_parts (f : Polygon → Except PyErr Shape) (g : Polygon → Shape) (sh : Shape)
    (h : ∀ p ∈ sh.parts, f p = .ok (g p)) :
    ∃ shape, forParts f sh = .ok shape ∧ shape.parts = sh.parts.flatMap fun p => (g p).parts := by
  rcases sh with p | ps
  · exact ⟨g p, h p (by simp [Shape.parts]), by simp [Shape.parts]⟩
  · refine ⟨.multi ((ps.map g).flatMap Shape.parts), ?_, ?_⟩
    · show (do return Shape.multi ((← ps.mapM f).flatMap Shape.parts) : Except PyErr Shape) = _
      rw [mapM_ok f g ps h]; rfl
    · simp [Shape.parts, List.flatMap_map]

/-- Splitting a shape whose parts stay on the globe at the antimeridian. -/
theorem splitPolygon_parts {s : Shapely} (sort : SortValues Coord.x) (sort' : SortValues (α := ℝ × ℝ) Prod.fst) (sh : Shape)
    (g : Polygon → Shape) (h : ∀ p ∈ sh.parts, splitAntimeridian s sort sort' p = .ok (g p))
    (hlat : ∀ p ∈ sh.parts, ∀ q ∈ (g p).parts, ∀ v ∈ q.exterior, -90 ≤ v.y ∧ v.y ≤ 90) :
    ∃ out, splitPolygon s sort sort' sh = .ok out ∧ out.parts = sh.parts.flatMap fun p => (g p).parts := by
  obtain ⟨a, ha, hpa⟩ := forParts_parts (splitAntimeridian s sort sort') g sh h
  have hla : ∀ q ∈ a.parts, ∀ v ∈ q.exterior, -90 ≤ v.y ∧ v.y ≤ 90 := by
    intro q hq
    rw [hpa] at hq
    obtain ⟨p, hp, hq⟩ := List.mem_flatMap.mp hq
    exact hlat p hp q hq
  obtain ⟨b, hb, hpb⟩ := forParts_parts (splitSouth s) .polygon a (fun q hq => by
    unfold splitSouth; rw [if_pos fun v hv => (hla q hq v hv).1])
  have hpb' : b.parts = a.parts := by rw [hpb]; simp [Shape.parts]
  obtain ⟨c, hc, hpc⟩ := forParts_parts (splitNorth s) .polygon b (fun q hq => by
    rw [hpb'] at hq
    unfold splitNorth; rw [if_pos fun v hv => (hla q hq v hv).2])
  have hpc' : c.parts = b.parts := by rw [hpc]; simp [Shape.parts]
  refine ⟨c, ?_, by rw [hpc', hpb', hpa]⟩
  unfold splitPolygon
  rw [ha]
  show (do let b ← forParts (splitSouth s) a; forParts (splitNorth s) b) = _
  rw [hb]
  exact hc

/-- Splitting settled parts. -/
theorem settled_again {s : Shapely} (hs : Settler s) (sort : SortValues Coord.x)
    (sort' : SortValues (α := ℝ × ℝ) Prod.fst) (out : Shape) (hset : ∀ r ∈ out.parts, Settled s r) :
    ∃ again, splitPolygon s sort sort' out = .ok again ∧
      (∀ P : ℝ × ℝ, P.1 ≠ 180 → (∀ r ∈ out.parts, ¬ OnBoundary r P) →
        ((∃ r ∈ again.parts, Covers r P) ↔ ∃ r ∈ out.parts, Covers r P)) ∧
      ((∀ r ∈ out.parts, ∀ e ∈ (r.exterior.map (·.x)).zip (r.exterior.map (·.x)).tail, |e.2 - e.1| ≠ 180) →
        again.parts = out.parts) := by
  have k2 : ∀ r, ∃ g', r ∈ out.parts → splitAntimeridian s sort sort' r = .ok g' ∧
      (∀ q ∈ g'.parts, ∀ v ∈ q.exterior, -90 ≤ v.y ∧ v.y ≤ 90) ∧
      (∀ P : ℝ × ℝ, P.1 ≠ 180 → ¬ OnBoundary r P → ((∃ q ∈ g'.parts, Covers q P) ↔ Covers r P)) ∧
      (smallSteps (r.exterior.map (·.x)) → g'.parts = [r]) := by
    intro r
    by_cases hr : r ∈ out.parts
    · obtain ⟨g', hg'⟩ := second_time hs sort sort' (hset r hr); exact ⟨g', fun _ => hg'⟩
    · exact ⟨.polygon r, fun h => absurd h hr⟩
  choose g' hg' using k2
  obtain ⟨again, ha, hpa⟩ := splitPolygon_parts sort sort' out g' (fun r hr => (hg' r hr).1)
    (fun r hr => (hg' r hr).2.1)
  refine ⟨again, ha, ?_, ?_⟩
  · intro P hP hb
    rw [hpa]
    constructor
    · rintro ⟨q, hq, hc⟩
      obtain ⟨r, hr, hq⟩ := List.mem_flatMap.mp hq
      exact ⟨r, hr, ((hg' r hr).2.2.1 P hP (hb r hr)).mp ⟨q, hq, hc⟩⟩
    · rintro ⟨r, hr, hc⟩
      obtain ⟨q, hq, hc⟩ := ((hg' r hr).2.2.1 P hP (hb r hr)).mpr hc
      exact ⟨q, List.mem_flatMap.mpr ⟨r, hr, hq⟩, hc⟩
  · intro hne
    rw [hpa]
    have : ∀ r ∈ out.parts, (g' r).parts = [r] := fun r hr =>
      (hg' r hr).2.2.2 ((smallSteps_below _).mpr fun e he => lt_of_le_of_ne ((hset r hr).near e he) (hne r hr e he))
    have e := List.flatMap_congr (l := out.parts) (f := fun r => (g' r).parts) (g := fun r => [r]) this
    rw [e]
    simp

/-- **C165, on the globe.** For every polygon or multipolygon with its coordinates on the globe whose parts are less than 360
degrees wide or around a pole: splitting it and splitting the result again both succeed; the result covers the same places
again, off its outlines and the antimeridian; and it is the same, coordinate by coordinate, unless two neighbouring vertices
are exactly half a turn apart.  Missing: polygons that reach beyond a pole. -/
theorem C165_again_partial {s : Shapely} (hs : Settler s) (sort : SortValues Coord.x)
    (sort' : SortValues (α := ℝ × ℝ) Prod.fst) (shape : Shape) (h : ∀ p ∈ shape.parts, Fitting s p) :
    ∃ out again, splitPolygon s sort sort' shape = .ok out ∧ splitPolygon s sort sort' out = .ok again ∧
      (∀ P : ℝ × ℝ, P.1 ≠ 180 → (∀ r ∈ out.parts, ¬ OnBoundary r P) →
        ((∃ r ∈ again.parts, Covers r P) ↔ ∃ r ∈ out.parts, Covers r P)) ∧
      ((∀ r ∈ out.parts, ∀ e ∈ (r.exterior.map (·.x)).zip (r.exterior.map (·.x)).tail, |e.2 - e.1| ≠ 180) →
        again.parts = out.parts) := by
  have k1 : ∀ p, ∃ g, p ∈ shape.parts → splitAntimeridian s sort sort' p = .ok g ∧ ∀ r ∈ g.parts, Settled s r := by
    intro p
    by_cases hp : p ∈ shape.parts
    · obtain ⟨g, hg⟩ := first_time hs sort sort' (h p hp); exact ⟨g, fun _ => hg⟩
    · exact ⟨.polygon p, fun h => absurd h hp⟩
  choose g hg using k1
  obtain ⟨out, ho, hpo⟩ := splitPolygon_parts sort sort' shape g (fun p hp => (hg p hp).1)
    (fun p hp q hq => ((hg p hp).2 q hq).lat)
  have hset : ∀ r ∈ out.parts, Settled s r := by
    intro r hr
    rw [hpo] at hr
    obtain ⟨p, hp, hr⟩ := List.mem_flatMap.mp hr
    exact (hg p hp).2 r hr
  obtain ⟨again, ha, h1, h2⟩ := settled_again hs sort sort' out hset
  exact ⟨out, again, ho, ha, h1, h2⟩

/-! ## A splitting that meets this: clipping -/

theorem near_cons {d a b : ℝ} {t : List ℝ} : StepsWithin d (a :: b :: t) ↔ |b - a| ≤ d ∧ StepsWithin d (b :: t) := by
  unfold StepsWithin
  simp only [List.tail_cons, List.zip_cons_cons, List.mem_cons, forall_eq_or_imp]

theorem meet_x {c : ℝ} {a b : Coord} (h : b.x ≠ a.x) : (meet Coord.x c a b).x = c := by
  have : b.x - a.x ≠ 0 := sub_ne_zero.mpr h
  simp only [meet]
  field_simp
  ring

theorem near_meets {d c : ℝ} : ∀ (a : Coord) (t : List Coord), StepsWithin d ((a :: t).map (·.x)) →
    StepsWithin d ((meetsFrom Coord.x c a t).map (·.x))
  | _, [], h => h
  | a, b :: t, h => by
    simp only [List.map_cons] at h
    obtain ⟨h1, h2⟩ := near_cons.mp h
    have ih := near_meets (c := c) b t h2
    obtain ⟨r, hr⟩ := meetsFrom_cons Coord.x c b t
    unfold meetsFrom
    rw [hr] at ih ⊢
    obtain ⟨hl, hu⟩ := abs_le.mp h1
    split_ifs with hc
    · have hne : b.x ≠ a.x := by rintro he; rcases hc with ⟨x, y⟩ | ⟨x, y⟩ <;> simp only [he] at * <;> linarith
      simp only [List.map_cons, meet_x hne]
      refine near_cons.mpr ⟨?_, near_cons.mpr ⟨?_, ih⟩⟩
      · rw [abs_le]; rcases hc with ⟨x, y⟩ | ⟨x, y⟩ <;> constructor <;> linarith
      · rw [abs_le]; rcases hc with ⟨x, y⟩ | ⟨x, y⟩ <;> constructor <;> linarith
    · exact near_cons.mpr ⟨h1, ih⟩

theorem near_map {d : ℝ} {g : Coord → Coord} (hg : ∀ a b : Coord, |(g b).x - (g a).x| ≤ |b.x - a.x|) :
    ∀ l : List Coord, StepsWithin d (l.map (·.x)) → StepsWithin d ((l.map g).map (·.x))
  | [], h => h
  | [_], _ => by intro e he; simp at he
  | a :: b :: t, h => by
    obtain ⟨h1, h2⟩ := near_cons.mp h
    exact near_cons.mpr ⟨(hg a b).trans h1, near_map hg (b :: t) h2⟩

theorem toWest_shrinks (c : ℝ) (a b : Coord) : |(toWest c b).x - (toWest c a).x| ≤ |b.x - a.x| := by
  rcases toWest_cases c a with ⟨ha, ea⟩ | ⟨ha, ea, -⟩ <;> rcases toWest_cases c b with ⟨hb, eb⟩ | ⟨hb, eb, -⟩ <;>
    rw [ea, eb] <;> first | rfl | (apply abs_le.mpr; constructor <;> linarith [le_abs_self (b.x - a.x), neg_abs_le (b.x - a.x), abs_nonneg (b.x - a.x)])

theorem toEast_shrinks (c : ℝ) (a b : Coord) : |(toEast c b).x - (toEast c a).x| ≤ |b.x - a.x| := by
  rcases toEast_cases c a with ⟨ha, ea⟩ | ⟨ha, ea, -⟩ <;> rcases toEast_cases c b with ⟨hb, eb⟩ | ⟨hb, eb, -⟩ <;>
    rw [ea, eb] <;> first | rfl | (apply abs_le.mpr; constructor <;> linarith [le_abs_self (b.x - a.x), neg_abs_le (b.x - a.x), abs_nonneg (b.x - a.x)])

/-- `clipping`, for which a ring through a pole does not have it in its interior. -/
noncomputable def clippingOpen : Shapely :=
  { clipping with containsPole := fun lon => decide ((∃ u, Unwraps lon u ∧ u.head? ≠ u.getLast?) ∧
      ¬ ∃ e ∈ lon.zip lon.tail, |e.2 - e.1| = 180) }

theorem clippingOpen_settler : Settler clippingOpen where
  closed := clipping_cutter.closed
  inside := clipping_cutter.inside
  holes := clipping_cutter.holes
  simple := clipping_cutter.simple
  meridian := clipping_cutter.meridian
  parallel := clipping_cutter.parallel
  northHalf := clipping_cutter.northHalf
  southHalf := clipping_cutter.southHalf
  crossNorth := clipping_cutter.crossNorth
  crossSouth := clipping_cutter.crossSouth
  valid := clipping_cutter.valid
  moved := clipping_cutter.moved
  covers := clipping_cutter.covers
  boundary := clipping_cutter.boundary
  piecesNorth := clipping_cutter.piecesNorth
  piecesSouth := clipping_cutter.piecesSouth
  belowNorth := clipping_cutter.belowNorth
  aboveSouth := clipping_cutter.aboveSouth
  pole lon h := (of_decide_eq_true h).1
  steps p c q d hd hq h := by
    have hq' : q ∈ clipping.split p (.meridian c) := hq
    have hp := (clipping_mem hq').1
    simp only [clipping, if_pos hp] at hq'
    unfold clipX at hq'
    have hm : StepsWithin d ((withMeets Coord.x c p.exterior).map (·.x)) := by
      revert h
      rcases p.exterior with _ | ⟨a, t⟩ <;> intro h
      · exact h
      · exact near_meets a t h
    split_ifs at hq'
    · simp only [List.mem_cons, List.not_mem_nil, or_false] at hq'
      rcases hq' with rfl | rfl
      · exact near_map (toWest_shrinks c) _ hm
      · exact near_map (toEast_shrinks c) _ hm
    · obtain rfl : q = p := by simpa using hq'
      exact h
  through lon h := decide_eq_false fun hc => hc.2 h

/-- A rectangle across the antimeridian meets the hypotheses. -/
example : Fitting clippingOpen (box 170 (-170) 10 20) := by
  refine ⟨box_closed _ _ _ _, ?_, ?_, .inl ⟨box_drawable.narrow.span, fun u _ i hi => by simp [box] at hi⟩⟩
  · intro v hv
    simp only [box, List.mem_cons, List.not_mem_nil, or_false] at hv
    rcases hv with rfl | rfl | rfl | rfl | rfl <;> norm_num
  · intro v hv
    simp only [box, List.mem_cons, List.not_mem_nil, or_false] at hv
    rcases hv with rfl | rfl | rfl | rfl | rfl <;> norm_num

/-- So does a triangle around the north pole. -/
example : Fitting clippingOpen ⟨[⟨0, 80, none⟩, ⟨120, 75, none⟩, ⟨-120, 80, none⟩, ⟨0, 80, none⟩], []⟩ := by
  have hm : ∀ v ∈ ([⟨0, 80, none⟩, ⟨120, 75, none⟩, ⟨-120, 80, none⟩, ⟨0, 80, none⟩] : List Coord),
      (-180 ≤ v.x ∧ v.x ≤ 180) ∧ (-90 ≤ v.y ∧ v.y ≤ 90) ∧ v.z = none := by
    intro v hv
    simp only [List.mem_cons, List.not_mem_nil, or_false] at hv
    rcases hv with rfl | rfl | rfl | rfl <;> norm_num
  refine ⟨⟨rfl, by simp⟩, fun v hv => (hm v hv).1, fun v hv => (hm v hv).2.1, .inr ⟨?_, fun v hv => (hm v hv).2.2⟩⟩
  refine decide_eq_true ⟨⟨[0, 120, 240, 360], ⟨rfl, rfl, ?_, ?_⟩, by simp⟩, ?_⟩
  · intro i h h'
    rcases i with _ | _ | _ | _ | i
    · exact ⟨0, by norm_num⟩
    · exact ⟨0, by norm_num⟩
    · exact ⟨-1, by norm_num⟩
    · exact ⟨-1, by norm_num⟩
    · simp only [List.length_cons, List.length_nil] at h; omega
  · intro i h
    rcases i with _ | _ | _ | i
    · norm_num [abs_le]
    · norm_num [abs_le]
    · norm_num [abs_le]
    · simp only [List.length_cons, List.length_nil] at h; omega
  · rintro ⟨e, he, h⟩
    simp only [List.map_cons, List.map_nil, List.tail_cons, List.zip_cons_cons, List.zip_nil_right, List.mem_cons,
      List.not_mem_nil, or_false] at he
    rcases he with rfl | rfl | rfl <;> norm_num [abs_of_neg] at h

end Tatc.Props
