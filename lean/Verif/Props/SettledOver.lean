import Verif.Props.Settled

/-!
# Splitting a polygon over a pole, and splitting it again
-/

namespace Tatc.Props
open Tatc.Polygons Tatc.Spec Tatc.Lemmas
open Tatc.Pandas (SortValues)
open scoped Classical

/-- No two vertices are more than half a turn apart. -/
def Slim (r : Polygon) : Prop := ∀ v ∈ r.exterior, ∀ w ∈ r.exterior, v.x - w.x ≤ 180

theorem Slim.near {r : Polygon} (h : Slim r) : StepsWithin 180 (r.exterior.map (·.x)) := by
  intro e he
  have h1 := List.of_mem_zip (show (e.1, e.2) ∈ _ from he)
  obtain ⟨a, ha, ea⟩ := List.mem_map.mp h1.1
  obtain ⟨b, hb, eb⟩ := List.mem_map.mp (List.mem_of_mem_tail h1.2)
  rw [← ea, ← eb, abs_le]
  constructor <;> linarith [h a ha b hb, h b hb a ha]

theorem Slim.within {p q : Polygon} (h : Slim p) (hq : ∀ v ∈ q.exterior, WithinRange p v) : Slim q := by
  intro v hv w hw
  obtain ⟨-, ⟨b, hb, h2⟩, -, -⟩ := hq v hv
  obtain ⟨⟨a, ha, h1⟩, -, -, -⟩ := hq w hw
  linarith [h b hb a ha]

/-- The polygons of C165 that may reach beyond a pole: closed rings, less than 90 degrees beyond it, at most half a turn wide,
and without holes if it is the south pole. -/
structure Over (p : Polygon) : Prop where
  closed : ClosedPolygon p
  lon : ∀ v ∈ p.exterior, -180 ≤ v.x ∧ v.x ≤ 180
  lat : ∀ v ∈ p.exterior, -180 < v.y ∧ v.y < 180
  wide : ∀ u, Unwraps (p.exterior.map (·.x)) u → ∀ a ∈ u, ∀ b ∈ u, a - b ≤ 180
  holes : ∀ u, Unwraps (p.exterior.map (·.x)) u → ∀ i ∈ p.interiors, ∀ c ∈ i, (-180 ≤ c.x ∧ c.x ≤ 180) ∧
    ∃ j : Int, ∃ m ∈ u, ∃ M ∈ u, m < c.x - 360 * j ∧ c.x - 360 * j < M
  south : p.interiors = [] ∨ ∀ v ∈ p.exterior, -90 ≤ v.y

theorem Over.narrow {p : Polygon} (h : Over p) : Narrow p :=
  ⟨fun u hu a ha b hb => by linarith [h.wide u hu a ha b hb], h.holes⟩

/-- What is kept of such a polygon from step to step. -/
structure Slice (s : Shapely) (lo hi : ℝ) (r : Polygon) : Prop where
  closed : ClosedPolygon r
  lon : ∀ v ∈ r.exterior, -180 ≤ v.x ∧ v.x ≤ 180
  lat : ∀ v ∈ r.exterior, lo ≤ v.y ∧ v.y ≤ hi
  slim : Slim r
  valid : smallSteps (r.exterior.map (·.x)) ∨ s.isValid r = true

theorem Slice.settled {s : Shapely} {lo hi : ℝ} {r : Polygon} (h : Slice s lo hi r) (h90 : ∀ v ∈ r.exterior, -90 ≤ v.y ∧ v.y ≤ 90) :
    Settled s r := ⟨h.closed, h.lon, h90, h.slim.near, h.valid⟩

theorem over_antimeridian {s : Shapely} (hs : Cutter s) (sort : SortValues Coord.x)
    (sort' : SortValues (α := ℝ × ℝ) Prod.fst) {p : Polygon} {lo hi : ℝ} (h : Over p)
    (hy : ∀ v ∈ p.exterior, lo ≤ v.y ∧ v.y ≤ hi) :
    ∃ shape, splitAntimeridian s sort sort' p = .ok shape ∧ ∀ r ∈ shape.parts, Slice s lo hi r ∧
      (r.interiors = [] ∨ ∀ v ∈ r.exterior, -90 ≤ v.y) := by
  by_cases hsm : smallSteps (p.exterior.map (·.x))
  · refine ⟨.polygon p, by unfold splitAntimeridian; simp only [if_pos hsm], fun r hr => ?_⟩
    obtain rfl : r = p := by simpa [Shape.parts] using hr
    refine ⟨⟨h.closed, h.lon, hy, ?_, .inl hsm⟩, h.south⟩
    intro v hv w hw
    exact h.wide _ (smallSteps_unwraps hsm) _ (List.mem_map.mpr ⟨v, hv, rfl⟩) _ (List.mem_map.mpr ⟨w, hw, rfl⟩)
  · have hn := h.narrow
    have hp' : s.containsPole (p.exterior.map (·.x)) = false := by
      by_contra hp
      obtain ⟨u, hu, hne⟩ := hs.pole _ (by simpa using hp)
      exact absurd (unwraps_closed hu (lons_closed h.closed.1) (hn.span u hu)) hne
    obtain ⟨shape, c, hok, -, hparts, hlon⟩ := crossing_parts hs.toSplitter sort sort' p h.lon
      (fun v hv => by have := h.lat v hv; constructor <;> linarith [this.1, this.2]) hn.ring hp' hsm
    refine ⟨shape, hok, fun r hr => ?_⟩
    obtain ⟨q, hq, hw, k, ht⟩ := forall₂_mem_right hparts hr
    obtain ⟨hcl, hv⟩ := wrap_kept (hs.closed _ _ q hq) (hs.valid _ _ q hq) hw
    have hlat : ∀ lo hi : ℝ, (∀ v ∈ p.exterior, lo ≤ v.y ∧ v.y ≤ hi) → ∀ v ∈ r.exterior, lo ≤ v.y ∧ v.y ≤ hi := by
      intro lo hi hy v hv
      obtain ⟨w, -, -, e, hw⟩ := turned_coords ht (List.mem_append_left _ hv)
      rw [e]
      exact inBox_y (hs.inside _ _ q hq w (hw hv)) fun w hw => by
        obtain ⟨-, w', hw', e⟩ := unwrap_exterior sort' p hw
        rw [e]; exact hy w' hw'
    refine ⟨⟨hcl, fun v hv => hlon r hr v (List.mem_append_left _ hv), hlat lo hi hy, ?_, .inr hv⟩, ?_⟩
    · have hslim : Slim (unwrap sort' p) := fun v hv w hw =>
        h.wide _ (unwrapped_unwraps _) _ (unwrap_exterior sort' p hv).1 _ (unwrap_exterior sort' p hw).1
      have hq' := hslim.within (hs.inside _ _ q hq)
      intro v hv w hw
      obtain ⟨v', -, e1, -, m1⟩ := turned_coords ht (List.mem_append_left _ hv)
      obtain ⟨w', -, e2, -, m2⟩ := turned_coords ht (List.mem_append_left _ hw)
      rw [e1, e2]
      linarith [hq' v' (m1 hv) w' (m2 hw)]
    · rcases h.south with h0 | h0
      · left
        have hq0 : q.interiors = [] := hs.simple _ _ q (by
          unfold unwrap mkPolygon
          simp [h0]) hq
        have := ht.2
        rw [hq0] at this
        simpa using this
      · right
        intro v hv
        exact (hlat (-90) hi (fun v hv => ⟨h0 v hv, (hy v hv).2⟩) v hv).1

theorem flipped_slim {σ : ℝ} {g q : Polygon} (h : Flipped σ g q) (hg : Slim g) : Slim q := by
  rcases h with ⟨rfl, -⟩ | ⟨d, hm, -, -⟩
  · exact hg
  · have hx : ∀ v ∈ q.exterior, ∃ w ∈ g.exterior, v.x = w.x + d := by
      intro v hv
      have : (v.x, v.y) ∈ outline q.exterior := List.mem_map.mpr ⟨v, hv, rfl⟩
      rw [hm.1] at this
      obtain ⟨P, hP, e⟩ := List.mem_map.mp this
      obtain ⟨w, hw, rfl⟩ := List.mem_map.mp hP
      exact ⟨w, hw, (Prod.mk.inj e).1.symm⟩
    intro v hv w hw
    obtain ⟨v', hv', e1⟩ := hx v hv
    obtain ⟨w', hw', e2⟩ := hx w hw
    rw [e1, e2]
    linarith [hg v' hv' w' hw']

theorem splitParts_within {s : Shapely} (hs : Splitter s) {half l : Line} {p g : Polygon}
    (hg : g ∈ splitParts s half (s.split p l)) : ∀ v ∈ g.exterior, WithinRange p v := by
  rcases mem_splitParts s _ _ hg with ⟨hm, -⟩ | ⟨part, hm, -, hgs⟩
  · exact hs.inside _ _ g hm
  · intro v hv
    obtain ⟨⟨a, ha, h1⟩, ⟨b, hb, h2⟩, ⟨a', ha', h3⟩, ⟨b', hb', h4⟩⟩ := hs.inside _ _ g hgs v hv
    obtain ⟨⟨e, he, k1⟩, -, -, -⟩ := hs.inside _ _ part hm a ha
    obtain ⟨-, ⟨f, hf, k2⟩, -, -⟩ := hs.inside _ _ part hm b hb
    obtain ⟨-, -, ⟨g', hg', k3⟩, -⟩ := hs.inside _ _ part hm a' ha'
    obtain ⟨-, -, -, ⟨j, hj, k4⟩⟩ := hs.inside _ _ part hm b' hb'
    exact ⟨⟨e, he, k1.trans h1⟩, ⟨f, hf, h2.trans k2⟩, ⟨g', hg', k3.trans h3⟩, ⟨j, hj, h4.trans k4⟩⟩

theorem wrapNorth_result {s : Shapely} {q r : Polygon} (h : wrapNorth s q = .ok r) :
    r = q ∨ (ClosedPolygon r ∧ s.isValid r = true) := by
  unfold wrapNorth at h
  simp only at h
  split_ifs at h
  all_goals first
    | (obtain rfl := Except.ok.inj h
       first
         | exact Or.inl rfl
         | exact Or.inr ⟨mkPolygon_closed _ _, by assumption⟩)

theorem over_south {s : Shapely} (hs : Splitter s) {lo hi : ℝ} (hlo : -180 < lo) (hhi : 90 ≤ hi) {p : Polygon}
    (h : Slice s lo hi p) (hh : p.interiors = [] ∨ ∀ v ∈ p.exterior, -90 ≤ v.y) :
    ∃ shape, splitSouth s p = .ok shape ∧ ∀ r ∈ shape.parts, Slice s (-90) hi r := by
  by_cases h90 : ∀ c ∈ p.exterior, c.y ≥ -90
  · refine ⟨.polygon p, by unfold splitSouth; rw [if_pos h90], fun r hr => ?_⟩
    obtain rfl : r = p := by simpa [Shape.parts] using hr
    exact ⟨h.closed, h.lon, fun v hv => ⟨h90 v hv, (h.lat v hv).2⟩, h.slim, h.valid⟩
  · have hi0 : p.interiors = [] := hh.resolve_right h90
    have key : ∀ g : Polygon, ∃ q : Polygon, g ∈ splitParts s .southHalf (s.split p (.parallel (-90))) →
        wrapSouth s g = .ok q ∧ Slice s (-90) hi q := by
      intro g
      by_cases hg : g ∈ splitParts s .southHalf (s.split p (.parallel (-90)))
      · obtain ⟨h1, h2, h3, h4⟩ := south_pieces hs h.lon hlo h.lat hg
        obtain ⟨q, hq, hf⟩ := wrapSouth_flipped hs h1 h2 (h4 hi0) h3
        refine ⟨q, fun _ => ⟨hq, ?_⟩⟩
        obtain ⟨q', hq', -, -, ho⟩ := wrapSouth_piece hs
          ⟨h1.closed, h1.holes, h1.lon, fun v hv => ⟨le_trans (by linarith) (h1.lat v hv).1, (h1.lat v hv).2⟩⟩ hhi h2 (h4 hi0) h3
        rw [hq] at hq'
        obtain rfl := Except.ok.inj hq'
        have hr : ClosedPolygon q ∧ s.isValid q = true := by
          rcases wrapSouth_result hq with rfl | h
          · exact ⟨h1.closed, h2⟩
          · exact h
        exact ⟨hr.1, fun v hv => (ho v (List.mem_append_left _ hv)).1, fun v hv => (ho v (List.mem_append_left _ hv)).2,
          flipped_slim hf (h.slim.within (splitParts_within hs hg)), .inr hr.2⟩
      · exact ⟨g, fun h => absurd h hg⟩
    choose w hw using key
    obtain ⟨shape, hok, hparts⟩ := eachPart_ok (wrapSouth s) w
      (ofList (splitParts s .southHalf (s.split p (.parallel (-90))))) (by rw [ofList_parts]; exact fun q hq => (hw q hq).1)
    rw [ofList_parts] at hparts
    refine ⟨shape, ?_, fun r hr => ?_⟩
    · unfold splitSouth
      rw [if_neg h90]
      simp only
      rw [← hok]
      cases ofList (splitParts s .southHalf (s.split p (.parallel (-90)))) <;> rfl
    · rw [hparts] at hr
      obtain ⟨g, hg, rfl⟩ := List.mem_map.mp hr
      exact (hw g hg).2

theorem over_north {s : Shapely} (hs : Splitter s) {hi : ℝ} (hhi : hi < 180) {p : Polygon} (h : Slice s (-90) hi p) :
    ∃ shape, splitNorth s p = .ok shape ∧ ∀ r ∈ shape.parts, Settled s r := by
  by_cases h90 : ∀ c ∈ p.exterior, c.y ≤ 90
  · refine ⟨.polygon p, by unfold splitNorth; rw [if_pos h90], fun r hr => ?_⟩
    obtain rfl : r = p := by simpa [Shape.parts] using hr
    exact h.settled fun v hv => ⟨(h.lat v hv).1, h90 v hv⟩
  · have key : ∀ g : Polygon, ∃ q : Polygon, g ∈ splitParts s .northHalf (s.split p (.parallel 90)) →
        wrapNorth s g = .ok q ∧ Settled s q := by
      intro g
      by_cases hg : g ∈ splitParts s .northHalf (s.split p (.parallel 90))
      · obtain ⟨h1, h2, h3⟩ := north_pieces hs h.lon hhi h.lat hg
        obtain ⟨q, hq, hf⟩ := wrapNorth_flipped hs h1 h2 h3
        refine ⟨q, fun _ => ⟨hq, ?_⟩⟩
        obtain ⟨q', hq', -, -, ho⟩ := wrapNorth_piece hs
          ⟨h1.closed, h1.holes, h1.lon, fun v hv => ⟨(h1.lat v hv).1, (h1.lat v hv).2.trans (by linarith)⟩⟩ h2 h3
        rw [hq] at hq'
        obtain rfl := Except.ok.inj hq'
        have hr : ClosedPolygon q ∧ s.isValid q = true := by
          rcases wrapNorth_result hq with rfl | h
          · exact ⟨h1.closed, h2⟩
          · exact h
        exact ⟨hr.1, fun v hv => (ho v (List.mem_append_left _ hv)).1, fun v hv => (ho v (List.mem_append_left _ hv)).2,
          (flipped_slim hf (h.slim.within (splitParts_within hs hg))).near, .inr hr.2⟩
      · exact ⟨g, fun h => absurd h hg⟩
    choose w hw using key
    obtain ⟨shape, hok, hparts⟩ := eachPart_ok (wrapNorth s) w
      (ofList (splitParts s .northHalf (s.split p (.parallel 90)))) (by rw [ofList_parts]; exact fun q hq => (hw q hq).1)
    rw [ofList_parts] at hparts
    refine ⟨shape, ?_, fun r hr => ?_⟩
    · unfold splitNorth
      rw [if_neg h90]
      simp only
      rw [← hok]
      cases ofList (splitParts s .northHalf (s.split p (.parallel 90))) <;> rfl
    · rw [hparts] at hr
      obtain ⟨g, hg, rfl⟩ := List.mem_map.mp hr
      exact (hw g hg).2

/-- If a step succeeds on every part, it does on all. -/
theorem forParts_all (f : Polygon → Except PyErr Shape) (Q : Polygon → Prop) (sh : Shape)
    (h : ∀ p ∈ sh.parts, ∃ g, f p = .ok g ∧ ∀ r ∈ g.parts, Q r) :
    ∃ shape, forParts f sh = .ok shape ∧ ∀ r ∈ shape.parts, Q r := by
  have k : ∀ p, ∃ g, p ∈ sh.parts → f p = .ok g ∧ ∀ r ∈ g.parts, Q r := by
    intro p
    by_cases hp : p ∈ sh.parts
    · obtain ⟨g, hg⟩ := h p hp; exact ⟨g, fun _ => hg⟩
    · exact ⟨.polygon p, fun h => absurd h hp⟩
  choose g hg using k
  obtain ⟨shape, h1, h2⟩ := forParts_parts f g sh fun p hp => (hg p hp).1
  refine ⟨shape, h1, fun r hr => ?_⟩
  rw [h2] at hr
  obtain ⟨p, hp, hr⟩ := List.mem_flatMap.mp hr
  exact (hg p hp).2 r hr

/-- Splitting gives settled parts. -/
theorem split_settled {s : Shapely} (hs : Settler s) (sort : SortValues Coord.x)
    (sort' : SortValues (α := ℝ × ℝ) Prod.fst) (shape : Shape) (h : ∀ p ∈ shape.parts, Fitting s p ∨ Over p) :
    ∃ out, splitPolygon s sort sort' shape = .ok out ∧ ∀ r ∈ out.parts, Settled s r := by
  obtain ⟨hi, hhi, hhi', hhy⟩ := exists_below (b := 90) (c := 180) (by norm_num)
    (shape.parts.flatMap fun p => p.exterior.map (·.y)) (by
      intro y hy
      obtain ⟨p, hp, hy⟩ := List.mem_flatMap.mp hy
      obtain ⟨v, hv, rfl⟩ := List.mem_map.mp hy
      rcases h p hp with h | h
      · exact (h.lat v hv).2.trans_lt (by norm_num)
      · exact (h.lat v hv).2)
  obtain ⟨lo', hlo, hlo', hly⟩ := exists_below (b := 90) (c := 180) (by norm_num)
    (shape.parts.flatMap fun p => p.exterior.map (-·.y)) (by
      intro y hy
      obtain ⟨p, hp, hy⟩ := List.mem_flatMap.mp hy
      obtain ⟨v, hv, rfl⟩ := List.mem_map.mp hy
      rcases h p hp with h | h
      · have := (h.lat v hv).1
        linarith
      · have := (h.lat v hv).1
        linarith)
  have hyb : ∀ p ∈ shape.parts, ∀ v ∈ p.exterior, -lo' ≤ v.y ∧ v.y ≤ hi := fun p hp v hv =>
    ⟨by have := hly _ (List.mem_flatMap.mpr ⟨p, hp, List.mem_map.mpr ⟨v, hv, rfl⟩⟩); linarith,
      hhy _ (List.mem_flatMap.mpr ⟨p, hp, List.mem_map.mpr ⟨v, hv, rfl⟩⟩)⟩
  obtain ⟨a, ha, hpa⟩ := forParts_all (splitAntimeridian s sort sort') (fun r => Settled s r ∨ (Slice s (-lo') hi r ∧
      (r.interiors = [] ∨ ∀ v ∈ r.exterior, -90 ≤ v.y))) shape (fun p hp => by
    rcases h p hp with hf | ho
    · obtain ⟨g, hg, hr⟩ := first_time hs sort sort' hf
      exact ⟨g, hg, fun r hr' => .inl (hr r hr')⟩
    · obtain ⟨g, hg, hr⟩ := over_antimeridian hs.toCutter sort sort' ho (hyb p hp)
      exact ⟨g, hg, fun r hr' => .inr (hr r hr')⟩)
  obtain ⟨b, hb, hpb⟩ := forParts_all (splitSouth s) (fun r => Settled s r ∨ Slice s (-90) hi r) a (fun p hp => by
    rcases hpa p hp with hf | ho
    · refine ⟨.polygon p, by unfold splitSouth; rw [if_pos fun v hv => (hf.lat v hv).1], fun r hr => .inl ?_⟩
      obtain rfl : r = p := by simpa [Shape.parts] using hr
      exact hf
    · obtain ⟨g, hg, hr⟩ := over_south hs.toSplitter (by linarith) (by linarith) ho.1 ho.2
      exact ⟨g, hg, fun r hr' => .inr (hr r hr')⟩)
  obtain ⟨c, hc, hpc⟩ := forParts_all (splitNorth s) (Settled s) b (fun p hp => by
    rcases hpb p hp with hf | ho
    · refine ⟨.polygon p, by unfold splitNorth; rw [if_pos fun v hv => (hf.lat v hv).2], fun r hr => ?_⟩
      obtain rfl : r = p := by simpa [Shape.parts] using hr
      exact hf
    · exact over_north hs.toSplitter (by linarith) ho)
  refine ⟨c, ?_, hpc⟩
  unfold splitPolygon
  rw [ha]
  show (do let b ← forParts (splitSouth s) a; forParts (splitNorth s) b) = _
  rw [hb]
  exact hc

/-- **C165.** For every polygon or multipolygon whose parts are on the globe and less than 360 degrees wide or around a pole, or
reach less than 90 degrees beyond a pole and are at most 180 degrees wide: splitting it and splitting the result again both
succeed; the result covers the same places again, off its outlines and the antimeridian; and it is the same, coordinate by
coordinate, unless two neighbouring vertices are exactly half a turn apart.  Missing: polygons beyond a pole that are wider,
of which a cut at the pole can leave a side of more than half a turn, and holes in polygons beyond the south pole. -/
theorem C165_over_partial {s : Shapely} (hs : Settler s) (sort : SortValues Coord.x)
    (sort' : SortValues (α := ℝ × ℝ) Prod.fst) (shape : Shape) (h : ∀ p ∈ shape.parts, Fitting s p ∨ Over p) :
    ∃ out again, splitPolygon s sort sort' shape = .ok out ∧ splitPolygon s sort sort' out = .ok again ∧
      (∀ P : ℝ × ℝ, P.1 ≠ 180 → (∀ r ∈ out.parts, ¬ OnBoundary r P) →
        ((∃ r ∈ again.parts, Covers r P) ↔ ∃ r ∈ out.parts, Covers r P)) ∧
      ((∀ r ∈ out.parts, ∀ e ∈ (r.exterior.map (·.x)).zip (r.exterior.map (·.x)).tail, |e.2 - e.1| ≠ 180) →
        again.parts = out.parts) := by
  obtain ⟨out, ho, hset⟩ := split_settled hs sort sort' shape h
  obtain ⟨again, ha, h1, h2⟩ := settled_again hs sort sort' out hset
  exact ⟨out, again, ho, ha, h1, h2⟩

theorem unwraps_small {lon u : List ℝ} (h : smallSteps lon) (hu : Unwraps lon u) : u = lon := by
  refine unwraps_unique hu (smallSteps_unwraps h) fun i hi k he => ?_
  have := (smallSteps_below lon).mp h (lon[i], lon[i + 1]) (by
    rw [List.mem_iff_getElem]
    exact ⟨i, by simp; omega, by simp⟩)
  simp only [he, abs_lt] at this
  have h1 : (k : ℝ) < 0 := by linarith [this.2]
  have h2 : (-1 : ℝ) < k := by linarith [this.1]
  have h1' : k < 0 := by exact_mod_cast h1
  have h2' : -1 < k := by exact_mod_cast h2
  omega

/-- A rectangle across the north pole meets the hypotheses. -/
example : Over (box 100 150 70 110) := by
  have hu : ∀ u, Unwraps ((box 100 150 70 110).exterior.map (·.x)) u → u = [100, 150, 150, 100, 100] := fun u h =>
    unwraps_small (by
      show |(150 : ℝ) - 100| < 180 ∧ |(150 : ℝ) - 150| < 180 ∧ |(100 : ℝ) - 150| < 180 ∧ |(100 : ℝ) - 100| < 180 ∧ True
      norm_num [abs_of_neg]) h
  have hm : ∀ v ∈ (box 100 150 70 110).exterior, (-180 ≤ v.x ∧ v.x ≤ 180) ∧ (-90 ≤ v.y ∧ v.y < 180) := by
    intro v hv
    simp only [box, List.mem_cons, List.not_mem_nil, or_false] at hv
    rcases hv with rfl | rfl | rfl | rfl | rfl <;> norm_num
  refine ⟨box_closed _ _ _ _, fun v hv => (hm v hv).1, fun v hv => ⟨by linarith [(hm v hv).2.1], (hm v hv).2.2⟩, ?_,
    fun u _ i hi => by simp [box] at hi, .inl rfl⟩
  intro u h a ha b hb
  rw [hu u h] at ha hb
  simp only [List.mem_cons, List.not_mem_nil, or_false] at ha hb
  rcases ha with rfl | rfl | rfl | rfl | rfl <;> rcases hb with rfl | rfl | rfl | rfl | rfl <;> norm_num

end Tatc.Props
