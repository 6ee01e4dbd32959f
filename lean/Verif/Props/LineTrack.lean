import Verif.Props.GroundTrack
import Verif.Props.PolygonRings
import Verif.Lemmas.Generation
import Verif.Lemmas.Pandas
import Mathlib.Data.List.Chain

/-! C70, C87, C88 and C89: aggregated ground tracks. -/

namespace Tatc.Props
open Tatc.Track Tatc.Instruments Tatc.Num Tatc.Spec Tatc.Geometry Tatc.Pandas Tatc.Polygons
open scoped Classical

/-! ## C87: contiguous observations -/

theorem cumsumFrom_length (a : Nat) (l : List Bool) : (cumsumFrom a l).length = l.length := by
  induction l generalizing a with
  | nil => rfl
  | cons b t ih => simp [cumsumFrom, ih]

theorem cumsumFrom_succ (a : Nat) (l : List Bool) (i : Nat) (h : i + 1 < l.length) :
    (cumsumFrom a l)[i + 1]'(by rw [cumsumFrom_length]; exact h) =
      (cumsumFrom a l)[i]'(by rw [cumsumFrom_length]; omega) + l[i + 1].toNat := by
  induction l generalizing a i with
  | nil => simp at h
  | cons b t ih =>
    rcases i with _ | i
    · cases t with
      | nil => simp at h
      | cons c t => cases c <;> simp [cumsumFrom]
    · simpa only [cumsumFrom, List.getElem_cons_succ] using ih _ i (by simpa using h)

theorem changes_length (v : List Bool) : (changes v).length = v.length := by
  cases v with
  | nil => rfl
  | cons a t => simp [changes, shift]

theorem changes_succ (v : List Bool) (i : Nat) (h : i + 1 < v.length) :
    (changes v)[i + 1]'(by rw [changes_length]; exact h) = (v[i + 1] != v[i]) := by
  cases v with
  | nil => simp at h
  | cons a t =>
    have hi : i < t.length := by simpa using h
    have : (some a :: t.map some)[i]'(by simp; omega) = some ((a :: t)[i]'(by simp; omega)) := by
      rcases i with _ | i <;> simp
    simp [changes, shift, this]

theorem trackIds_length (v : List Bool) : (trackIds v).length = v.length := by
  rw [trackIds, cumsum, cumsumFrom_length, changes_length]

theorem trackIds_succ (v : List Bool) (i : Nat) (h : i + 1 < v.length) :
    (trackIds v)[i + 1]'(by rw [trackIds_length]; exact h) =
      (trackIds v)[i]'(by rw [trackIds_length]; omega) + if v[i + 1] = v[i] then 0 else 1 := by
  have := cumsumFrom_succ 0 (changes v) i (by rw [changes_length]; exact h)
  rw [changes_succ v i h] at this
  unfold trackIds cumsum
  rw [this]
  cases v[i + 1] <;> cases v[i] <;> simp

/-- **C87**: two samples of an orbit track belong to the same period of observation exactly when all samples between them
have the same validity. -/
theorem C87_periods (valid : List Bool) (i j : Nat) (hij : i ≤ j) (hj : j < valid.length) :
    (trackIds valid)[i]? = (trackIds valid)[j]? ↔
      ∀ k (hk : k < valid.length), i ≤ k → k ≤ j → valid[k] = valid[i]'(by omega) := by
  have hlen := trackIds_length valid
  have main : ∀ d (hd : i + d < valid.length),
      (trackIds valid)[i]'(by omega) ≤ (trackIds valid)[i + d]'(by omega) ∧
      ((trackIds valid)[i]'(by omega) = (trackIds valid)[i + d]'(by omega) ↔
        ∀ k (hk : k < valid.length), i ≤ k → k ≤ i + d → valid[k] = valid[i]'(by omega)) := by
    intro d
    induction d with
    | zero =>
      intro hd
      refine ⟨le_refl _, ⟨fun _ k hk h1 h2 => ?_, fun _ => rfl⟩⟩
      have : k = i := by omega
      subst this; rfl
    | succ d ih =>
      intro hd
      obtain ⟨h1, h2⟩ := ih (by omega)
      have hs := trackIds_succ valid (i + d) (by omega)
      have e : (trackIds valid)[i + (d + 1)]'(by omega) = (trackIds valid)[i + d + 1]'(by omega) := rfl
      rw [e, hs]
      split_ifs with hv
      · refine ⟨by omega, ?_⟩
        rw [show ∀ n m : Nat, (n = m + 0) = (n = m) from fun _ _ => rfl, h2]
        constructor
        · intro h k hk ha hb
          by_cases hkd : k ≤ i + d
          · exact h k hk ha hkd
          · have : k = i + d + 1 := by omega
            subst this
            rw [hv]; exact h (i + d) (by omega) (by omega) le_rfl
        · intro h k hk ha hb
          exact h k hk ha (by omega)
      · refine ⟨by omega, ⟨fun h => by omega, fun h => ?_⟩⟩
        exfalso
        apply hv
        have a := h (i + d + 1) (by omega) (by omega) le_rfl
        have b := h (i + d) (by omega) (by omega) (by omega)
        rw [a, b]
  obtain ⟨d, rfl⟩ := Nat.exists_eq_add_of_le hij
  rw [List.getElem?_eq_getElem (by omega), List.getElem?_eq_getElem (by omega), Option.some_inj]
  exact (main d hj).2

/-- Periods of a track that is valid, invalid and valid again. -/
example : trackIds [true, true, false, true] = [1, 1, 2, 3] := by decide

/-- The rows of an orbit and a period: those of valid observations, in order. -/
theorem mem_groups (start period : Int) (rows : List Row) (k : Key) (g : List Row) :
    (k, g) ∈ groups start period rows ↔ (∃ r, (k, r) ∈ keyedRows start period rows) ∧
      g = ((keyedRows start period rows).filter fun kr => kr.1 = k).map Prod.snd := by
  unfold groups
  rw [List.mem_map]
  constructor
  · rintro ⟨⟨k', g'⟩, hm, he⟩
    obtain ⟨⟨a, ha, hk⟩, hg⟩ := mem_groupBy.mp hm
    simp only [Prod.mk.injEq] at he
    obtain ⟨rfl, rfl⟩ := he
    refine ⟨⟨a.2, ?_⟩, by rw [hg]⟩
    rw [← hk]; exact ha
  · rintro ⟨⟨r, hr⟩, rfl⟩
    exact ⟨(k, (keyedRows start period rows).filter fun kr => kr.1 = k), mem_groupBy.mpr ⟨⟨(k, r), hr, rfl⟩, rfl⟩, rfl⟩

theorem keyedRows_snd (start period : Int) (rows : List Row) :
    (keyedRows start period rows).map Prod.snd = rows.filter (·.validObs) := by
  unfold keyedRows
  have hl := trackIds_length (rows.map (·.validObs))
  rw [List.length_map] at hl
  generalize trackIds (rows.map (·.validObs)) = ids at hl
  induction rows generalizing ids with
  | nil => simp
  | cons r t ih =>
    rcases ids with _ | ⟨i, ids⟩
    · simp at hl
    · have := ih ids (by simpa using hl)
      cases hv : r.validObs <;> simp [hv, this]

/-- **C87**: every valid sample is in one group, and no other sample is in any. -/
theorem C87_samples (start period : Int) (rows : List Row) :
    ((groups start period rows).flatMap Prod.snd).Perm (rows.filter (·.validObs)) := by
  rw [← keyedRows_snd start period rows]
  unfold groups
  rw [List.flatMap_map, ← List.map_flatMap (f := Prod.snd) (g := Prod.snd)]
  exact (groupBy_flatMap_perm Prod.fst (keyedRows start period rows)).map Prod.snd

/-- **C87**: the valid sample at a position is filed under its own orbit and period. -/
theorem C87_keys (start period : Int) (rows : List Row) (k : Key) (r : Row) :
    (k, r) ∈ keyedRows start period rows ↔ ∃ i : Nat, rows[i]? = some r ∧ r.validObs = true ∧
      (ofLex k).1 = orbitId start period r.time ∧ (trackIds (rows.map (·.validObs)))[i]? = some (ofLex k).2 := by
  unfold keyedRows
  rw [List.mem_filter, List.mem_iff_getElem?]
  constructor
  · rintro ⟨⟨i, hi⟩, hv⟩
    rw [List.getElem?_zipWith] at hi
    cases h1 : rows[i]? with
    | none => simp [h1] at hi
    | some r' =>
      cases h2 : (trackIds (rows.map (·.validObs)))[i]? with
      | none => simp [h1, h2] at hi
      | some t =>
        simp only [h1, h2, Option.some.injEq, Prod.mk.injEq] at hi
        obtain ⟨rfl, rfl⟩ := hi
        exact ⟨i, h1, by simpa using hv, rfl, h2⟩
  · rintro ⟨i, h1, hv, hk1, h2⟩
    refine ⟨⟨i, ?_⟩, by simpa using hv⟩
    rw [List.getElem?_zipWith, h1, h2]
    simp only [← hk1]
    rfl

/-! ## C88: orbits -/

/-- **C88**: the orbit of a time is the number of whole periods since the start. -/
theorem C88_orbit (start period time k : Int) (hp : 0 < period) :
    orbitId start period time = k ↔ start + k * period ≤ time ∧ time < start + (k + 1) * period := by
  unfold orbitId
  rw [Int.fdiv_eq_ediv_of_nonneg _ hp.le]
  constructor
  · rintro rfl
    have h1 := Int.mul_ediv_self_le (x := time - start) (k := period) hp.ne'
    have h2 := Int.lt_mul_ediv_self_add (x := time - start) (k := period) hp
    constructor
    · have := mul_comm period ((time - start) / period); linarith
    · have := mul_comm period ((time - start) / period); linarith
  · rintro ⟨h1, h2⟩
    apply Int.le_antisymm
    · have : (time - start) / period < k + 1 := by
        rw [Int.ediv_lt_iff_lt_mul hp]; linarith
      omega
    · rw [Int.le_ediv_iff_mul_le hp]; linarith

/-- **C88** fails at the start: a time is reported to the millisecond, and when the first of the times is reported before
itself its sample is in an orbit of its own, the one before the first. -/
theorem C88_start_false (start period : Int) (report : Int → Int) (h1 : report start < start)
    (h2 : start - report start ≤ period) : orbitId start period (report start) = -1 := by
  rw [C88_orbit _ _ _ _ (by omega)]
  constructor <;> linarith

/-- Times to the nearest thousand ticks, a start 400 ticks later. -/
example : (fun t : Int => t / 1000 * 1000) 400 < 400 ∧ 400 - (fun t : Int => t / 1000 * 1000) 400 ≤ 5400000000 := by
  norm_num

/-! ## C70: lines -/

theorem smallSteps_iff (lon : List ℝ) : smallSteps lon ↔ lon.IsChain fun a b => |b - a| < 180 := by
  induction lon with
  | nil => simp [smallSteps]
  | cons a t ih =>
    cases t with
    | nil => simp [smallSteps]
    | cons b t => rw [smallSteps, ih, List.isChain_cons_cons]

/-- The points of a group at the elevation. -/
def pointsAt (elevation : ℝ) (g : List Row) : List V3 := g.map fun r => ⟨r.lon, r.lat, elevation⟩

theorem segmentsOf_small (splitLine : ℝ → List V3 → List (List V3)) (elevation : ℝ) (g : List Row) (h2 : 2 ≤ g.length)
    (hs : smallSteps (g.map (·.lon))) : segmentsOf splitLine elevation g = .ok [pointsAt elevation g] := by
  unfold segmentsOf
  simp only [hs, if_true, mkLine, List.length_map]
  rw [if_neg (by omega)]
  rfl

/-- **C70** holds when no line has to be split and no group has a single sample: each group of samples is buffered as one
line, with its own mean swath width, and none is lost. -/
theorem C70_unsplit_partial {G : Type} (splitLine : ℝ → List V3 → List (List V3)) (buffer : List V3 → ℝ → G)
    (elevation : ℝ) (start period : Int) (rows : List Row)
    (h2 : ∀ g ∈ groups start period rows, 2 ≤ g.2.length)
    (hs : ∀ g ∈ groups start period rows, (g.2.map (·.lon)).IsChain fun a b => |b - a| < 180) :
    lineTrack splitLine buffer elevation start period rows = .ok ((groups start period rows).map fun g =>
      (g.1, buffer (g.2.map fun r => ⟨r.lon, r.lat, elevation⟩) ((g.2.map (·.swathWidth)).sum / g.2.length))) := by
  unfold lineTrack
  simp only
  rw [mapM_ok (fun g : Key × List Row => segmentsOf splitLine elevation g.2) (fun g => [pointsAt elevation g.2]) _
    (fun g hg => segmentsOf_small splitLine elevation g.2 (h2 g hg) ((smallSteps_iff _).mpr (hs g hg)))]
  have e : ((groups start period rows).map fun g => [pointsAt elevation g.2]).flatten =
      (groups start period rows).map fun g => pointsAt elevation g.2 := by
    generalize groups start period rows = gs
    induction gs with
    | nil => rfl
    | cons g t ih => simp [ih]
  show (require _ _ >>= _) = _
  rw [e, List.zipWith_map, List.zipWith_self, (require_eq_ok _ _ ()).mpr (by simp)]
  show Except.ok _ = _
  rw [List.zipWith_map_right, List.zipWith_self]
  rfl

/-- **C70** fails for groups of one sample, such as the last sample of an orbit or an isolated valid one: the track is
not computed at all. -/
theorem C70_single_false {G : Type} (splitLine : ℝ → List V3 → List (List V3)) (buffer : List V3 → ℝ → G)
    (elevation : ℝ) (start period : Int) (rows : List Row) (k : Key) (r : Row)
    (h : (k, [r]) ∈ groups start period rows) :
    lineTrack splitLine buffer elevation start period rows = .error .valueError := by
  unfold lineTrack
  simp only
  rw [mapM_error _ _ .valueError]
  · rfl
  · intro g _
    unfold segmentsOf
    simp only
    split_ifs
    · unfold mkLine
      split_ifs
      · right; rfl
      · left; exact ⟨_, rfl⟩
    all_goals left; exact ⟨_, rfl⟩
  · refine ⟨(k, [r]), h, ?_⟩
    unfold segmentsOf
    simp [smallSteps, mkLine, bind, Except.bind]

/-- **C70**: the longitudes of a line that crosses the antimeridian are continued without jumps by whole turns. -/
theorem C70_unwrap (points : List V3) :
    Unwraps (points.map (·.x)) ((continued points).map (·.x)) ∧
      (continued points).map (fun p => (p.y, p.z)) = points.map fun p => (p.y, p.z) := by
  constructor
  · have : (continued points).map (·.x) = unwrapped (points.map (·.x)) := by
      unfold continued unwrapped
      rw [List.map_zipWith, List.zipWith_map_left]
    rw [this]; exact unwrapped_unwraps _
  · unfold continued
    rw [List.map_zipWith]
    have : ∀ (l : List V3) (s : List Int), s.length = l.length →
        List.zipWith (fun (c : V3) (_ : Int) => (c.y, c.z)) l s = l.map fun p => (p.y, p.z) := by
      intro l
      induction l with
      | nil => intro s _; rfl
      | cons c t ih =>
        intro s hs
        rcases s with _ | ⟨k, s⟩
        · simp at hs
        · simp only [List.zipWith_cons_cons, List.map_cons]
          rw [ih s (by simpa using hs)]
    exact this _ _ (by rw [shifts_length, List.length_map])

/-- What splitting a line at a meridian gives: parts that are not empty, each on one side, with the vertices of the line and
vertices on the meridian only. -/
structure SplitsAt (d : ℝ) (line : List V3) (parts : List (List V3)) : Prop where
  nonempty : ∀ part ∈ parts, part ≠ []
  sides : ∀ part ∈ parts, (∀ c ∈ part, c.x ≤ d) ∨ (∀ c ∈ part, d ≤ c.x)
  vertices : ∀ part ∈ parts, ∀ c ∈ part, c ∈ line ∨ c.x = d

/-- **C70**, places of the parts: if the continued longitudes go beyond the antimeridian on one side only, by less than a
turn, then the parts lie between -180 and 180 degrees. -/
theorem C70_longitudes_partial (splitLine : ℝ → List V3 → List (List V3)) (elevation : ℝ) (g : List Row)
    (hsplit : ∀ d line, SplitsAt d line (splitLine d line)) (hlon : ∀ r ∈ g, -180 ≤ r.lon ∧ r.lon ≤ 180)
    (hside : (∀ c ∈ continued (pointsAt elevation g), -180 < c.x ∧ c.x ≤ 540) ∨
      (∀ c ∈ continued (pointsAt elevation g), -540 ≤ c.x ∧ c.x < 180))
    (segments : List (List V3)) (h : segmentsOf splitLine elevation g = .ok segments) :
    ∀ line ∈ segments, ∀ c ∈ line, -180 ≤ c.x ∧ c.x ≤ 180 := by
  unfold segmentsOf at h
  simp only at h
  by_cases hs : smallSteps (g.map (·.lon))
  · simp only [hs, if_true, mkLine] at h
    split_ifs at h
    · cases h
    · cases h
      intro line hline c hc
      rw [List.mem_singleton] at hline
      subst hline
      obtain ⟨r, hr, rfl⟩ := List.mem_map.mp hc
      exact hlon r hr
  · simp only [hs, if_false, pure, Except.pure, Except.ok.injEq] at h
    subst h
    have hx : (pointsAt elevation g).map (·.x) = g.map (·.lon) := by
      unfold pointsAt; rw [List.map_map]; rfl
    -- the shift of each point
    have hk : ∀ k ∈ shifts (g.map (·.lon)), ∃ c ∈ continued (pointsAt elevation g), ∃ r ∈ g,
        c.x = r.lon - 360 * (k : ℝ) := by
      intro k hk
      obtain ⟨i, hi, rfl⟩ := List.mem_iff_getElem.mp hk
      have hi' : i < g.length := by simpa [shifts_length] using hi
      refine ⟨(continued (pointsAt elevation g))[i]'(by simp [continued, pointsAt, shifts_length]; exact hi'),
        List.getElem_mem _, g[i], List.getElem_mem _, ?_⟩
      simp only [continued, List.getElem_zipWith, hx]
      simp [pointsAt]
    intro line hline c hc
    obtain ⟨part, hpart, rfl⟩ := List.mem_map.mp hline
    have hcon : g.map (fun r => (⟨r.lon, r.lat, elevation⟩ : V3)) = pointsAt elevation g := rfl
    rw [hcon] at hpart
    -- range of the continued longitudes on either side of the meridian that is chosen
    have key : ∃ d, (d = 180 ∧ (∀ c ∈ continued (pointsAt elevation g), -180 ≤ c.x ∧ c.x ≤ 540) ∨
        d = -180 ∧ (∀ c ∈ continued (pointsAt elevation g), -540 ≤ c.x ∧ c.x ≤ 180)) ∧
        part ∈ splitLine d (continued (pointsAt elevation g)) := by
      by_cases hpos : ∃ k ∈ shifts (g.map (·.lon)), k ≥ 1
      · rw [if_pos hpos] at hpart
        refine ⟨-180, Or.inr ⟨rfl, ?_⟩, hpart⟩
        rcases hside with h1 | h1
        · exfalso
          obtain ⟨k, hk1, hk2⟩ := hpos
          obtain ⟨c', hc', r, hr, e⟩ := hk k hk1
          have a := (h1 c' hc').1
          have b := (hlon r hr).2
          have : (1 : ℝ) ≤ k := by exact_mod_cast hk2
          rw [e] at a; linarith
        · exact fun c hc => ⟨(h1 c hc).1, (h1 c hc).2.le⟩
      · rw [if_neg hpos] at hpart
        refine ⟨180, Or.inl ⟨rfl, ?_⟩, hpart⟩
        rcases hside with h1 | h1
        · exact fun c hc => ⟨(h1 c hc).1.le, (h1 c hc).2⟩
        · intro c' hc'
          refine ⟨?_, by linarith [(h1 c' hc').2]⟩
          obtain ⟨i, hi, rfl⟩ := List.mem_iff_getElem.mp hc'
          have hi' : i < g.length := by
            simpa [continued, pointsAt, shifts_length] using hi
          have hi2 : i < (shifts (g.map (·.lon))).length := by simpa [shifts_length] using hi'
          have e : (continued (pointsAt elevation g))[i].x = g[i].lon - 360 * ((shifts (g.map (·.lon)))[i] : ℝ) := by
            simp only [continued, List.getElem_zipWith, hx]
            simp [pointsAt]
          have hk0 : (shifts (g.map (·.lon)))[i] ≤ 0 := by
            by_contra hcon
            exact hpos ⟨_, List.getElem_mem hi2, by omega⟩
          have hk0' : ((shifts (g.map (·.lon)))[i] : ℝ) ≤ 0 := by exact_mod_cast hk0
          rw [e]
          have := (hlon g[i] (List.getElem_mem _)).1
          linarith
    obtain ⟨d, hd, hpart⟩ := key
    have hS := hsplit d (continued (pointsAt elevation g))
    have hne := hS.nonempty part hpart
    obtain ⟨c0, hc0⟩ := List.exists_mem_of_ne_nil _ hne
    have hrange : ∀ c ∈ part, (d = 180 ∧ -180 ≤ c.x ∧ c.x ≤ 540) ∨ (d = -180 ∧ -540 ≤ c.x ∧ c.x ≤ 180) := by
      intro c hc
      rcases hd with ⟨rfl, hr⟩ | ⟨rfl, hr⟩
      · left
        rcases hS.vertices part hpart c hc with hv | hv
        · exact ⟨rfl, hr c hv⟩
        · rw [hv]; norm_num
      · right
        rcases hS.vertices part hpart c hc with hv | hv
        · exact ⟨rfl, hr c hv⟩
        · rw [hv]; norm_num
    unfold moveBack at hc
    split_ifs at hc with ha hb
    · obtain ⟨c', hc', rfl⟩ := List.mem_map.mp hc
      have h1 := ha c' hc'
      rcases hrange c' hc' with ⟨_, h2, h3⟩ | ⟨_, h2, h3⟩ <;> constructor <;> simp only <;> linarith
    · obtain ⟨c', hc', rfl⟩ := List.mem_map.mp hc
      have h1 := hb c' hc'
      rcases hrange c' hc' with ⟨_, h2, h3⟩ | ⟨_, h2, h3⟩ <;> constructor <;> simp only <;> linarith
    · rcases hS.sides part hpart with hle | hge
      · rcases hrange c hc with ⟨rfl, h2, h3⟩ | ⟨rfl, h2, h3⟩
        · exact ⟨h2, hle c hc⟩
        · exact absurd hle ha
      · rcases hrange c hc with ⟨rfl, h2, h3⟩ | ⟨rfl, h2, h3⟩
        · exact absurd (fun c hc => hge c hc) hb
        · exact ⟨hge c hc, h3⟩

/-! Concrete tracks -/

theorem round_near {x : ℝ} {i : ℤ} (h1 : (i : ℝ) - 1 / 2 < x) (h2 : x < i + 1 / 2) : Num.roundHalfEven x = i := by
  apply Int.le_antisymm (Tatc.Generation.round_le_of_lt h2)
  have := Tatc.Generation.le_round_of_lt (x := x) (i := i - 1) (by push_cast; linarith)
  omega

theorem trackIds_true (n : Nat) : trackIds (List.replicate n true) = List.replicate n 1 := by
  apply List.ext_getElem
  · simp [trackIds_length]
  · intro i h1 h2
    have hi : i < n := by simpa using h2
    rw [List.getElem_replicate]
    clear h2
    induction i with
    | zero =>
      cases n with
      | zero => omega
      | succ n => simp [trackIds, cumsum, changes, shift, List.replicate_succ, cumsumFrom]
    | succ i ih =>
      rw [trackIds_succ _ _ (by simpa using hi), ih _ (by omega)]
      simp

/-- A track of one orbit with valid observations only is one group. -/
theorem groups_whole (start period : Int) (rows : List Row) (hne : rows ≠ []) (hv : ∀ r ∈ rows, r.validObs = true)
    (ho : ∀ r ∈ rows, orbitId start period r.time = 0) : groups start period rows = [(toLex (0, 1), rows)] := by
  have hval : rows.map (·.validObs) = List.replicate rows.length true :=
    List.eq_replicate_iff.mpr ⟨by simp, by simpa using hv⟩
  have hk : keyedRows start period rows = rows.map fun r => (toLex (0, 1), r) := by
    unfold keyedRows
    rw [hval, trackIds_true]
    clear hval
    induction rows with
    | nil => rfl
    | cons r t ih =>
      have h1 := hv r List.mem_cons_self
      have h2 := ho r List.mem_cons_self
      by_cases ht : t = []
      · subst ht; simp [List.replicate_succ, h1, h2]
      · have := ih ht (fun r hr => hv r (List.mem_cons_of_mem _ hr)) (fun r hr => ho r (List.mem_cons_of_mem _ hr))
        rw [List.length_cons, List.replicate_succ, List.zipWith_cons_cons, List.filter_cons_of_pos (by simpa using h1), this,
          List.map_cons, h2]
  unfold groups
  rw [hk]
  have e : groupBy Prod.fst (rows.map fun r => ((toLex (0, 1) : Key), r)) =
      [((toLex (0, 1) : Key), rows.map fun r => ((toLex (0, 1) : Key), r))] := by
    unfold groupBy groupKeys
    have h1 : ((rows.map fun r => ((toLex (0, 1) : Key), r)).map Prod.fst).dedup = [(toLex (0, 1) : Key)] := by
      rw [List.map_map]
      show (rows.map fun _ => (toLex (0, 1) : Key)).dedup = _
      rw [List.map_const', List.replicate_dedup (by simpa using hne)]
    rw [h1]
    simp only [List.insertionSort_cons, List.insertionSort_nil, List.orderedInsert_nil, List.map_cons, List.map_nil]
    congr 2
    rw [List.filter_eq_self]
    intro a ha
    obtain ⟨r, _, rfl⟩ := List.mem_map.mp ha
    simp
  rw [e]
  simp [List.map_map, Function.comp_def]

/-- The segments of a group whose line has to be split. -/
theorem segmentsOf_split (splitLine : ℝ → List V3 → List (List V3)) (elevation : ℝ) (g : List Row)
    (hs : ¬ (g.map (·.lon)).IsChain fun a b => |b - a| < 180) :
    segmentsOf splitLine elevation g = .ok ((splitLine (if ∃ k ∈ shifts (g.map (·.lon)), k ≥ 1 then -180 else 180)
      (continued (pointsAt elevation g))).map moveBack) := by
  unfold segmentsOf
  rw [← smallSteps_iff] at hs
  simp only [hs, if_false]
  split_ifs <;> rfl

/-- **C70** fails for lines that are split: when the only group of a track is split into parts, all parts but the first
are dropped. -/
theorem C70_dropped_false {G : Type} (splitLine : ℝ → List V3 → List (List V3)) (buffer : List V3 → ℝ → G)
    (elevation : ℝ) (start period : Int) (rows : List Row) (k : Key) (g : List Row)
    (hg : groups start period rows = [(k, g)]) (hs : ¬ (g.map (·.lon)).IsChain fun a b => |b - a| < 180)
    (part : List V3) (others : List (List V3)) (hparts : ∀ d, splitLine d (continued (pointsAt elevation g)) = part :: others) :
    lineTrack splitLine buffer elevation start period rows =
      .ok [(k, buffer (moveBack part) ((g.map (·.swathWidth)).sum / g.length))] := by
  unfold lineTrack
  rw [hg]
  simp only [List.mapM_cons, List.mapM_nil]
  rw [segmentsOf_split splitLine elevation g hs, hparts]
  simp [bind, Except.bind, pure, Except.pure, require, meanSwath]

/-- **C70** fails for lines that are split, also for the groups after them: of two groups, the first split in two and the
second not at all, the second gets the second part of the first group's line, with the second group's swath width; the
second group's own line is dropped. -/
theorem C70_misplaced_false {G : Type} (splitLine : ℝ → List V3 → List (List V3)) (buffer : List V3 → ℝ → G)
    (elevation : ℝ) (start period : Int) (rows : List Row) (k k' : Key) (g g' : List Row)
    (hg : groups start period rows = [(k, g), (k', g')]) (hs : ¬ (g.map (·.lon)).IsChain fun a b => |b - a| < 180)
    (part part' : List V3) (hparts : ∀ d, splitLine d (continued (pointsAt elevation g)) = [part, part'])
    (h2 : 2 ≤ g'.length) (hs' : (g'.map (·.lon)).IsChain fun a b => |b - a| < 180) :
    lineTrack splitLine buffer elevation start period rows =
      .ok [(k, buffer (moveBack part) ((g.map (·.swathWidth)).sum / g.length)),
        (k', buffer (moveBack part') ((g'.map (·.swathWidth)).sum / g'.length))] := by
  unfold lineTrack
  rw [hg]
  simp only [List.mapM_cons, List.mapM_nil]
  rw [segmentsOf_split splitLine elevation g hs, hparts,
    segmentsOf_small splitLine elevation g' h2 ((smallSteps_iff _).mpr hs')]
  simp [bind, Except.bind, pure, Except.pure, require, meanSwath]

/-- A sample on the equator. -/
noncomputable def onEquator (t : Int) (lon w : ℝ) : Row := ⟨t, lon, 0, w, true⟩

/-- The four samples of an eastward satellite that crosses the antimeridian are one group, and are not in small steps. -/
theorem crossing_group :
    groups 0 100 [onEquator 0 160 5, onEquator 1 170 5, onEquator 2 (-170) 5, onEquator 3 (-160) 5] =
      [(toLex (0, 1), [onEquator 0 160 5, onEquator 1 170 5, onEquator 2 (-170) 5, onEquator 3 (-160) 5])] ∧
    ¬ ([onEquator 0 160 5, onEquator 1 170 5, onEquator 2 (-170) 5, onEquator 3 (-160) 5].map (·.lon)).IsChain
      fun a b => |b - a| < 180 := by
  constructor
  · apply groups_whole
    · simp
    · simp [onEquator]
    · intro r hr
      simp only [List.mem_cons, List.not_mem_nil, or_false] at hr
      rcases hr with rfl | rfl | rfl | rfl <;> decide
  · norm_num [onEquator]

/-- **C70** fails on an ordinary track: of a satellite that moves east over the antimeridian, the part beyond it is not in
the result at all. -/
theorem C70_antimeridian_false : ∃ (splitLine : ℝ → List V3 → List (List V3)),
    SplitsAt 180 (continued (pointsAt 0 [onEquator 0 160 5, onEquator 1 170 5, onEquator 2 (-170) 5, onEquator 3 (-160) 5]))
      (splitLine 180 (continued (pointsAt 0 [onEquator 0 160 5, onEquator 1 170 5, onEquator 2 (-170) 5, onEquator 3 (-160) 5]))) ∧
    ∃ line w, lineTrack splitLine (fun line w => (line, w)) 0 0 100
        [onEquator 0 160 5, onEquator 1 170 5, onEquator 2 (-170) 5, onEquator 3 (-160) 5] = .ok [(toLex (0, 1), (line, w))] ∧
      ∀ c ∈ line, 160 ≤ c.x ∧ c.x ≤ 180 := by
  have hcont : continued (pointsAt 0 [onEquator 0 160 5, onEquator 1 170 5, onEquator 2 (-170) 5, onEquator 3 (-160) 5]) =
      [⟨160, 0, 0⟩, ⟨170, 0, 0⟩, ⟨190, 0, 0⟩, ⟨200, 0, 0⟩] := by
    have r1 : Num.roundHalfEven ((170 - 160) / 360) = 0 := round_near (by norm_num) (by norm_num)
    have r2 : Num.roundHalfEven ((-170 - 170) / 360) = -1 := round_near (by norm_num) (by norm_num)
    have r3 : Num.roundHalfEven ((-160 - -170) / 360) = 0 := round_near (by norm_num) (by norm_num)
    simp only [continued, pointsAt, onEquator, List.map_cons, List.map_nil, shifts, shiftFrom, r1, r2, r3,
      List.zipWith_cons_cons, List.zipWith_nil_left]
    norm_num
  refine ⟨fun _ _ => [[⟨160, 0, 0⟩, ⟨170, 0, 0⟩, ⟨180, 0, 0⟩], [⟨180, 0, 0⟩, ⟨190, 0, 0⟩, ⟨200, 0, 0⟩]], ?_, ?_⟩
  · rw [hcont]
    constructor
    · simp
    · intro part hp
      simp only [List.mem_cons, List.not_mem_nil, or_false] at hp
      rcases hp with rfl | rfl
      · left; norm_num
      · right; norm_num
    · intro part hp
      simp only [List.mem_cons, List.not_mem_nil, or_false] at hp
      rcases hp with rfl | rfl <;> simp
  · have := C70_dropped_false (fun _ _ => [[⟨160, 0, 0⟩, ⟨170, 0, 0⟩, ⟨180, 0, 0⟩], [⟨180, 0, 0⟩, ⟨190, 0, 0⟩, ⟨200, 0, 0⟩]])
      (fun line w => (line, w)) 0 0 100 _ _ _ crossing_group.1 crossing_group.2 _ _ (fun _ => rfl)
    refine ⟨_, _, this, ?_⟩
    intro c hc
    have e : moveBack [⟨160, 0, 0⟩, ⟨170, 0, 0⟩, ⟨180, 0, 0⟩] = [⟨160, 0, 0⟩, ⟨170, 0, 0⟩, ⟨180, 0, 0⟩] := by
      unfold moveBack
      rw [if_neg (by norm_num), if_neg (by norm_num)]
    rw [e] at hc
    simp only [List.mem_cons, List.not_mem_nil, or_false] at hc
    rcases hc with rfl | rfl | rfl <;> norm_num

/-- Two groups, the first of which crosses the antimeridian: the hypotheses of `C70_misplaced_false` are met. -/
theorem crossing_groups :
    groups 0 100 [onEquator 0 170 5, onEquator 1 (-170) 5, ⟨2, -160, 0, 5, false⟩, onEquator 3 (-150) 7, onEquator 4 (-140) 9] =
      [(toLex (0, 1), [onEquator 0 170 5, onEquator 1 (-170) 5]),
       (toLex (0, 3), [onEquator 3 (-150) 7, onEquator 4 (-140) 9])] := by
  have hk : keyedRows 0 100 [onEquator 0 170 5, onEquator 1 (-170) 5, ⟨2, -160, 0, 5, false⟩, onEquator 3 (-150) 7,
      onEquator 4 (-140) 9] = [(toLex (0, 1), onEquator 0 170 5), (toLex (0, 1), onEquator 1 (-170) 5),
      (toLex (0, 3), onEquator 3 (-150) 7), (toLex (0, 3), onEquator 4 (-140) 9)] := rfl
  have hkeys : groupKeys Prod.fst [((toLex (0, 1) : Key), onEquator 0 170 5), (toLex (0, 1), onEquator 1 (-170) 5),
      (toLex (0, 3), onEquator 3 (-150) 7), (toLex (0, 3), onEquator 4 (-140) 9)] = [toLex (0, 1), toLex (0, 3)] := by
    show ([(toLex (0, 1) : Key), toLex (0, 1), toLex (0, 3), toLex (0, 3)].dedup).insertionSort (· ≤ ·) = _
    decide
  unfold groups
  rw [hk]
  unfold groupBy
  rw [hkeys]
  have e : (toLex ((0 : ℤ), (1 : ℕ)) : Key) ≠ toLex (0, 3) := by decide
  simp [e, e.symm]

/-- The result on that track: the second group has the second half of the first group's line. -/
example : ∃ line, lineTrack (fun _ _ => [[⟨170, 0, 0⟩, ⟨180, 0, 0⟩], [⟨180, 0, 0⟩, ⟨190, 0, 0⟩]]) (fun line w => (line, w)) 0 0 100
      [onEquator 0 170 5, onEquator 1 (-170) 5, ⟨2, -160, 0, 5, false⟩, onEquator 3 (-150) 7, onEquator 4 (-140) 9] =
    .ok [(toLex (0, 1), (line, 5)), (toLex (0, 3), ([⟨-180, 0, 0⟩, ⟨-170, 0, 0⟩], 8))] := by
  refine ⟨moveBack [⟨170, 0, 0⟩, ⟨180, 0, 0⟩], ?_⟩
  rw [C70_misplaced_false _ _ 0 0 100 _ _ _ _ _ crossing_groups (by norm_num [onEquator]) _ _ (fun _ => rfl) (by simp)
    (by norm_num [onEquator])]
  have e : moveBack [⟨180, 0, 0⟩, ⟨190, 0, 0⟩] = [⟨-180, 0, 0⟩, ⟨-170, 0, 0⟩] := by
    unfold moveBack
    rw [if_neg (by norm_num), if_pos (by norm_num)]
    norm_num
  rw [e]
  norm_num [onEquator]

/-- The samples before the antimeridian are met by the hypotheses of `C70_unsplit_partial`. -/
example : (∀ g ∈ groups 0 100 [onEquator 0 160 5, onEquator 1 170 5], 2 ≤ g.2.length) ∧
    ∀ g ∈ groups 0 100 [onEquator 0 160 5, onEquator 1 170 5], (g.2.map (·.lon)).IsChain fun a b => |b - a| < 180 := by
  have : groups 0 100 [onEquator 0 160 5, onEquator 1 170 5] = [(toLex (0, 1), [onEquator 0 160 5, onEquator 1 170 5])] := by
    apply groups_whole
    · simp
    · simp [onEquator]
    · intro r hr
      simp only [List.mem_cons, List.not_mem_nil, or_false] at hr
      rcases hr with rfl | rfl <;> decide
  rw [this]
  norm_num [onEquator]

/-- A sun-synchronous satellite moves west by more than a turn in an orbit: if it starts just east of the antimeridian, it
crosses it twice. -/
noncomputable def westward : List Row :=
  [onEquator 0 (-170) 5, onEquator 1 170 5, onEquator 2 60 5, onEquator 3 (-60) 5, onEquator 4 (-170) 5, onEquator 5 170 5]

theorem westward_continued : shifts (westward.map (·.lon)) = [0, 1, 1, 1, 1, 2] ∧
    continued (pointsAt 0 westward) = [⟨-170, 0, 0⟩, ⟨-190, 0, 0⟩, ⟨-300, 0, 0⟩, ⟨-420, 0, 0⟩, ⟨-530, 0, 0⟩, ⟨-550, 0, 0⟩] := by
  have r1 : Num.roundHalfEven ((170 - -170) / 360) = 1 := round_near (by norm_num) (by norm_num)
  have r2 : Num.roundHalfEven ((60 - 170) / 360) = 0 := round_near (by norm_num) (by norm_num)
  have r3 : Num.roundHalfEven ((-60 - 60) / 360) = 0 := round_near (by norm_num) (by norm_num)
  have r4 : Num.roundHalfEven ((-170 - -60) / 360) = 0 := round_near (by norm_num) (by norm_num)
  have hs : shifts (westward.map (·.lon)) = [0, 1, 1, 1, 1, 2] := by
    simp only [westward, onEquator, List.map_cons, List.map_nil, shifts, shiftFrom, r1, r2, r3, r4]
    norm_num
  have hx : (pointsAt 0 westward).map (·.x) = westward.map (·.lon) := by
    unfold pointsAt; rw [List.map_map]; rfl
  refine ⟨hs, ?_⟩
  unfold continued
  rw [hx, hs]
  simp only [pointsAt, westward, onEquator, List.map_cons, List.map_nil, List.zipWith_cons_cons, List.zipWith_nil_left]
  norm_num

/-- **C70**, places of the parts, fails for such a satellite: a part of its line has a vertex 10 degrees west of -180. -/
theorem C70_longitudes_false : ∃ (splitLine : ℝ → List V3 → List (List V3)) (segments : List (List V3)),
    SplitsAt (-180) (continued (pointsAt 0 westward)) (splitLine (-180) (continued (pointsAt 0 westward))) ∧
    segmentsOf splitLine 0 westward = .ok segments ∧ ∃ line ∈ segments, ∃ c ∈ line, c.x = -190 := by
  obtain ⟨hs, hc⟩ := westward_continued
  refine ⟨fun _ _ => [[⟨-170, 0, 0⟩, ⟨-180, 0, 0⟩], [⟨-180, 0, 0⟩, ⟨-190, 0, 0⟩, ⟨-300, 0, 0⟩, ⟨-420, 0, 0⟩, ⟨-530, 0, 0⟩, ⟨-550, 0, 0⟩]],
    _, ?_, segmentsOf_split _ 0 westward (by norm_num [westward, onEquator]), ?_⟩
  · rw [hc]
    constructor
    · simp
    · intro part hp
      simp only [List.mem_cons, List.not_mem_nil, or_false] at hp
      rcases hp with rfl | rfl
      · right; norm_num
      · left; norm_num
    · intro part hp
      simp only [List.mem_cons, List.not_mem_nil, or_false] at hp
      rcases hp with rfl | rfl <;> simp
  · refine ⟨moveBack [⟨-180, 0, 0⟩, ⟨-190, 0, 0⟩, ⟨-300, 0, 0⟩, ⟨-420, 0, 0⟩, ⟨-530, 0, 0⟩, ⟨-550, 0, 0⟩], by simp, ?_⟩
    unfold moveBack
    rw [if_pos (by norm_num)]
    exact ⟨⟨-550 + 360, 0, 0⟩, by simp, by norm_num⟩

/-- The eastward track meets the hypothesis of `C70_longitudes_partial`. -/
example : ∀ c ∈ continued (pointsAt 0 [onEquator 0 170 5, onEquator 1 (-170) 5]), -180 < c.x ∧ c.x ≤ 540 := by
  have r1 : Num.roundHalfEven ((-170 - 170) / 360) = -1 := round_near (by norm_num) (by norm_num)
  have : continued (pointsAt 0 [onEquator 0 170 5, onEquator 1 (-170) 5]) = [⟨170, 0, 0⟩, ⟨190, 0, 0⟩] := by
    simp only [continued, pointsAt, onEquator, List.map_cons, List.map_nil, shifts, shiftFrom, r1,
      List.zipWith_cons_cons, List.zipWith_nil_left]
    norm_num
  rw [this]; norm_num

/-- **C88** fails at the start, with an effect on everything else: if the first sample is reported before the start and is
valid, it is a group of its own, and the line method raises for the whole track. -/
theorem C88_line_false {G : Type} (splitLine : ℝ → List V3 → List (List V3)) (buffer : List V3 → ℝ → G)
    (elevation : ℝ) (start period : Int) (r : Row) (rest : List Row) (hp : 0 < period) (hv : r.validObs = true)
    (h1 : r.time < start) (h2 : start - r.time ≤ period) (hrest : ∀ q ∈ rest, start ≤ q.time) :
    lineTrack splitLine buffer elevation start period (r :: rest) = .error .valueError := by
  have ho : orbitId start period r.time = -1 := by
    rw [C88_orbit _ _ _ _ hp]
    constructor <;> linarith
  have ids : ∃ tl, trackIds ((r :: rest).map (·.validObs)) = 1 :: tl := by
    simp [trackIds, cumsum, changes, shift, cumsumFrom]
  obtain ⟨tl, htl⟩ := ids
  have hk : keyedRows start period (r :: rest) = (toLex (-1, 1), r) ::
      (List.zipWith (fun (r : Row) (t : Nat) => (toLex (orbitId start period r.time, t), r)) rest tl).filter
        fun kr => kr.2.validObs := by
    unfold keyedRows
    rw [htl, List.zipWith_cons_cons, List.filter_cons_of_pos (by simpa using hv), ho]
  apply C70_single_false splitLine buffer elevation start period (r :: rest) (toLex (-1, 1)) r
  rw [mem_groups, hk]
  refine ⟨⟨r, List.mem_cons_self⟩, ?_⟩
  rw [List.filter_cons_of_pos (by simp)]
  have : (((List.zipWith (fun (r : Row) (t : Nat) => ((toLex (orbitId start period r.time, t) : Key), r)) rest tl).filter
      fun kr => kr.2.validObs).filter fun kr => kr.1 = toLex (-1, 1)) = [] := by
    rw [List.filter_eq_nil_iff]
    intro q hq hkey
    have hq' := List.mem_of_mem_filter hq
    obtain ⟨i, hi, rfl⟩ := List.mem_iff_getElem.mp hq'
    simp only [List.getElem_zipWith, decide_eq_true_eq] at hkey
    have hr := hrest (rest[i]'(by simp at hi; omega)) (List.getElem_mem _)
    have e : orbitId start period (rest[i]'(by simp at hi; omega)).time = -1 := by
      have := congrArg (fun k : Key => (ofLex k).1) hkey
      simpa using this
    rw [C88_orbit _ _ _ _ hp] at e
    linarith [e.2]
  rw [this]
  rfl

/-- A start 400 ticks after the reported time of the first sample. -/
example : (⟨0, 10, 0, 5, true⟩ : Row).time < (400 : Int) ∧ (400 : Int) - (⟨0, 10, 0, 5, true⟩ : Row).time ≤ 5400000000 := by
  norm_num

/-! ## C89: aggregated footprints -/

/-- What a union of geometries must be: it covers the points that one of them covers. -/
structure IsUnion {G X : Type} (covers : G → X → Prop) (union : List G → G) : Prop where
  covers_union : ∀ l x, covers (union l) x ↔ ∃ g ∈ l, covers g x

/-- **C89**: the rows of the point method, dissolved or not, cover exactly the points that the footprint of some valid
observation covers. -/
theorem C89_covers {G X : Type} (covers : G → X → Prop) (union : List G → G) (hu : IsUnion covers union)
    (start period : Int) (dissolveOrbits : Bool) (records : List (GroundRecord G)) (x : X) :
    (∃ g ∈ pointTrack union start period dissolveOrbits records, covers g x) ↔
      ∃ r ∈ records, r.validObs = true ∧ covers r.geometry x := by
  have rows : (∃ g ∈ (groupBy (fun r : GroundRecord G => orbitId start period r.time) (records.filter (·.validObs))).map
      (fun g => union (g.2.map (·.geometry))), covers g x) ↔ ∃ r ∈ records, r.validObs = true ∧ covers r.geometry x := by
    constructor
    · rintro ⟨g, hg, hx⟩
      obtain ⟨⟨k, rs⟩, hm, rfl⟩ := List.mem_map.mp hg
      obtain ⟨_, hrs⟩ := mem_groupBy.mp hm
      obtain ⟨g', hg', hx'⟩ := (hu.covers_union _ _).mp hx
      obtain ⟨r, hr, rfl⟩ := List.mem_map.mp hg'
      simp only at hr
      rw [hrs] at hr
      have h1 := List.mem_of_mem_filter hr
      rw [List.mem_filter] at h1
      exact ⟨r, h1.1, h1.2, hx'⟩
    · rintro ⟨r, hr, hv, hx⟩
      have hr' : r ∈ records.filter (·.validObs) := List.mem_filter.mpr ⟨hr, hv⟩
      refine ⟨_, List.mem_map.mpr ⟨(orbitId start period r.time, _), mem_groupBy.mpr ⟨⟨r, hr', rfl⟩, rfl⟩, rfl⟩, ?_⟩
      rw [hu.covers_union]
      refine ⟨r.geometry, List.mem_map.mpr ⟨r, List.mem_filter.mpr ⟨hr', by simp⟩, rfl⟩, hx⟩
  unfold pointTrack
  simp only
  cases dissolveOrbits with
  | false => simpa using rows
  | true =>
    simp only [if_true]
    split_ifs with h
    · rw [h] at rows; exact rows
    · rw [← rows]
      constructor
      · rintro ⟨g, hg, hx⟩
        rw [List.mem_singleton] at hg
        subst hg
        exact (hu.covers_union _ _).mp hx
      · intro hx
        exact ⟨_, List.mem_singleton.mpr rfl, (hu.covers_union _ _).mpr hx⟩

/-- **C89**: without dissolving there is one row per orbit with a valid observation, in the order of the orbits, with the
union of that orbit's valid footprints. -/
theorem C89_orbits {G : Type} (union : List G → G) (start period : Int) (records : List (GroundRecord G)) :
    ∃ orbits : List Int, orbits.Pairwise (· < ·) ∧
      (∀ k, k ∈ orbits ↔ ∃ r ∈ records, r.validObs = true ∧ orbitId start period r.time = k) ∧
      pointTrack union start period false records = orbits.map fun k =>
        union ((records.filter fun r => r.validObs && decide (orbitId start period r.time = k)).map (·.geometry)) := by
  refine ⟨groupKeys (fun r : GroundRecord G => orbitId start period r.time) (records.filter (·.validObs)),
    groupKeys_sorted _ _, ?_, ?_⟩
  · intro k
    rw [mem_groupKeys]
    simp only [List.mem_filter, and_assoc]
  · unfold pointTrack groupBy
    simp only [Bool.false_eq_true, if_false, List.map_map]
    apply List.map_congr_left
    intro k _
    simp only [Function.comp, List.filter_filter]
    congr 2
    apply List.filter_congr
    intro r _
    rw [Bool.and_comm]

/-- **C89**: dissolved, there is one row, or none if no observation is valid. -/
theorem C89_dissolved {G : Type} (union : List G → G) (start period : Int) (records : List (GroundRecord G)) :
    (pointTrack union start period true records).length = if ∃ r ∈ records, r.validObs = true then 1 else 0 := by
  unfold pointTrack
  simp only [if_true]
  by_cases h : ∃ r ∈ records, r.validObs = true
  · rw [if_pos h, if_neg]
    · rfl
    · obtain ⟨r, hr, hv⟩ := h
      intro he
      have := (mem_groupBy (key := fun r : GroundRecord G => orbitId start period r.time)).mpr
        ⟨⟨r, List.mem_filter.mpr ⟨hr, hv⟩, rfl⟩, rfl⟩
      rw [List.map_eq_nil_iff] at he
      rw [he] at this
      simp at this
  · rw [if_neg h, if_pos]
    · rfl
    · have : records.filter (·.validObs) = [] := by
        rw [List.filter_eq_nil_iff]; intro r hr hv; exact h ⟨r, hr, hv⟩
      rw [this, groupBy_nil]; rfl

/-- **C89**: with the point method, masked or not, the result covers exactly what the valid records of the ground track cover. -/
theorem C89_point {P G X : Type} (sky : Sky) (ops : Ops P G) (covers : G → X → Prop) (union : List G → G)
    (hu : IsUnion covers union) (splitLine : ℝ → List V3 → List (List V3)) (buffer : List V3 → ℝ → G)
    (clipRecords : Clip Record) (clip : Clip (GroundRecord G)) (tools : List Tool) (index : Int) (times : List Int)
    (elevation : ℝ) (period : Int) (mask : Option (MaskShape P)) (spice dissolveOrbits : Bool)
    (records : List (GroundRecord G))
    (h : collectGroundTrack sky ops clipRecords clip tools index times elevation mask spice = .ok records) :
    ∃ rows, computeGroundTrack sky ops union splitLine buffer clipRecords clip tools index times elevation period mask spice
        "point" dissolveOrbits = .ok rows ∧
      ∀ x, (∃ g ∈ rows, covers g x) ↔ ∃ r ∈ records, r.validObs = true ∧ covers r.geometry x := by
  refine ⟨pointTrack union (times.headD 0) period dissolveOrbits records, ?_, fun x => C89_covers covers union hu _ _ _ _ x⟩
  unfold computeGroundTrack
  rw [(require_eq_ok _ _ ()).mpr (Or.inl rfl)]
  simp only [bind, Except.bind, if_true, h]
  rfl

/-- **C89**: other methods are refused, and so is the line method with exact footprints. -/
theorem C89_refused {P G : Type} (sky : Sky) (ops : Ops P G) (union : List G → G)
    (splitLine : ℝ → List V3 → List (List V3)) (buffer : List V3 → ℝ → G) (clipRecords : Clip Record)
    (clip : Clip (GroundRecord G)) (tools : List Tool) (index : Int) (times : List Int) (elevation : ℝ) (period : Int)
    (mask : Option (MaskShape P)) (spice dissolveOrbits : Bool) (method : String)
    (h : method ≠ "point" ∧ (method = "line" → spice = true)) :
    computeGroundTrack sky ops union splitLine buffer clipRecords clip tools index times elevation period mask spice
      method dissolveOrbits = .error .valueError := by
  unfold computeGroundTrack
  by_cases hl : method = "line"
  · rw [(require_eq_ok _ _ ()).mpr (Or.inr hl)]
    show (if method = "point" then _ else _) = _
    rw [if_neg h.1]
    have : require (spice = false) PyErr.valueError = .error .valueError := by
      unfold require; rw [if_neg (by simp [h.2 hl])]
    rw [this]; rfl
  · have : require (method = "point" ∨ method = "line") PyErr.valueError = .error .valueError := by
      unfold require; rw [if_neg (by simp [h.1, hl])]
    rw [this]; rfl

/-- Unions of sets of points are unions, and the records of two valid observations are not vacuous. -/
example : IsUnion (fun (g : Set ℝ) x => x ∈ g) (fun l => ⋃₀ {g | g ∈ l}) := ⟨by simp⟩

/-- **C70** for the whole computation: with the line method and without a mask, the samples of the line are the places below
the satellite at the given times, with the swath widths and validities of the orbit track; each group of valid samples
becomes one buffered line. -/
theorem C70_track_partial {P G : Type} (sky : Sky) (ops : Ops P G) (union : List G → G)
    (splitLine : ℝ → List V3 → List (List V3)) (buffer : List V3 → ℝ → G) (clipRecords : Clip Record)
    (clip : Clip (GroundRecord G)) (tools : List Tool) (index : Int) (times : List Int) (elevation : ℝ) (period : Int)
    (dissolveOrbits : Bool) (tool : Tool) (h0 : 0 ≤ index) (ht : tools[index.toNat]? = some tool) (rows : List Row)
    (hrows : List.Forall₂ (fun t row => ∃ r, RecordAt sky tool elevation .wgs84 false t r ∧
      row = ⟨sky.report t, (sky.propagate t).lon, (sky.propagate t).lat, r.swathWidth, r.validObs⟩) times rows)
    (h2 : ∀ g ∈ groups (times.headD 0) period rows, 2 ≤ g.2.length)
    (hs : ∀ g ∈ groups (times.headD 0) period rows, (g.2.map (·.lon)).IsChain fun a b => |b - a| < 180) :
    computeGroundTrack sky ops union splitLine buffer clipRecords clip tools index times elevation period none false
        "line" dissolveOrbits =
      .ok (let lines := (groups (times.headD 0) period rows).map fun g =>
          buffer (g.2.map fun r => ⟨r.lon, r.lat, elevation⟩) ((g.2.map (·.swathWidth)).sum / g.2.length)
        if dissolveOrbits then (if lines = [] then [] else [union lines]) else lines) := by
  obtain ⟨records, hr, hrec⟩ := C69_unmasked sky clipRecords tools index times elevation .wgs84 false tool h0 ht
  have hrw : rowsOf records = rows := by
    clear h2 hs hr
    unfold rowsOf
    induction hrec generalizing rows with
    | nil => cases hrows; rfl
    | @cons t r ts rs h1 _ ih =>
      rcases hrows with _ | ⟨⟨r', h1', rfl⟩, htail⟩
      rw [List.map_cons, ih _ htail]
      congr 1
      have hv : r.validObs = r'.validObs := by
        rw [Bool.eq_iff_iff, h1.validObs, h1'.validObs]
      rw [h1.time, h1.wgs84 rfl, h1.swathWidth, h1'.swathWidth, hv]
  unfold computeGroundTrack
  rw [(require_eq_ok _ _ ()).mpr (Or.inr rfl)]
  simp only [bind, Except.bind, hr, hrw, C70_unsplit_partial splitLine buffer elevation _ period rows h2 hs]
  have : require True PyErr.valueError = .ok () := (require_eq_ok _ _ ()).mpr trivial
  simp only [List.map_map, Function.comp_def, pure, Except.pure]
  simp [this]

end Tatc.Props
