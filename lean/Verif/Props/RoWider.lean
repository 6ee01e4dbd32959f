import Verif.Props.RoSeries

/-!
# C156: wider limits and more transmitters lose no occultation
-/

namespace Tatc.Props
open Tatc.Ro Tatc.Spec Tatc.Num Tatc.Pandas
open scoped Classical

/-- A yaw angle that is accepted is accepted with every larger limit below 180 degrees. -/
theorem yawAccepted_mono {m m' y : ℝ} (hm : m ≤ m') (hm' : m' < 180) (hy : |y| ≤ 180) (h : yawAccepted y m = true) :
    yawAccepted y m' = true := by
  by_cases h90 : 90 ≤ m'
  · exact C60_wide_partial m' y h90 hm'
  push Not at h90
  unfold yawAccepted at *
  rw [decide_eq_true_iff] at *
  have h0 := abs_nonneg y
  rcases lt_or_ge |y| (180 - m) with hlt | hge
  · rw [npMod_of_lt h0 hlt] at h
    rw [npMod_of_lt h0 (by linarith)]
    linarith
  · rw [npMod_of_lt_two (by linarith) hge (by linarith)] at h
    rw [npMod_of_lt_two (by linarith) (by linarith) (by linarith)]
    linarith

theorem abs_yaw_le (tx rx w : V3) : |yaw tx rx w| ≤ 180 := by
  have key : ∀ a b : ℝ, |degrees (arctan2 a b)| ≤ 180 := by
    intro a b
    unfold degrees arctan2
    have h := Complex.abs_arg_le_pi ⟨b, a⟩
    rw [abs_mul, abs_of_pos (by positivity : (0 : ℝ) < 180 / Real.pi)]
    calc _ ≤ Real.pi * (180 / Real.pi) := mul_le_mul_of_nonneg_right h (by positivity)
      _ = 180 := by field_simp
  exact key _ _

/-- Every run lies in a maximal run. -/
theorem exists_maximalRun {ok : Nat → Prop} {n a e : Nat} (hae : a < e) (hen : e ≤ n) (h : ∀ i, a ≤ i → i < e → ok i) :
    ∃ a' e', MaximalRun ok n a' e' ∧ a' ≤ a ∧ e ≤ e' := by
  -- as far to the right as possible
  have right : ∃ e', e ≤ e' ∧ e' ≤ n ∧ (∀ i, a ≤ i → i < e' → ok i) ∧ (e' = n ∨ ¬ ok e') := by
    obtain ⟨d, hd⟩ : ∃ d, n - e = d := ⟨_, rfl⟩
    induction d generalizing e with
    | zero => exact ⟨e, le_rfl, hen, h, Or.inl (by omega)⟩
    | succ d ih =>
      by_cases hok : ok e
      · obtain ⟨e', h1, h2, h3, h4⟩ := ih (e := e + 1) (by omega) (by omega) (fun i h1 h2 => by
          rcases Nat.lt_or_ge i e with h' | h'
          · exact h i h1 h'
          · have : i = e := by omega
            rwa [this]) (by omega)
        exact ⟨e', by omega, h2, h3, h4⟩
      · exact ⟨e, le_rfl, hen, h, Or.inr hok⟩
  obtain ⟨e', he, hn, hall, hend⟩ := right
  have left : ∃ a', a' ≤ a ∧ (∀ i, a' ≤ i → i < e' → ok i) ∧ (a' = 0 ∨ ¬ ok (a' - 1)) := by
    clear h
    induction a with
    | zero => exact ⟨0, le_rfl, hall, Or.inl rfl⟩
    | succ a ih =>
      by_cases hok : ok a
      · obtain ⟨a', h1, h2, h3⟩ := ih (by omega) (fun i h1 h2 => by
          rcases Nat.lt_or_ge a i with h' | h'
          · exact hall i (by omega) h2
          · have : i = a := by omega
            rwa [this])
        exact ⟨a', by omega, h2, h3⟩
      · exact ⟨a + 1, le_rfl, hall, Or.inr (by simpa using hok)⟩
  obtain ⟨a', ha, hall', hstart⟩ := left
  exact ⟨a', e', ⟨by omega, hn, hall', hstart, hend⟩, ha, he⟩

theorem range'_infix {a e a' e' : Nat} (h1 : a' ≤ a) (h2 : a ≤ e) (h3 : e ≤ e') :
    List.range' a (e - a) <:+: List.range' a' (e' - a') := by
  refine ⟨List.range' a' (a - a'), List.range' e (e' - e), ?_⟩
  have e1 : List.range' a' (a - a') ++ List.range' a (e - a) = List.range' a' (e - a') := by
    have := List.range'_append (s := a') (m := a - a') (n := e - a) (step := 1)
    rw [show a' + 1 * (a - a') = a by omega, show (a - a') + (e - a) = e - a' by omega] at this
    exact this
  have e2 : List.range' a' (e - a') ++ List.range' e (e' - e) = List.range' a' (e' - a') := by
    have := List.range'_append (s := a') (m := e - a') (n := e' - e) (step := 1)
    rw [show a' + 1 * (e - a') = e by omega, show (e - a') + (e' - e) = e' - a' by omega] at this
    exact this
  rw [e1, e2]

/-- A row of the frame is that of a maximal run of counting samples of one of the transmitters. -/
theorem row_of_run {sort : SortValues Row.time} {geo : Geodetic} {receiver : String} {rx w : Int → V3}
    {transmitters : List Transmitter} {times : List Int} {elevation maxYaw lo hi : ℝ} {frame : List Row}
    (h : collectRo sort geo receiver rx w transmitters times elevation maxYaw lo hi = .ok frame) :
    (∀ row ∈ frame, ∃ t ∈ transmitters, ∃ a e,
      MaximalRun (fun i => Counts lo hi (sampleAt geo t rx w maxYaw (times.getD i 0))) times.length a e ∧
      row.receiver = receiver ∧ row.transmitter = t.name ∧ row.start = times.getD a 0 ∧ row.end_ = times.getD (e - 1) 0 ∧
      row.geometry = (List.range' a (e - a)).map fun i =>
        let s := sampleAt geo t rx w maxYaw (times.getD i 0); (s.lon, s.lat, s.elevation)) ∧
    (∀ t ∈ transmitters, ∀ a e,
      MaximalRun (fun i => Counts lo hi (sampleAt geo t rx w maxYaw (times.getD i 0))) times.length a e → ∃ row ∈ frame,
      row.receiver = receiver ∧ row.transmitter = t.name ∧ row.start = times.getD a 0 ∧ row.end_ = times.getD (e - 1) 0 ∧
      row.geometry = (List.range' a (e - a)).map fun i =>
        let s := sampleAt geo t rx w maxYaw (times.getD i 0); (s.lon, s.lat, s.elevation)) := by
  obtain ⟨frame', rows, hok, hperm, hrep, -, -⟩ :=
    C61_rows sort geo receiver rx w transmitters times elevation maxYaw lo hi
  rw [h, Except.ok.injEq] at hok
  subst hok
  have fact : ∀ (t : Transmitter) (a e : Nat) (row : Row),
      MaximalRun (fun i => Counts lo hi (sampleAt geo t rx w maxYaw (times.getD i 0))) times.length a e →
      ReportsArc receiver elevation ⟨t.name, decide ((sampleAt geo t rx w maxYaw (times.getD a 0)).pitch > -90),
        (List.range' a (e - a)).map fun j => sampleAt geo t rx w maxYaw (times.getD j 0)⟩ row →
      row.receiver = receiver ∧ row.transmitter = t.name ∧ row.start = times.getD a 0 ∧ row.end_ = times.getD (e - 1) 0 ∧
      row.geometry = (List.range' a (e - a)).map fun i =>
        let s := sampleAt geo t rx w maxYaw (times.getD i 0); (s.lon, s.lat, s.elevation) := by
    intro t a e row hrun hr
    obtain ⟨h1, -⟩ := hrun
    obtain ⟨m, hm⟩ : ∃ m, e - a = m + 1 := ⟨e - a - 1, by omega⟩
    refine ⟨hr.names.1, hr.names.2.1, ?_, ?_, ?_⟩
    · obtain ⟨q, hq, hs⟩ := hr.first
      rw [hs]
      rw [hm, List.range'_succ, List.map_cons, List.head?_cons, Option.some.injEq] at hq
      rw [← hq]; rfl
    · obtain ⟨q, hq, hs⟩ := hr.last
      rw [hs]
      rw [hm, List.range'_concat, List.map_append, List.map_singleton, List.getLast?_concat,
        Option.some.injEq] at hq
      rw [← hq]
      show times.getD (a + 1 * m) 0 = _
      congr 1
      omega
    · rw [hr.geometry, List.map_map]; rfl
  constructor
  · intro row hrow
    have hrow' := hperm.mem_iff.mp hrow
    obtain ⟨i, hil, rfl⟩ := List.getElem_of_mem hrow'
    have hl := hrep.length_eq
    have hr := (List.forall₂_iff_get.mp hrep).2 i (by omega) hil
    simp only [List.get_eq_getElem] at hr
    have hmem := List.getElem_mem (l := transmitters.flatMap (collectSeries geo rx w times maxYaw lo hi)) (n := i) (by omega)
    obtain ⟨t, ht, harc⟩ := List.mem_flatMap.mp hmem
    obtain ⟨runs, heq, -, hruns⟩ := C57_arcs t.name times.length
      (fun j => sampleAt geo t rx w maxYaw (times.getD j 0)) lo hi
    set arc := (transmitters.flatMap (collectSeries geo rx w times maxYaw lo hi))[i]'(by omega) with harcdef
    rw [show collectSeries geo rx w times maxYaw lo hi t = collectArcs t.name times.length
      (fun j => sampleAt geo t rx w maxYaw (times.getD j 0)) lo hi from rfl, heq, List.mem_map] at harc
    obtain ⟨⟨a, e⟩, hrun, harc⟩ := harc
    rw [← harc] at hr
    exact ⟨t, ht, a, e, (hruns a e).mp hrun, fact t a e _ ((hruns a e).mp hrun) hr⟩
  · intro t ht a e hrun
    obtain ⟨runs, heq, -, hruns⟩ := C57_arcs t.name times.length
      (fun j => sampleAt geo t rx w maxYaw (times.getD j 0)) lo hi
    have harc : (⟨t.name, decide ((sampleAt geo t rx w maxYaw (times.getD a 0)).pitch > -90),
        (List.range' a (e - a)).map fun j => sampleAt geo t rx w maxYaw (times.getD j 0)⟩ : Arc) ∈
        transmitters.flatMap (collectSeries geo rx w times maxYaw lo hi) := by
      refine List.mem_flatMap.mpr ⟨t, ht, ?_⟩
      unfold collectSeries
      rw [heq]
      exact List.mem_map.mpr ⟨(a, e), (hruns a e).mpr hrun, rfl⟩
    obtain ⟨i, hil, hi⟩ := List.getElem_of_mem harc
    have hl := hrep.length_eq
    have hr := (List.forall₂_iff_get.mp hrep).2 i hil (by omega)
    simp only [List.get_eq_getElem] at hr
    rw [hi] at hr
    exact ⟨rows[i]'(by omega), hperm.mem_iff.mpr (List.getElem_mem _), fact t a e _ hrun hr⟩

/-- **C156, wider limits.** With a larger yaw limit (below 180 degrees), a wider range of elevations and more
transmitters, every occultation is still reported: within a row of the same transmitter that starts no later, ends no
earlier, and has all of its tangent points in the same order. -/
theorem C156_wider (sort sort' : SortValues Row.time) (geo : Geodetic) (receiver : String) (rx w : Int → V3)
    (transmitters transmitters' : List Transmitter) (times : List Int) (elevation elevation' m m' lo lo' hi hi' : ℝ)
    (hts : ∀ t ∈ transmitters, t ∈ transmitters') (htimes : times.Pairwise (· ≤ ·))
    (hm : m ≤ m') (hm' : m' < 180) (hlo : lo' ≤ lo) (hhi : hi ≤ hi') (frame frame' : List Row)
    (h : collectRo sort geo receiver rx w transmitters times elevation m lo hi = .ok frame)
    (h' : collectRo sort' geo receiver rx w transmitters' times elevation' m' lo' hi' = .ok frame') :
    ∀ row ∈ frame, ∃ row' ∈ frame', row'.receiver = row.receiver ∧ row'.transmitter = row.transmitter ∧
      row'.start ≤ row.start ∧ row.end_ ≤ row'.end_ ∧ row.geometry <:+: row'.geometry := by
  intro row hrow
  obtain ⟨t, ht, a, e, hrun, hrec, htx, hs, he, hg⟩ := (row_of_run h).1 row hrow
  obtain ⟨h1, h2, h3, -, -⟩ := hrun
  have hwide : ∀ i, a ≤ i → i < e → Counts lo' hi' (sampleAt geo t rx w m' (times.getD i 0)) := by
    intro i hi1 hi2
    obtain ⟨hv, hl, hh⟩ := h3 i hi1 hi2
    refine ⟨?_, lt_of_le_of_lt hlo hl, lt_of_lt_of_le hh hhi⟩
    simp only [sampleAt, valid, Bool.and_eq_true] at hv ⊢
    exact ⟨hv.1, yawAccepted_mono hm hm' (abs_yaw_le _ _ _) hv.2⟩
  obtain ⟨a', e', hrun', ha, hee⟩ := exists_maximalRun h1 h2 hwide
  obtain ⟨row', hrow', hrec', htx', hs', he', hg'⟩ := (row_of_run h').2 t (hts t ht) a' e' hrun'
  have hle : ∀ i j, i ≤ j → j < times.length → times.getD i 0 ≤ times.getD j 0 := by
    intro i j hij hj
    simp only [List.getD_eq_getElem?_getD, List.getElem?_eq_getElem (show i < times.length by omega),
      List.getElem?_eq_getElem hj, Option.getD_some]
    rcases Nat.lt_or_ge i j with hlt | hge
    · exact List.pairwise_iff_getElem.mp htimes i j (by omega) hj hlt
    · have : i = j := by omega
      subst this
      exact le_rfl
  have hen' : e' ≤ times.length := hrun'.2.1
  refine ⟨row', hrow', hrec'.trans hrec.symm, htx'.trans htx.symm, ?_, ?_, ?_⟩
  · rw [hs, hs']; exact hle a' a ha (by omega)
  · rw [he, he']; exact hle (e - 1) (e' - 1) (by omega) (by omega)
  · rw [hg, hg']
    exact (range'_infix ha h1.le hee).map _

/-- **C156, several transmitters.** The frame of two lists of transmitters together holds the rows of the frame of each of
them and no others. -/
theorem C156_transmitters (sort : SortValues Row.time) (geo : Geodetic) (receiver : String) (rx w : Int → V3)
    (ts us : List Transmitter) (times : List Int) (elevation maxYaw lo hi : ℝ) :
    ∃ A B F, collectRo sort geo receiver rx w ts times elevation maxYaw lo hi = .ok A ∧
      collectRo sort geo receiver rx w us times elevation maxYaw lo hi = .ok B ∧
      collectRo sort geo receiver rx w (ts ++ us) times elevation maxYaw lo hi = .ok F ∧ F.Perm (A ++ B) := by
  have key : ∀ l : List Transmitter, ∃ rows,
      (l.flatMap (collectSeries geo rx w times maxYaw lo hi)).mapM (makeRow receiver elevation) = .ok rows ∧
      ∃ F, collectRo sort geo receiver rx w l times elevation maxYaw lo hi = .ok F ∧ F.Perm rows := by
    intro l
    obtain ⟨rows, hrows, -⟩ := mapM_reports receiver elevation (l.flatMap (collectSeries geo rx w times maxYaw lo hi))
      (by
        intro a ha
        obtain ⟨t, -, ha⟩ := List.mem_flatMap.mp ha
        obtain ⟨runs, heq, -, hmem⟩ := C57_arcs t.name times.length
          (fun j => sampleAt geo t rx w maxYaw (times.getD j 0)) lo hi
        unfold collectSeries at ha
        rw [heq, List.mem_map] at ha
        obtain ⟨⟨b, e⟩, hr, rfl⟩ := ha
        obtain ⟨h1, h2, -⟩ := (hmem b e).mp hr
        intro h0
        have := congrArg List.length h0
        simp at this
        omega)
    refine ⟨rows, hrows, ?_⟩
    unfold collectRo
    simp only
    split_ifs with hzero
    · have hnil := List.length_eq_zero_iff.mp hzero
      rw [hnil] at hrows
      have : rows = [] := by
        have := Except.ok.inj hrows
        exact this.symm
      subst this
      exact ⟨[], rfl, List.Perm.refl _⟩
    · rw [hrows]
      exact ⟨sort.run rows, rfl, sort.perm rows⟩
  obtain ⟨ra, hra, A, hA, pA⟩ := key ts
  obtain ⟨rb, hrb, B, hB, pB⟩ := key us
  obtain ⟨rf, hrf, F, hF, pF⟩ := key (ts ++ us)
  refine ⟨A, B, F, hA, hB, hF, pF.trans ?_⟩
  rw [List.flatMap_append, List.mapM_append, hra, hrb] at hrf
  have : ra ++ rb = rf := Except.ok.inj hrf
  rw [← this]
  exact (pA.append pB).symm

/-- A receiver and a transmitter that occult at two times: the frame has a row, so that the theorems speak about
something. -/
example (sort : SortValues Row.time) : ∃ frame,
    collectRo sort (fun _ _ _ => (0, 0, 0)) "R" (fun _ => ⟨-1, 0, 1⟩) (fun _ => ⟨1, 0, 0⟩)
      [⟨"G01", fun _ => ⟨1, 0, 1⟩, fun _ => ⟨0, 1, 0⟩, fun _ _ => 0⟩] [0, 1] 0 65 (-1) 1 = .ok frame ∧ frame ≠ [] := by
  obtain ⟨frame, rows, hok, -⟩ := C61_rows sort (fun _ _ _ => (0, 0, 0)) "R" (fun _ => ⟨-1, 0, 1⟩) (fun _ => ⟨1, 0, 0⟩)
      [⟨"G01", fun _ => ⟨1, 0, 1⟩, fun _ => ⟨0, 1, 0⟩, fun _ _ => 0⟩] [0, 1] 0 65 (-1) 1
  refine ⟨frame, hok, ?_⟩
  have hne : (⟨1, 0, 1⟩ : V3) ≠ ⟨-1, 0, 1⟩ := fun h => by have := congrArg V3.x h; norm_num at this
  obtain ⟨row, hrow, -⟩ := (row_of_run hok).2 _ (List.mem_singleton.mpr rfl) 0 2
    ⟨by norm_num, le_rfl, fun i _ _ => (counts_iff _ _ _ _ _ _ _ _ hne).mpr occults_sample, Or.inl rfl, Or.inl rfl⟩
  exact List.ne_nil_of_mem hrow

end Tatc.Props
