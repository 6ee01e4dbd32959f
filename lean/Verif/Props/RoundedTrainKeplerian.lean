import Verif.Props.RoundedWalkerKeplerian
import Verif.Props.RoundedTrain

/-! C184: trains of satellites on a Keplerian orbit in double precision. -/

namespace Tatc.Props
open Tatc Tatc.Num Tatc.Ieee Tatc.Spec Tatc.Orbit Tatc.Constellation

/-- C184, full statement: `generate_members` of a train around a Keplerian orbit returns as many valid orbits as requested, in
order, with the altitude, inclination, epoch, eccentricity and perigee of the lead; the mean anomaly of member `i` is `i`
intervals behind.  Proved: where all members can be generated; `C184_apart_partial` says when they can. -/
theorem C184_members_partial {I : Type} (t : Train I) (o : Keplerian) (hv : Keplerian.Valid o) (he : o.eccentricity ≤ 1)
    (hf : Flying o.altitude) (n : ℝ) (hn : Orbit.meanMotion o.altitude = .ok n) (hs : Short n t) (members : List (Satellite I))
    (hm : keplerianTrainMembers o t = .ok members) :
    ∃ orbits : Nat → Keplerian,
      members = (List.range t.satellites).map (fun i =>
        ⟨zeroPad t.name t.satellites (i + 1), .keplerian (orbits i), t.instruments⟩) ∧
      ∀ i < t.satellites, Keplerian.Valid (orbits i) ∧ (orbits i).altitude = o.altitude ∧
        (orbits i).inclination = o.inclination ∧ (orbits i).epoch = o.epoch ∧ (orbits i).eccentricity = o.eccentricity ∧
        (orbits i).perigee = o.perigee ∧
        SameWithin (|behind n t i| * 3e-9 + 2e-8) (orbits i).trueAnomaly
          (Orbit.meanToTrue (Orbit.trueToMean o.trueAnomaly o.eccentricity - behind n t i) o.eccentricity) ∧
        SameWithin 4e-9 (orbits i).raan (o.raan + nodeAhead t i) := by
  have all := (mapM_forall₂ _ _ _).mp hm
  have key : ∀ i, ∃ d : Keplerian, i < t.satellites →
      keplerianDerived o (fl (i * trainDeltaMean (.circular o.toCircular) t)) (fl (i * trainDeltaRaan t)) = .ok d ∧
      members[i]? = some ⟨zeroPad t.name t.satellites (i + 1), .keplerian d, t.instruments⟩ := by
    intro i
    by_cases hi : i < t.satellites
    · have hlen := all.length_eq
      have h2 : i < members.length := by rw [← hlen]; simpa using hi
      have := (List.forall₂_iff_get.mp all).2 i (by simpa using hi) h2
      simp only [List.get_eq_getElem, List.getElem_range, bind_eq_ok, pure, Except.pure, Except.ok.injEq] at this
      obtain ⟨d, hd, h3⟩ := this
      exact ⟨d, fun _ => ⟨hd, by rw [List.getElem?_eq_getElem h2, h3]⟩⟩
    · exact ⟨o, fun h => absurd h hi⟩
  choose f hf' using key
  refine ⟨f, ?_, fun i hi => ?_⟩
  · apply List.ext_getElem?
    intro i
    by_cases hi : i < t.satellites
    · rw [(hf' i hi).2]
      simp [hi]
    · have hlen := all.length_eq
      rw [List.length_range] at hlen
      rw [List.getElem?_eq_none (by omega), List.getElem?_eq_none (by simpa using hi)]
  · have hd := (hf' i hi).1
    obtain ⟨b1, b2, b3, b4⟩ := train_bounds o.toCircular t hf n hn hs hi
    obtain ⟨⟨k, hk⟩, l, hl⟩ := C182_close o (f i) hv he _ _ b1 b2 hd
    unfold keplerianDerived at hd
    obtain ⟨v1, v2, v3, v4, v5, e⟩ := (keplerian_make_ok _ _ _ _ _ _ _ _).mp hd
    have L := meanToTrue_lipschitz hv.2.1 he
      (Orbit.trueToMean o.trueAnomaly o.eccentricity + fl (i * trainDeltaMean (.circular o.toCircular) t))
      (Orbit.trueToMean o.trueAnomaly o.eccentricity - behind n t i)
    rw [sub_eq_add_neg _ (behind n t i), add_sub_add_left_eq_sub, ← sub_eq_add_neg] at L
    refine ⟨by rw [e]; exact ⟨⟨v1, v2, v3⟩, v4, v5⟩, by rw [e], by rw [e], by rw [e], by rw [e], by rw [e], ⟨k, ?_⟩, ⟨l, ?_⟩⟩
    · have a1 := abs_le.mp hk
      have a2 := abs_le.mp L
      have a3 := abs_nonneg (behind n t i)
      generalize |behind n t i| = A at *
      generalize |fl (i * trainDeltaMean (.circular o.toCircular) t) - -behind n t i| = B at *
      norm_num at *
      rw [abs_le]; constructor <;> linarith
    · have a1 := abs_le.mp hl
      have a2 := abs_le.mp b4
      norm_num at *
      rw [abs_le]; constructor <;> linarith

/-- A sum that is refused is the same as 0, but for rounding. -/
theorem same_of_below {a c x b X e : ℝ} (ha : |a - c| ≤ 1e-10) (ha' : |a| ≤ 2001) (hb : |b| ≤ 1000000) (hX : |b - X| ≤ e)
    (hx : x = c + X) (h : JustBelow (fl (a + b))) : SameWithin (e + 1e-9) x 0 := by
  obtain ⟨-, k, h1, h2⟩ := h
  refine ⟨k, ?_⟩
  have f := fl_close' (a + b)
  have a1 := abs_le.mp ha
  have x1 := abs_le.mp hX
  have s : |a + b| ≤ 1002001 := (abs_add_le _ _).trans (by linarith)
  have f1 := abs_le.mp f
  subst hx
  generalize |a + b| = A at *
  clear f ha hb hX ha'
  norm_num at *
  rw [abs_le]; constructor <;> linarith

/-- C184: all members are generated unless the mean anomaly or the right ascension of a member other than the first is zero but
for rounding. -/
theorem C184_apart_partial {I : Type} (t : Train I) (o : Keplerian) (hv : Keplerian.Valid o) (hd : IsDouble o.eccentricity)
    (he : o.eccentricity ≤ 1) (hst : Started o) (hf : Flying o.altitude) (n : ℝ) (hn : Orbit.meanMotion o.altitude = .ok n)
    (hs : Short n t)
    (hfar : ∀ i, 0 < i → i < t.satellites →
      ¬ SameWithin (|behind n t i| * 4e-10 + 2e-9) (Orbit.trueToMean o.trueAnomaly o.eccentricity - behind n t i) 0 ∧
      ¬ SameWithin 3e-9 (o.raan + nodeAhead t i) 0) :
    ∃ members, keplerianTrainMembers o t = .ok members ∧ members.length = t.satellites := by
  have hν := hv.1.1
  have w := mean_close ((Within.exact (b := 720) (x := o.trueAnomaly) (by rw [abs_of_nonneg hν.1]; linarith [hν.2])).weaken
      (by norm_num) (by norm_num)) (abs_le.mpr ⟨by linarith [hv.2.1], he⟩ : |o.eccentricity| ≤ 1)
  have key : ∀ i : Nat, ∃ d, i < t.satellites →
      keplerianDerived o (fl (i * trainDeltaMean (.circular o.toCircular) t)) (fl (i * trainDeltaRaan t)) = .ok d := by
    intro i
    by_cases hi : i < t.satellites
    · rcases Nat.eq_zero_or_pos i with rfl | h0
      · obtain ⟨d, h, -⟩ := started_valid o hv hd he 0 0
          (started_forward hv he hst le_rfl)
          (fun h => absurd h.1 (not_lt.mpr (fl_nonneg (add_nonneg hv.1.2.2.1 le_rfl))))
        exact ⟨d, fun _ => by simpa [fl_zero] using h⟩
      · obtain ⟨b1, b2, b3, b4⟩ := train_bounds o.toCircular t hf n hn hs hi
        obtain ⟨f1, f2⟩ := hfar i h0 hi
        obtain ⟨d, h, -⟩ := C182_valid_partial o hv hd he (fl (i * trainDeltaMean (.circular o.toCircular) t)) (fl (i * trainDeltaRaan t))
          (fun h => f1 (by
            obtain ⟨k, hk⟩ := same_of_below w.close (w.bound.trans (by norm_num)) b1 b3 (sub_eq_add_neg _ _) h
            refine ⟨k, hk.trans ?_⟩
            have h3 := abs_nonneg (behind n t i)
            generalize |behind n t i| = A at *
            norm_num at *; linarith))
          (fun h => f2 (by
            obtain ⟨k, hk⟩ := same_of_below (a := o.raan) (c := o.raan) (by norm_num)
              (by rw [abs_of_nonneg hv.1.2.2.1]; linarith [hv.1.2.2.2]) b2 b4 rfl h
            exact ⟨k, hk.trans (by norm_num)⟩))
        exact ⟨d, fun _ => h⟩
    · exact ⟨o, fun h => absurd h hi⟩
  choose f hf' using key
  refine ⟨(List.range t.satellites).map fun i => ⟨zeroPad t.name t.satellites (i + 1), .keplerian (f i), t.instruments⟩, ?_, by simp⟩
  unfold keplerianTrainMembers
  apply mapM_ok
  intro i hi
  simp only [hf' i (List.mem_range.mp hi)]
  rfl

/-- A train of four satellites a minute apart on an orbit with eccentricity one quarter, the lead at perigee. -/
example : ∃ n, Keplerian.Valid ⟨⟨500000, 0, 0, 51.6, 10⟩, 1 / 4, 270⟩ ∧ IsDouble (1 / 4 : ℝ) ∧
    Started ⟨⟨500000, 0, 0, 51.6, 10⟩, 1 / 4, 270⟩ ∧ Flying 500000 ∧ Orbit.meanMotion 500000 = .ok n ∧
    Short (I := Unit) n ⟨[], .keplerian ⟨⟨500000, 0, 0, 51.6, 10⟩, 1 / 4, 270⟩, (), 4, 60000000, true⟩ ∧
    (∀ i, 0 < i → i < 4 →
      ¬ SameWithin (|behind (I := Unit) n ⟨[], .keplerian ⟨⟨500000, 0, 0, 51.6, 10⟩, 1 / 4, 270⟩, (), 4, 60000000, true⟩ i| * 4e-10 + 2e-9)
        (Orbit.trueToMean 0 (1 / 4) - behind (I := Unit) n ⟨[], .keplerian ⟨⟨500000, 0, 0, 51.6, 10⟩, 1 / 4, 270⟩, (), 4, 60000000, true⟩ i) 0 ∧
      ¬ SameWithin 3e-9 (10 + nodeAhead (I := Unit) ⟨[], .keplerian ⟨⟨500000, 0, 0, 51.6, 10⟩, 1 / 4, 270⟩, (), 4, 60000000, true⟩ i) 0) := by
  have hf : Flying 500000 := ⟨by norm_num, by norm_num⟩
  obtain ⟨n, hn, n0, n1⟩ := mean_motion_range hf
  have n2 : 0.007 ≤ n := by
    obtain ⟨n', e, hc⟩ := C168_mean_motion 500000 hf
    rw [hn, Except.ok.injEq] at e
    subst e
    have := mean_motion_low hf
    have := (abs_le.mp hc).2
    norm_num at *
    linarith
  have turn : ∀ (x e : ℝ), (5 ≤ x ∧ x ≤ 100 ∨ -100 ≤ x ∧ x ≤ -0.001) → e ≤ 0.0001 → ¬ SameWithin e x 0 := by
    rintro x e h1 h3 ⟨k, hk⟩
    have := abs_le.mp hk
    norm_num at h1 h3
    rcases lt_trichotomy k 0 with h | h | h
    · have : (k : ℝ) ≤ -1 := by exact_mod_cast (show k ≤ -1 by omega)
      rcases h1 with h1 | h1 <;> linarith
    · subst h; norm_num at *; rcases h1 with h1 | h1 <;> linarith
    · have : (1 : ℝ) ≤ k := by exact_mod_cast h
      rcases h1 with h1 | h1 <;> linarith
  have b : ∀ i < 4, 0 ≤ behind (I := Unit) n ⟨[], .keplerian ⟨⟨500000, 0, 0, 51.6, 10⟩, 1 / 4, 270⟩, (), 4, 60000000, true⟩ i ∧
      behind (I := Unit) n ⟨[], .keplerian ⟨⟨500000, 0, 0, 51.6, 10⟩, 1 / 4, 270⟩, (), 4, 60000000, true⟩ i ≤ 20 ∧ (0 < i → 0.001 ≤ behind (I := Unit) n ⟨[], .keplerian ⟨⟨500000, 0, 0, 51.6, 10⟩, 1 / 4, 270⟩, (), 4, 60000000, true⟩ i) := by
    intro i hi
    unfold behind intervalDays
    interval_cases i <;> norm_num at * <;> (try constructor) <;> (try constructor) <;> linarith
  have z : Orbit.trueToMean 0 (1 / 4) = 0 := by
    unfold Orbit.trueToMean
    simp [radians, degrees]
  refine ⟨n, ?_, ⟨1, -2, by norm_num, by norm_num, by norm_num⟩, .inr (.inr (.inl rfl)), hf, hn, ?_, ?_⟩
  · unfold Keplerian.Valid Circular.Valid InTurn; norm_num
  · intro i hi
    obtain ⟨b0, b1, -⟩ := b i hi
    refine ⟨by rw [abs_of_nonneg b0]; linarith, ?_⟩
    unfold intervalDays
    have hi : i < 4 := hi
    interval_cases i <;> norm_num
  · intro i h0 hi
    obtain ⟨b0, b1, b2⟩ := b i hi
    have b2 := b2 h0
    rw [z]
    refine ⟨turn _ _ (.inr ⟨by linarith, by norm_num at *; linarith⟩) (by rw [abs_of_nonneg b0]; norm_num; linarith), turn _ _ (.inl ⟨?_, ?_⟩) (by norm_num)⟩ <;>
    · unfold nodeAhead intervalDays
      interval_cases i <;> norm_num

end Tatc.Props
