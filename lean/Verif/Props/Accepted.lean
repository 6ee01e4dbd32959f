import Mathlib.Data.Rat.Cast.Order
import Verif.Props.Ranges
import Verif.Props.Derived
import Verif.Props.Walker

/-!
# What an accepted satellite or constellation is like
-/

namespace Tatc.Props
open Tatc Tatc.Schema Tatc.Spec

/-! ## Systems -/

theorem made_iff (env : Env) (c : Cls) (doc : Doc) :
    (∃ o, readObj env c doc = .ok o) ↔ Ranges env c (given doc) := (C163_exact env c doc).1

theorem acceptUnion_iff (env : Env) (cs : List Cls) (g : Given) :
    ((∃ o, acceptUnion env cs g = .ok o) ↔ ∃ c ∈ cs, ∃ o, acceptObj env c g = .ok o) ∧
    ((¬ ∃ o, acceptUnion env cs g = .ok o) → acceptUnion env cs g = .error .validationError) := by
  unfold acceptUnion
  cases h : cs.findSome? fun c => (acceptObj env c g).toOption with
  | none =>
    simp only [List.findSome?_eq_none_iff] at h
    refine ⟨⟨fun ⟨o, ho⟩ => by simp at ho, fun ⟨c, hc, o, ho⟩ => ?_⟩, fun _ => rfl⟩
    have := h c hc
    rw [ho] at this
    cases this
  | some o =>
    obtain ⟨c, hc, hco⟩ := List.exists_of_findSome?_eq_some h
    refine ⟨⟨fun _ => ⟨c, hc, ?_⟩, fun _ => ⟨o, rfl⟩⟩, fun h => absurd ⟨o, rfl⟩ h⟩
    cases hac : acceptObj env c g with
    | error e => rw [hac] at hco; cases hco
    | ok o' => exact ⟨o', rfl⟩

theorem orbit_iff (env : Env) (c : SysCls) (g : Given) :
    (∃ o, acceptUnion env c.orbits g = .ok o) ↔ OrbitGiven env c g := by
  rw [(acceptUnion_iff env c.orbits g).1]
  cases g with
  | inl doc =>
    have hc : ∀ d, d ∈ c.orbits ↔ Orbits c d := fun d => by
      cases c <;> simp [SysCls.orbits, Orbits] <;> tauto
    simp only [acceptObj, made_iff, OrbitGiven, hc]
  | inr o =>
    simp only [acceptObj, OrbitGiven]
    obtain ⟨k, vals⟩ := o
    have hx : ∀ p : Prop, [Decidable p] → ((∃ o : Obj, (if p then Except.ok (⟨k, vals⟩ : Obj) else
        Except.error PyErr.validationError) = .ok o) ↔ p) := fun p _ => by
      by_cases hp : p <;> simp [hp]
    simp only [hx]
    cases c <;> cases k <;> simp [SysCls.orbits, Orbits, Cls.isSub, Cls.base]

theorem instrument_iff (env : Env) (g : Given) :
    ((∃ o, acceptObj env .instrument g = .ok o) ↔ InstrumentGiven g) ∧
    ((¬ ∃ o, acceptObj env .instrument g = .ok o) → acceptObj env .instrument g = .error .validationError) := by
  cases g with
  | inl doc =>
    refine ⟨made_iff env .instrument doc, fun h => ?_⟩
    exact (C163_exact env .instrument doc).2 fun hr => h ((made_iff env .instrument doc).mpr hr)
  | inr o =>
    obtain ⟨k, vals⟩ := o
    cases k <;> simp [acceptObj, InstrumentGiven, Cls.isSub, Cls.base]

/-- The numbers of a Walker constellation, as they are read. -/
theorem walker_fields (doc vals : Doc) (h : SysCls.walker.fields.mapM (readField doc) = .ok vals) :
    vals.lookup "number_satellites" = some ((doc.lookup "number_satellites").getD (.num 1)) ∧
    vals.lookup "number_planes" = some ((doc.lookup "number_planes").getD (.num 1)) ∧
    vals.lookup "relative_spacing" = some ((doc.lookup "relative_spacing").getD (.num 0)) := by
  have key : ∀ f ∈ SysCls.walker.fields, vals.lookup f.key = (doc.lookup f.key).or f.default :=
    fun f hf => read_values (sys_good _).1 h hf
  have h1 := key (count "number_satellites" 1 1) (by simp [SysCls.fields])
  have h2 := key (count "number_planes" 1 1) (by simp [SysCls.fields])
  have h3 := key (count "relative_spacing" 0 0) (by simp [SysCls.fields])
  simp only [count] at h1 h2 h3
  rw [h1, h2, h3]
  refine ⟨?_, ?_, ?_⟩
  · cases doc.lookup "number_satellites" <;> rfl
  · cases doc.lookup "number_planes" <;> rfl
  · cases doc.lookup "relative_spacing" <;> rfl

theorem count_getD {v : Option Scalar} {least : ℤ} (d : ℤ) (hd : least ≤ d) :
    Count v least ↔ ∃ n : ℤ, v.getD (.num d) = .num n ∧ least ≤ n := by
  unfold Count
  cases v with
  | none =>
    simp only [true_or, Option.getD_none, Scalar.num.injEq, true_iff]
    exact ⟨d, rfl, hd⟩
  | some x => simp

/-- The values of a satellite or constellation are read and checked together. -/
theorem system_vals (c : SysCls) (doc : Doc) :
    ((∃ vals, c.fields.mapM (readField doc) = .ok vals ∧ c.check vals = true) ↔ SystemRanges c (given doc)) := by
  have hread : (∃ vals, c.fields.mapM (readField doc) = .ok vals) ↔ ∀ f ∈ c.fields, Reads doc f := by
    constructor
    · rintro ⟨vals, h⟩
      by_contra hf
      rw [(read_total doc c.fields).2 hf] at h
      cases h
    · exact (read_total doc c.fields).1
  change _ ↔ SystemRanges c fun key => doc.lookup key
  have h1 : ∀ n : ℤ, (fun q : ℚ => decide (1 ≤ q)) n = true ↔ 1 ≤ n := fun n => by
    simp only [decide_eq_true_iff]; exact_mod_cast Iff.rfl
  have h0 : ∀ n : ℤ, (fun q : ℚ => decide (0 ≤ q)) n = true ↔ 0 ≤ n := fun n => by
    simp only [decide_eq_true_iff]; exact_mod_cast Iff.rfl
  have hcount1 := fun key d => readable_count doc key d 1 (fun q => decide (1 ≤ q)) h1
  have hcount0 := fun key d => readable_count doc key d 0 (fun q => decide (0 ≤ q)) h0
  cases c with
  | satellite =>
    simp only [SysCls.check, and_true, hread]
    simp only [SysCls.fields, List.forall_mem_cons, readable_text_required, readable_literal, SystemRanges]
    tauto
  | train =>
    simp only [SysCls.check, and_true, hread]
    simp only [SysCls.fields, count, List.forall_mem_cons, readable_text_required, readable_literal, SystemRanges,
      hcount1, readable_span_required, readable_bool]
    tauto
  | mog =>
    simp only [SysCls.check, and_true, hread]
    simp only [SysCls.fields, count, List.forall_mem_cons, readable_text_required, readable_literal, SystemRanges,
      hcount1, readable_num_required, readable_bool, decide_eq_true_iff]
    tauto
  | soc =>
    simp only [SysCls.check, and_true, hread]
    simp only [SysCls.fields, List.forall_mem_cons, readable_text_required, readable_literal, SystemRanges,
      readable_num_required, decide_eq_true_iff, Bool.and_eq_true]
    tauto
  | walker =>
    have hconf : Reads doc ⟨"configuration", some (.text "delta"),
        fun v => decide (v = .text "delta" ∨ v = .text "star")⟩ ↔
        OneOf (doc.lookup "configuration") ["delta", "star"] := by
      unfold Reads OneOf
      cases doc.lookup "configuration" <;> simp
    have hall : (∀ f ∈ SysCls.walker.fields, Reads doc f) ↔
        (∃ s, doc.lookup "name" = some (.text s)) ∧ OneOf (doc.lookup "type") ["walker"] ∧
        OneOf (doc.lookup "configuration") ["delta", "star"] ∧ Count (doc.lookup "number_satellites") 1 ∧
        Count (doc.lookup "number_planes") 1 ∧ Count (doc.lookup "relative_spacing") 0 := by
      simp only [SysCls.fields, count, List.forall_mem_cons, readable_text_required, readable_literal, hconf,
        hcount1, hcount0]
      tauto
    rw [count_getD 1 le_rfl, count_getD 1 le_rfl, count_getD 0 le_rfl] at hall
    simp only [SystemRanges]
    constructor
    · rintro ⟨vals, hv, hch⟩
      obtain ⟨hn, ht, hcf, ⟨s, hs, hs1⟩, ⟨p, hp, hp1⟩, f, hf, hf0⟩ := hall.mp (hread.mp ⟨vals, hv⟩)
      obtain ⟨e1, e2, e3⟩ := walker_fields doc vals hv
      simp only [SysCls.check, numAt, e1, e2, e3] at hch
      norm_num at hs hp hf
      rw [hs, hp, hf] at hch
      simp only [Bool.and_eq_true, decide_eq_true_iff] at hch
      exact ⟨hn, ht, hcf, s, p, f, hs, hp, hf, hp1, by exact_mod_cast hch.1, hf0, by exact_mod_cast hch.2⟩
    · rintro ⟨hn, ht, hcf, s, p, f, hs, hp, hf, hp1, hps, hf0, hfp⟩
      obtain ⟨vals, hv⟩ := hread.mpr (hall.mpr ⟨hn, ht, hcf, ⟨s, by exact_mod_cast hs, by omega⟩,
        ⟨p, by exact_mod_cast hp, hp1⟩, f, by exact_mod_cast hf, hf0⟩)
      obtain ⟨e1, e2, e3⟩ := walker_fields doc vals hv
      refine ⟨vals, hv, ?_⟩
      simp only [SysCls.check, numAt, e1, e2, e3, hs, hp, hf, Bool.and_eq_true, decide_eq_true_iff]
      exact ⟨by exact_mod_cast hps, by exact_mod_cast hfp⟩

/-- **C163, satellites and constellations.** A satellite or constellation is made exactly when its arguments are the
documented ones, its orbit is one that it can have and it has at least one instrument, all of them instruments; otherwise
there is a validation error. -/
theorem C163_system (env : Env) (c : SysCls) (doc : SysDoc) :
    ((∃ s, readSys env c doc = .ok s) ↔
      SystemRanges c (given doc.vals) ∧ (∃ g, doc.orbit = some g ∧ OrbitGiven env c g) ∧
      ∀ gs, doc.instruments = some gs → gs ≠ [] ∧ ∀ g ∈ gs, InstrumentGiven g) ∧
    ((¬ ∃ s, readSys env c doc = .ok s) → readSys env c doc = .error .validationError) := by
  -- each part is read or is refused with a validation error
  have hvals : (∃ vals, c.fields.mapM (readField doc.vals) = .ok vals) ∨
      c.fields.mapM (readField doc.vals) = .error .validationError := by
    by_cases h : ∀ f ∈ c.fields, Reads doc.vals f
    · exact .inl ((read_total _ _).1 h)
    · exact .inr ((read_total _ _).2 h)
  have horb : ((∃ o, readOrbit env c.orbits doc.orbit = .ok o) ↔ ∃ g, doc.orbit = some g ∧ OrbitGiven env c g) ∧
      ((¬ ∃ o, readOrbit env c.orbits doc.orbit = .ok o) →
        readOrbit env c.orbits doc.orbit = .error .validationError) := by
    cases hg : doc.orbit with
    | none => simp [readOrbit]
    | some g =>
      simp only [readOrbit, orbit_iff, Option.some.injEq, exists_eq_left']
      exact ⟨trivial, fun h => (acceptUnion_iff env c.orbits g).2 (fun h' => h ((orbit_iff env c g).mp h'))⟩
  have hins : ((∃ is, readInstruments env doc.instruments = .ok is ∧ is ≠ []) ↔
      ∀ gs, doc.instruments = some gs → gs ≠ [] ∧ ∀ g ∈ gs, InstrumentGiven g) ∧
      ((∃ is, readInstruments env doc.instruments = .ok is) ∨
        readInstruments env doc.instruments = .error .validationError) := by
    cases hg : doc.instruments with
    | none =>
      have : ∃ o, readObj env .instrument [] = .ok o := (made_iff env .instrument []).mpr (by
        simp [Ranges, InstrumentRanges, given, Text, Number, Duration, Requirement, TrueFalse])
      obtain ⟨o, ho⟩ := this
      have hr : readInstruments env none = .ok [o] := by unfold readInstruments; rw [ho]; rfl
      exact ⟨⟨fun _ gs h => (nomatch h), fun _ => ⟨[o], hr, by simp⟩⟩, .inl ⟨_, hr⟩⟩
    | some gs =>
      by_cases hall : ∀ g ∈ gs, InstrumentGiven g
      · have : Nonempty Obj := ⟨⟨.instrument, []⟩⟩
        choose! f hf using fun g (hgm : g ∈ gs) => (instrument_iff env g).1.mpr (hall g hgm)
        have hr : readInstruments env (some gs) = .ok (gs.map f) := mapM_ok _ _ _ hf
        refine ⟨⟨?_, ?_⟩, .inl ⟨_, hr⟩⟩
        · rintro ⟨is, his, hne⟩ gs' he
          cases he
          rw [hr] at his
          cases his
          exact ⟨fun h => hne (by rw [h]; rfl), hall⟩
        · intro h
          exact ⟨_, hr, fun hm => (h gs rfl).1 (List.map_eq_nil_iff.mp hm)⟩
      · have hr : readInstruments env (some gs) = .error .validationError := by
          push Not at hall
          obtain ⟨g, hg, hno⟩ := hall
          refine mapM_error _ _ _ (fun a _ => ?_) ⟨g, hg, (instrument_iff env g).2
            (fun h => hno ((instrument_iff env g).1.mp h))⟩
          by_cases ha : ∃ o, acceptObj env .instrument a = .ok o
          · exact .inl ha
          · exact .inr ((instrument_iff env a).2 ha)
        refine ⟨⟨?_, fun h => absurd (h gs rfl).2 hall⟩, .inr hr⟩
        rintro ⟨is, his, -⟩
        rw [hr] at his
        cases his
  rw [← system_vals, ← horb.1, ← hins.1]
  constructor
  · unfold readSys
    simp only [bind_eq_ok, require_eq_ok, pure, Except.pure, Except.ok.injEq]
    constructor
    · rintro ⟨s, vals, hv, orbit, ho, is, hi, -, hne, -, hch, -⟩
      exact ⟨⟨vals, hv, hch⟩, ⟨orbit, ho⟩, is, hi, hne⟩
    · rintro ⟨⟨vals, hv, hch⟩, ⟨orbit, ho⟩, is, hi, hne⟩
      exact ⟨_, vals, hv, orbit, ho, is, hi, (), hne, (), hch, rfl⟩
  · intro hno
    rcases hvals with ⟨vals, hv⟩ | hv
    · by_cases ho : ∃ o, readOrbit env c.orbits doc.orbit = .ok o
      · obtain ⟨o, ho⟩ := ho
        rcases hins.2 with ⟨is, hi⟩ | hi
        · by_cases hne : is ≠ []
          · by_cases hch : c.check vals = true
            · refine absurd ?_ hno
              unfold readSys
              simp only [bind_eq_ok, require_eq_ok, pure, Except.pure, Except.ok.injEq]
              exact ⟨_, vals, hv, o, ho, is, hi, (), hne, (), hch, rfl⟩
            · unfold readSys
              rw [hv, ho, hi]
              simp [require, hne, hch, bind, Except.bind]
          · unfold readSys
            rw [hv, ho, hi]
            simp [require, hne, bind, Except.bind]
        · unfold readSys
          rw [hv, ho, hi]
          rfl
      · unfold readSys
        rw [hv, horb.2 ho]
        rfl
    · unfold readSys
      rw [hv]
      rfl

/-! ## Accepted orbits are the valid ones of the other properties -/

theorem cast_le {q : ℚ} (h : 0 ≤ q) : (0 : ℝ) ≤ q := by exact_mod_cast h

theorem cast_lt {q : ℚ} {n : ℕ} [n.AtLeastTwo] (h : q < OfNat.ofNat n) : (q : ℝ) < OfNat.ofNat n := by
  have := Rat.cast_lt (K := ℝ).mpr h
  rwa [Rat.cast_ofNat] at this

theorem numAt_range {env : Env} {c : Cls} {doc : Doc} {o : Obj} (h : readObj env c doc = .ok o) {f : Field}
    (hf : f ∈ c.fields env) {p : ℚ → Bool} (hp : f.ok = isNum p) : p (numAt o.vals f.key) = true := by
  obtain ⟨v, hl, hv⟩ := (aligned_of_read (cls_good env c) (readObj_eq h).2).lookup (cls_good env c).1 hf
  rw [hp] at hv
  unfold numAt
  rw [hl]
  cases v <;> simp_all [isNum]

/-- The circular orbit that an object describes; its epoch is `epoch`. -/
noncomputable def circularOf (o : Obj) (epoch : Int) : Orbit.Circular :=
  ⟨numAt o.vals "altitude", numAt o.vals "true_anomaly", epoch, numAt o.vals "inclination",
    numAt o.vals "right_ascension_ascending_node"⟩

/-- **C163, orbits.** Every circular or Keplerian orbit that can be made is one of the valid orbits of the properties
about orbits: its angles are in their ranges and its eccentricity is not negative; every sun synchronous orbit is below
the altitude at which its inclination would exceed 180°. -/
theorem C163_orbits (env : Env) (doc : Doc) (o : Obj) (epoch : Int) :
    (readObj env .circular doc = .ok o → Circular.Valid (circularOf o epoch)) ∧
    (readObj env .keplerian doc = .ok o → Keplerian.Valid ⟨circularOf o epoch, numAt o.vals "eccentricity",
      numAt o.vals "perigee_argument"⟩) ∧
    (∀ crossing ascending, readObj env .sso doc = .ok o → Sso.Valid ⟨numAt o.vals "altitude",
      numAt o.vals "true_anomaly", epoch, crossing, ascending⟩) := by
  have hcirc : ∀ c, c = .circular ∨ c = .keplerian → readObj env c doc = .ok o →
      Circular.Valid (circularOf o epoch) := by
    intro c hc h
    have h1 : (decide (0 ≤ numAt o.vals "true_anomaly") && decide (numAt o.vals "true_anomaly" < 360)) = true :=
      numAt_range h (f := angle "true_anomaly" 0)
        (by rcases hc with rfl | rfl <;> simp [Cls.fields, orbitBase]) rfl
    have h2 : (decide (0 ≤ numAt o.vals "inclination") && decide (numAt o.vals "inclination" < 180)) = true :=
      numAt_range h (f := inclination 0) (by rcases hc with rfl | rfl <;> simp [Cls.fields]) rfl
    have h3 : (decide (0 ≤ numAt o.vals "right_ascension_ascending_node") && decide (numAt o.vals "right_ascension_ascending_node" < 360)) = true :=
      numAt_range h (f := angle "right_ascension_ascending_node" 0)
        (by rcases hc with rfl | rfl <;> simp [Cls.fields]) rfl
    simp only [Bool.and_eq_true, decide_eq_true_iff] at h1 h2 h3
    exact ⟨⟨cast_le h1.1, cast_lt h1.2⟩, ⟨cast_le h2.1, cast_lt h2.2⟩,
      cast_le h3.1, cast_lt h3.2⟩
  refine ⟨hcirc _ (.inl rfl), fun h => ⟨hcirc _ (.inr rfl) h, ?_, ?_⟩, fun crossing ascending h => ?_⟩
  · have h1 : decide (0 ≤ numAt o.vals "eccentricity") = true := numAt_range h (f := eccentricity 0) (by simp [Cls.fields]) rfl
    simp only [decide_eq_true_iff] at h1
    show (0 : ℝ) ≤ (numAt o.vals "eccentricity" : ℚ)
    exact_mod_cast h1
  · have h1 : (decide (0 ≤ numAt o.vals "perigee_argument") && decide (numAt o.vals "perigee_argument" < 360)) = true :=
      numAt_range h (f := angle "perigee_argument" 0) (by simp [Cls.fields]) rfl
    simp only [Bool.and_eq_true, decide_eq_true_iff] at h1
    exact ⟨cast_le h1.1, cast_lt h1.2⟩
  · have h1 : (decide (0 ≤ numAt o.vals "true_anomaly") && decide (numAt o.vals "true_anomaly" < 360)) = true :=
      numAt_range h (f := angle "true_anomaly" 0) (by simp [Cls.fields, orbitBase]) rfl
    have h2 := numAt_range h (f := ⟨"altitude", none, isNum fun q => decide (0 ≤ q) &&
      decide (q < 12352000 - (2 * 6378137 + 6356752314245179 / 1000000000) / 3)⟩) (by simp [Cls.fields]) rfl
    simp only [Bool.and_eq_true, decide_eq_true_iff] at h1 h2
    refine ⟨⟨cast_le h1.1, cast_lt h1.2⟩, cast_le h2.1, ?_⟩
    have h3 : ((numAt o.vals "altitude" : ℚ) : ℝ) <
        ((12352000 - (2 * 6378137 + 6356752314245179 / 1000000000) / 3 : ℚ) : ℝ) := by exact_mod_cast h2.2
    refine h3.trans_eq ?_
    push_cast
    unfold Num.meanRadius Num.equatorialRadius Num.polarRadius
    norm_num

/-- **C163, Walker constellations.** The numbers of every Walker constellation that can be made are those of an accepted
constellation: at least one plane, no more planes than satellites, a relative spacing below the number of planes. -/
theorem C163_walker (env : Env) (doc : SysDoc) (s : Sys) (h : readSys env .walker doc = .ok s) :
    ∃ satellites planes spacing : ℕ, s.vals.lookup "number_satellites" = some (.num satellites) ∧
      s.vals.lookup "number_planes" = some (.num planes) ∧ s.vals.lookup "relative_spacing" = some (.num spacing) ∧
      ∀ (I : Type) (w : Constellation.Walker I), w.satellites = satellites → w.planes = planes →
        w.spacing = spacing → Walker.Accepted w := by
  have hr := ((C163_system env .walker doc).1.mp ⟨s, h⟩).1
  unfold readSys at h
  simp only [bind_eq_ok, require_eq_ok, pure, Except.pure, Except.ok.injEq] at h
  obtain ⟨vals, hv, orbit, ho, ins, hi, -, hne, -, hch, rfl⟩ := h
  obtain ⟨e1, e2, e3⟩ := walker_fields doc.vals vals hv
  obtain ⟨-, -, -, n, p, f, hn, hp, hf, hp1, hpn, hf0, hfp⟩ := hr
  obtain ⟨n, rfl⟩ := Int.eq_ofNat_of_zero_le (by omega : 0 ≤ n)
  obtain ⟨p, rfl⟩ := Int.eq_ofNat_of_zero_le (by omega : 0 ≤ p)
  obtain ⟨f, rfl⟩ := Int.eq_ofNat_of_zero_le hf0
  unfold given at hn hp hf
  refine ⟨n, p, f, ?_, ?_, ?_, fun I w h1 h2 h3 => ⟨⟨by omega, by omega⟩, by omega⟩⟩
  · show vals.lookup _ = _
    rw [e1, hn]; simp
  · show vals.lookup _ = _
    rw [e2, hp]; simp
  · show vals.lookup _ = _
    rw [e3, hf]; simp

/-- **C163, what is not checked.** Not every orbit that can be made is an orbit: the eccentricity can be 2, the altitude
can be below the centre of the earth; and an instrument can be made whose minimum access time is negative. -/
theorem C163_sense_false (env : Env) :
    (∃ doc o, readObj env .keplerian doc = .ok o ∧ numAt o.vals "eccentricity" = 2) ∧
    (∃ doc o, readObj env .circular doc = .ok o ∧ numAt o.vals "altitude" = -7000000) ∧
    (∃ doc o, readObj env .instrument doc = .ok o ∧ o.vals.lookup "min_access_time" = some (.span (-1))) := by
  have key : ∀ (c : Cls) (doc : Doc) (k : String) (v : Scalar), Ranges env c (given doc) → doc.lookup k = some v →
      (k ∈ required c ∨ k ∈ (defaults env c).map (·.1)) →
      ∃ o, readObj env c doc = .ok o ∧ o.vals.lookup k = some v := by
    intro c doc k v hr hl hk
    obtain ⟨o, ho⟩ := (made_iff env c doc).mpr hr
    refine ⟨o, ho, ?_⟩
    rw [(C163_values env c doc o ho k).2.1 hk, hl]
    rfl
  refine ⟨⟨[("altitude", .num 400000), ("eccentricity", .num 2)], ?_⟩, ⟨[("altitude", .num (-7000000))], ?_⟩,
    ⟨[("min_access_time", .span (-1))], ?_⟩⟩
  · obtain ⟨o, ho, hl⟩ := key .keplerian [("altitude", .num 400000), ("eccentricity", .num 2)] "eccentricity" (.num 2)
      (by simp [Ranges, OrbitRanges, PlaneRanges, given, Number, Time, OneOf, List.lookup]) rfl
      (.inr (by simp [defaults]))
    exact ⟨o, ho, by simp [numAt, hl]⟩
  · obtain ⟨o, ho, hl⟩ := key .circular [("altitude", .num (-7000000))] "altitude" (.num (-7000000))
      (by simp [Ranges, OrbitRanges, PlaneRanges, given, Number, Time, OneOf, List.lookup]) rfl
      (.inl (by simp [required]))
    exact ⟨o, ho, by simp [numAt, hl]⟩
  · exact key .instrument [("min_access_time", .span (-1))] "min_access_time" (.span (-1))
      (by simp [Ranges, InstrumentRanges, given, Number, Text, Duration, Requirement, TrueFalse, List.lookup]) rfl
      (.inr (by simp [defaults, instrumentDefaults]))

/-- Made: the sideways looking instrument of the other properties.  Refused: a field of regard of 361°. -/
example : Ranges sampleEnv .pointed (given sidewaysDoc) ∧
    ¬ Ranges sampleEnv .instrument (given [("field_of_regard", .num 361)]) := by
  refine ⟨(made_iff _ _ _).mp ⟨sideways, by rfl⟩, ?_⟩
  rintro ⟨-, h, -⟩
  rcases h with h | ⟨q, h, -, h'⟩
  · simp [given, List.lookup] at h
  · simp [given, List.lookup] at h
    subst h
    norm_num at h'

/-- A Walker constellation is made from its data. -/
example : ∃ s, readSys sampleEnv .walker walkerDoc = .ok s := ⟨_, walker_made⟩

end Tatc.Props
