import Mathlib.Tactic.NormNum
import Mathlib.Tactic.Linarith
import Verif.Spec.Ranges
import Verif.Props.Schema

/-!
# Exactly the documented values are accepted
-/

namespace Tatc.Props
open Tatc Tatc.Schema Tatc.Spec

/-! ## Fields -/

/-- A field can be read: the value given passes the check, or there is a default. -/
def Reads (doc : Doc) (f : Field) : Prop :=
  match doc.lookup f.key with
  | some v => f.ok v = true
  | none => f.default ≠ none

theorem readField_total (doc : Doc) (f : Field) :
    (Reads doc f → ∃ v, readField doc f = .ok (f.key, v) ∧ (doc.lookup f.key).or f.default = some v) ∧
    (¬ Reads doc f → readField doc f = .error .validationError) := by
  unfold Reads readField
  cases doc.lookup f.key with
  | some v => by_cases h : f.ok v = true <;> simp [h]
  | none => cases f.default <;> simp

theorem read_total (doc : Doc) (fields : List Field) :
    ((∀ f ∈ fields, Reads doc f) → ∃ vals, fields.mapM (readField doc) = .ok vals) ∧
    (¬ (∀ f ∈ fields, Reads doc f) → fields.mapM (readField doc) = .error .validationError) := by
  constructor
  · intro h
    have hall : ∀ f ∈ fields, ∃ v, readField doc f = .ok (f.key, v) := fun f hf => by
      obtain ⟨v, hv, -⟩ := (readField_total doc f).1 (h f hf)
      exact ⟨v, hv⟩
    refine ⟨_, mapM_ok (readField doc) (fun f => (f.key, ((doc.lookup f.key).or f.default).getD .none)) fields ?_⟩
    intro f hf
    obtain ⟨v, hv, he⟩ := (readField_total doc f).1 (h f hf)
    rw [hv, he]; rfl
  · intro h
    push Not at h
    obtain ⟨f, hf, hr⟩ := h
    refine mapM_error _ _ _ (fun g _ => ?_) ⟨f, hf, (readField_total doc f).2 hr⟩
    by_cases hg : Reads doc g
    · obtain ⟨v, hv, -⟩ := (readField_total doc g).1 hg
      exact .inl ⟨_, hv⟩
    · exact .inr ((readField_total doc g).2 hg)

/-- The values of the object: the value given under each key, or else the default. -/
theorem read_values {doc vals : Doc} {fields : List Field} (hn : (fields.map (·.key)).Nodup)
    (h : fields.mapM (readField doc) = .ok vals) {f : Field} (hf : f ∈ fields) :
    vals.lookup f.key = (doc.lookup f.key).or f.default := by
  have h' := mapM_eq_ok _ _ _ h
  clear h
  induction h' with
  | nil => simp at hf
  | @cons g kv gs kvs h1 _ ih =>
    have hr : Reads doc g := by
      by_contra hr
      rw [(readField_total doc g).2 hr] at h1
      cases h1
    obtain ⟨v, hv, he⟩ := (readField_total doc g).1 hr
    rw [hv] at h1
    cases h1
    simp only [List.map_cons, List.nodup_cons] at hn
    rcases List.mem_cons.mp hf with rfl | hf
    · simp [he]
    · have hne : f.key ≠ g.key := fun e => hn.1 (e ▸ List.mem_map_of_mem (f := (·.key)) hf)
      rw [List.lookup_cons, beq_eq_false_iff_ne.mpr hne]
      exact ih hn.2 hf

/-! ## One field of each kind -/

theorem readable_num (doc : Doc) (key : String) (d : Scalar) (p : ℚ → Bool) :
    Reads doc ⟨key, some d, isNum p⟩ ↔ Number (doc.lookup key) (fun q => p q = true) := by
  unfold Reads Number
  cases h : doc.lookup key with
  | none => simp
  | some v => cases v <;> simp [isNum]

theorem readable_num_required (doc : Doc) (key : String) (p : ℚ → Bool) :
    Reads doc ⟨key, none, isNum p⟩ ↔ ∃ q, doc.lookup key = some (.num q) ∧ p q = true := by
  unfold Reads
  cases h : doc.lookup key with
  | none => simp
  | some v => cases v <;> simp [isNum]

theorem isInt_iff (p : ℚ → Bool) (q : ℚ) : (decide (q.den = 1) && p q) = true ↔ ∃ n : ℤ, q = n ∧ p n = true := by
  rw [Bool.and_eq_true, decide_eq_true_iff]
  constructor
  · rintro ⟨h, hp⟩
    have : q = (q.num : ℚ) := by
      conv_lhs => rw [← Rat.num_div_den q]
      rw [h]; simp
    exact ⟨q.num, this, by rwa [← this]⟩
  · rintro ⟨n, rfl, hp⟩
    exact ⟨Rat.den_intCast n, hp⟩

theorem readable_count (doc : Doc) (key : String) (d : Scalar) (least : ℤ) (p : ℚ → Bool)
    (hp : ∀ n : ℤ, p n = true ↔ least ≤ n) :
    Reads doc ⟨key, some d, isInt p⟩ ↔ Count (doc.lookup key) least := by
  unfold isInt
  rw [readable_num]
  unfold Number Count
  refine or_congr Iff.rfl ⟨?_, ?_⟩
  · rintro ⟨q, hq, h⟩
    obtain ⟨n, rfl, hn⟩ := (isInt_iff p q).mp h
    exact ⟨n, hq, (hp n).mp hn⟩
  · rintro ⟨n, hn, h⟩
    exact ⟨n, hn, (isInt_iff p n).mpr ⟨n, rfl, (hp n).mpr h⟩⟩

theorem readable_text (doc : Doc) (key : String) (d : Scalar) :
    Reads doc ⟨key, some d, isText⟩ ↔ Text (doc.lookup key) := by
  unfold Reads Text
  cases h : doc.lookup key with
  | none => simp
  | some v => cases v <;> simp [isText]

theorem readable_text_required (doc : Doc) (key : String) :
    Reads doc ⟨key, none, isText⟩ ↔ ∃ s, doc.lookup key = some (.text s) := by
  unfold Reads
  cases h : doc.lookup key with
  | none => simp
  | some v => cases v <;> simp [isText]

theorem readable_literal (doc : Doc) (s : String) :
    Reads doc (literal s) ↔ OneOf (doc.lookup "type") [s] := by
  unfold Reads literal OneOf
  cases h : doc.lookup "type" with
  | none => simp
  | some v => simp

theorem readable_bool (doc : Doc) (key : String) (d : Scalar) :
    Reads doc ⟨key, some d, isBool⟩ ↔ TrueFalse (doc.lookup key) := by
  unfold Reads TrueFalse
  cases h : doc.lookup key with
  | none => simp
  | some v => cases v <;> simp [isBool]

theorem readable_flag (doc : Doc) (key : String) (d : Scalar) :
    Reads doc ⟨key, some d, isFlag⟩ ↔ Requirement (doc.lookup key) := by
  unfold Reads Requirement
  cases h : doc.lookup key with
  | none => simp
  | some v => cases v <;> simp [isFlag]

theorem readable_span (doc : Doc) (key : String) (d : Scalar) :
    Reads doc ⟨key, some d, isSpan⟩ ↔ Duration (doc.lookup key) := by
  unfold Reads Duration
  cases h : doc.lookup key with
  | none => simp
  | some v => cases v <;> simp [isSpan]

theorem readable_span_required (doc : Doc) (key : String) :
    Reads doc ⟨key, none, isSpan⟩ ↔ ∃ d, doc.lookup key = some (.span d) := by
  unfold Reads
  cases h : doc.lookup key with
  | none => simp
  | some v => cases v <;> simp [isSpan]

theorem readable_clock (doc : Doc) (key : String) :
    Reads doc ⟨key, none, isClock⟩ ↔ ∃ d, doc.lookup key = some (.clock d) := by
  unfold Reads
  cases h : doc.lookup key with
  | none => simp
  | some v => cases v <;> simp [isClock]

theorem readable_epoch (doc : Doc) (key : String) (d : Scalar) :
    Reads doc ⟨key, some d, isEpoch⟩ ↔ Time (doc.lookup key) := by
  unfold Reads Time
  cases h : doc.lookup key with
  | none => simp
  | some v => cases v <;> simp [isEpoch]

/-! ## C163 -/

theorem fields_iff (env : Env) (c : Cls) (doc : Doc) :
    (∀ f ∈ c.fields env, Reads doc f) ↔ Ranges env c (given doc) := by
  change _ ↔ Ranges env c fun key => doc.lookup key
  have h1 : ∀ n : ℤ, (fun q : ℚ => decide (1 ≤ q)) n = true ↔ 1 ≤ n := fun n => by
    simp only [decide_eq_true_iff]; exact_mod_cast Iff.rfl
  have hcount := fun key d => readable_count doc key d 1 (fun q => decide (1 ≤ q)) h1
  cases c with
  | instrument =>
    simp only [Cls.fields, instrumentFields, List.forall_mem_cons, readable_text, readable_num,
      readable_span, readable_flag, readable_bool, Ranges, InstrumentRanges, Bool.and_eq_true, decide_eq_true_iff]
    tauto
  | pointed =>
    simp only [Cls.fields, instrumentFields, pointingFields, List.cons_append, List.nil_append, List.forall_mem_cons,
      readable_text, readable_num, readable_num_required, hcount,
      readable_span, readable_flag, readable_bool, Ranges, InstrumentRanges, PointingRanges, Bool.and_eq_true,
      decide_eq_true_iff]
    tauto
  | tle =>
    have hl : Reads doc ⟨"tle", none, fun v => match v with
        | .lines l => decide (2 ≤ l.length) && env.tleOk l
        | _ => false⟩ ↔ ∃ l, doc.lookup "tle" = some (.lines l) ∧ 2 ≤ l.length ∧ env.tleOk l = true := by
      unfold Reads
      cases h : doc.lookup "tle" with
      | none => simp
      | some v => cases v <;> simp
    simp only [Cls.fields, List.forall_mem_cons, readable_literal, Ranges]
    exact ⟨fun h => ⟨h.1, hl.mp h.2.1⟩, fun h => ⟨h.1, hl.mpr h.2, List.forall_mem_nil _⟩⟩
  | circular =>
    simp only [Cls.fields, orbitBase, altitude, angle, inclination, List.cons_append, List.nil_append,
      List.forall_mem_cons, readable_num, readable_num_required, readable_epoch,
      readable_literal, Ranges, OrbitRanges, PlaneRanges, Bool.and_eq_true, decide_eq_true_iff, and_true]
    tauto
  | sso =>
    simp only [Cls.fields, orbitBase, angle, List.cons_append, List.nil_append, readable_bool, readable_clock,
      List.forall_mem_cons, readable_num, readable_num_required, readable_epoch,
      readable_literal, Ranges, OrbitRanges, Bool.and_eq_true, decide_eq_true_iff]
    have hb : ∀ h : ℚ, h < 12352000 - (2 * 6378137 + 6356752314245179 / 1000000000) / 3 ↔
        3 * h < 3 * 12352000 - (2 * 6378137 + 6356752.314245179) := fun h => by
      constructor <;> intro hh <;> norm_num at hh ⊢ <;> linarith
    simp only [hb]
    constructor
    · rintro ⟨⟨h, hh, h0, hlt⟩, ha, he, hl, hc, hb, -⟩
      exact ⟨⟨⟨h, hh⟩, ha, he, hl⟩, ⟨h, hh, h0, hlt⟩, hc, hb⟩
    · rintro ⟨⟨-, ha, he, hl⟩, hh, hc, hb⟩
      exact ⟨hh, ha, he, hl, hc, hb, List.forall_mem_nil _⟩
  | keplerian =>
    simp only [Cls.fields, orbitBase, altitude, angle, inclination, eccentricity, List.cons_append, List.nil_append,
      List.forall_mem_cons, readable_num, readable_num_required, readable_epoch,
      readable_literal, Ranges, OrbitRanges, PlaneRanges, Bool.and_eq_true, decide_eq_true_iff, and_true]
    tauto
  | molniya =>
    simp only [Cls.fields, orbitBase, altitude, angle, inclination, orbitalPeriod, List.cons_append, List.nil_append,
      List.forall_mem_cons, readable_num, readable_num_required, readable_epoch,
      readable_literal, Ranges, OrbitRanges, PlaneRanges, Bool.and_eq_true, decide_eq_true_iff, and_true]
    tauto
  | tundra =>
    simp only [Cls.fields, orbitBase, altitude, angle, inclination, orbitalPeriod, eccentricity, List.cons_append,
      List.nil_append, List.forall_mem_cons, readable_num, readable_num_required, readable_epoch,
      readable_literal, Ranges, OrbitRanges, PlaneRanges, Bool.and_eq_true, decide_eq_true_iff, and_true]
    tauto
  | station =>
    simp only [Cls.fields, List.forall_mem_cons, readable_num, readable_num_required,
      readable_text_required, readable_span, Ranges, PlaceRanges, Bool.and_eq_true, decide_eq_true_iff]
    tauto
  | point =>
    have hi : Reads doc ⟨"id", none, isInt fun q => decide (0 ≤ q)⟩ ↔ ∃ n : ℕ, doc.lookup "id" = some (.num n) := by
      unfold isInt
      rw [readable_num_required]
      constructor
      · rintro ⟨q, hq, h⟩
        obtain ⟨n, rfl, hn⟩ := (isInt_iff (fun q => decide (0 ≤ q)) q).mp h
        have hn' : 0 ≤ n := by simpa using hn
        obtain ⟨m, rfl⟩ := Int.eq_ofNat_of_zero_le hn'
        exact ⟨m, by simpa using hq⟩
      · rintro ⟨n, hn⟩
        exact ⟨n, hn, (isInt_iff (fun q => decide (0 ≤ q)) _).mpr ⟨n, by simp, by simp⟩⟩
    simp only [Cls.fields, List.forall_mem_cons, readable_num, readable_num_required, hi,
      Ranges, PlaceRanges, Bool.and_eq_true, decide_eq_true_iff]
    tauto

/-- **C163.** An object is made exactly when every argument that must be given is given and every argument given is of
the documented type and in the documented range; otherwise there is a validation error. -/
theorem C163_exact (env : Env) (c : Cls) (doc : Doc) :
    ((∃ o, readObj env c doc = .ok o) ↔ Ranges env c (given doc)) ∧
    (¬ Ranges env c (given doc) → readObj env c doc = .error .validationError) := by
  have hr : ¬ Ranges env c (given doc) → readObj env c doc = .error .validationError := fun h => by
    unfold readObj
    rw [(read_total doc (c.fields env)).2 (fun hf => h ((fields_iff env c doc).mp hf))]
    rfl
  refine ⟨⟨?_, ?_⟩, hr⟩
  · rintro ⟨o, ho⟩
    by_contra h
    rw [hr h] at ho
    cases ho
  · intro h
    obtain ⟨vals, hv⟩ := (read_total doc (c.fields env)).1 ((fields_iff env c doc).mpr h)
    exact ⟨⟨c, vals⟩, by unfold readObj; rw [hv]; rfl⟩

theorem field_keys (env : Env) (c : Cls) (key : String) :
    key ∈ (c.fields env).map (·.key) ↔ key ∈ required c ∨ key ∈ (defaults env c).map (·.1) := by
  cases c <;>
  simp [Cls.fields, instrumentFields, pointingFields, orbitBase, altitude, literal, angle, inclination, orbitalPeriod,
    eccentricity, required, defaults, instrumentDefaults] <;> tauto

theorem field_defaults (env : Env) (c : Cls) : ∀ f ∈ c.fields env, f.default = (defaults env c).lookup f.key := by
  cases c <;>
  simp [Cls.fields, instrumentFields, pointingFields, orbitBase, altitude, literal, angle, inclination, orbitalPeriod,
    eccentricity, defaults, instrumentDefaults, List.lookup] <;> norm_num

/-- **C163, values.** The object has exactly the documented arguments; each has the value that was given, or else the
documented default. -/
theorem C163_values (env : Env) (c : Cls) (doc : Doc) (o : Obj) (h : readObj env c doc = .ok o) (key : String) :
    o.cls = c ∧
    (key ∈ required c ∨ key ∈ (defaults env c).map (·.1) →
      o.vals.lookup key = (doc.lookup key).or ((defaults env c).lookup key)) ∧
    (¬ (key ∈ required c ∨ key ∈ (defaults env c).map (·.1)) → o.vals.lookup key = none) := by
  obtain ⟨hc, hv⟩ := readObj_eq h
  refine ⟨hc, fun hk => ?_, fun hk => ?_⟩
  · rw [← field_keys, List.mem_map] at hk
    obtain ⟨f, hf, rfl⟩ := hk
    rw [read_values (cls_good env c).1 hv hf, field_defaults env c f hf]
  · rw [← field_keys] at hk
    have ha := aligned_of_read (cls_good env c) hv
    generalize c.fields env = fields at ha hk
    generalize o.vals = vals at ha
    induction ha with
    | nil => rfl
    | @cons f kv fs kvs h1 _ ih =>
      simp only [List.map_cons, List.mem_cons, not_or] at hk
      obtain ⟨k, v⟩ := kv
      rw [List.lookup_cons, beq_eq_false_iff_ne.mpr (fun e => hk.1 (e.trans h1.1))]
      exact ih hk.2

end Tatc.Props
