import Mathlib.Tactic.NormNum
import Mathlib.Data.List.Forall2
import Mathlib.Tactic.FinCases
import Verif.Model.Schema
import Verif.Lemmas.ExceptList

/-!
# Objects written to data and read back
-/

namespace Tatc.Props
open Tatc Tatc.Schema

/-! ## Fields -/

/-- Every field has a value, under its key and in order, that passes its check. -/
def Aligned (fields : List Field) (vals : Doc) : Prop :=
  List.Forall₂ (fun f kv => kv.1 = f.key ∧ f.ok kv.2 = true) fields vals

/-- Declarations of distinct keys whose defaults pass their checks. -/
def GoodFields (fields : List Field) : Prop :=
  (fields.map (·.key)).Nodup ∧ fields.all (fun f => f.default.all f.ok) = true

theorem cls_good (env : Env) (c : Cls) : GoodFields (c.fields env) := by
  cases c <;>
  · refine ⟨?_, ?_⟩ <;>
      simp [Cls.fields, instrumentFields, pointingFields, orbitBase, altitude, literal, angle, inclination,
        orbitalPeriod, eccentricity, isNum, isInt, isText, isSpan, isFlag, isBool, isEpoch] <;> norm_num

theorem sys_good (c : SysCls) : GoodFields c.fields := by
  cases c <;>
  · refine ⟨?_, ?_⟩ <;>
      simp [SysCls.fields, literal, count, isNum, isInt, isBool]

theorem readField_ok {doc : Doc} {f : Field} {kv : String × Scalar} (hd : f.default.all f.ok = true)
    (h : readField doc f = .ok kv) : kv.1 = f.key ∧ f.ok kv.2 = true := by
  unfold readField at h
  cases hl : doc.lookup f.key with
  | some v =>
    simp only [hl] at h
    split at h
    · cases h; exact ⟨rfl, by assumption⟩
    · cases h
  | none =>
    simp only [hl] at h
    cases hf : f.default with
    | some v =>
      simp only [hf] at h
      cases h
      rw [hf] at hd
      exact ⟨rfl, by simpa using hd⟩
    | none => simp only [hf] at h; cases h

theorem aligned_of_read {fields : List Field} (hg : GoodFields fields) {doc vals : Doc}
    (h : fields.mapM (readField doc) = .ok vals) : Aligned fields vals := by
  have h' := mapM_eq_ok _ _ _ h
  have hd := hg.2
  clear hg h
  induction h' with
  | nil => exact .nil
  | cons h1 _ ih =>
    simp only [List.all_cons, Bool.and_eq_true] at hd
    exact .cons (readField_ok hd.1 h1) (ih hd.2)

theorem Aligned.lookup {fields : List Field} {vals : Doc} (hn : (fields.map (·.key)).Nodup)
    (h : Aligned fields vals) {f : Field} (hf : f ∈ fields) :
    ∃ v, vals.lookup f.key = some v ∧ f.ok v = true := by
  induction h with
  | nil => simp at hf
  | @cons g kv gs kvs h1 h2 ih =>
    obtain ⟨k, v⟩ := kv
    obtain ⟨rfl, hok⟩ := h1
    simp only [List.map_cons, List.nodup_cons] at hn
    rcases List.mem_cons.mp hf with rfl | hf
    · exact ⟨v, by simp, hok⟩
    · have hne : f.key ≠ g.key := fun e => hn.1 (e ▸ List.mem_map_of_mem (f := (·.key)) hf)
      obtain ⟨w, hw, hok⟩ := ih hn.2 hf
      exact ⟨w, by rw [List.lookup_cons, beq_eq_false_iff_ne.mpr hne]; exact hw, hok⟩

/-- Values under the keys of the declarations are written out as they are. -/
theorem Aligned.write {fields : List Field} {vals : Doc} (hn : (fields.map (·.key)).Nodup)
    (h : Aligned fields vals) : writeFields fields vals = vals := by
  induction h with
  | nil => rfl
  | @cons g kv gs kvs h1 h2 ih =>
    obtain ⟨k, v⟩ := kv
    obtain ⟨rfl, hok⟩ := h1
    simp only [List.map_cons, List.nodup_cons] at hn
    unfold writeFields at ih ⊢
    rw [List.filterMap_cons]
    simp only [List.lookup_cons_self, Option.map_some]
    congr 1
    conv_rhs => rw [← ih hn.2]
    refine List.filterMap_congr fun f hf => ?_
    have hne : f.key ≠ g.key := fun e => hn.1 (e ▸ List.mem_map_of_mem (f := (·.key)) hf)
    rw [List.lookup_cons, beq_eq_false_iff_ne.mpr hne]

theorem lookup_writeFields {fields : List Field} {vals : Doc} {f : Field} (hf : f ∈ fields) :
    (writeFields fields vals).lookup f.key = vals.lookup f.key := by
  induction fields with
  | nil => simp at hf
  | cons g gs ih =>
    unfold writeFields at ih ⊢
    rw [List.filterMap_cons]
    by_cases hk : f.key = g.key
    · cases hv : vals.lookup g.key with
      | some v => simp [hk, hv]
      | none =>
        simp only [Option.map_none]
        rw [hk, hv]
        rw [List.lookup_eq_none_iff]
        intro kv hkv
        obtain ⟨f', hf', hv'⟩ := List.mem_filterMap.mp hkv
        cases hl : vals.lookup f'.key with
        | none => simp [hl] at hv'
        | some w =>
          simp only [hl, Option.map_some, Option.some.injEq] at hv'
          subst hv'
          simp only [bne_iff_ne, ne_eq]
          intro e
          rw [← e, hv] at hl
          cases hl
    · have hf' : f ∈ gs := by
        rcases List.mem_cons.mp hf with rfl | h
        · exact absurd rfl hk
        · exact h
      cases hv : vals.lookup g.key with
      | some v =>
        simp only [Option.map_some]
        rw [List.lookup_cons]
        simp only [beq_eq_false_iff_ne.mpr hk]
        exact ih hf'
      | none => exact ih hf'

/-- Data in which every field finds a value that passes is read as those values. -/
theorem read_write {fields : List Field} {vals : Doc}
    (h : ∀ f ∈ fields, ∃ v, vals.lookup f.key = some v ∧ f.ok v = true) :
    fields.mapM (readField (writeFields fields vals)) = .ok (writeFields fields vals) := by
  have hm : writeFields fields vals = fields.map fun f => (f.key, (vals.lookup f.key).getD .none) := by
    unfold writeFields
    rw [← List.filterMap_eq_map]
    refine List.filterMap_congr fun f hf => ?_
    obtain ⟨v, hv, -⟩ := h f hf
    simp [hv]
  conv_rhs => rw [hm]
  refine mapM_ok _ _ _ fun f hf => ?_
  obtain ⟨v, hv, hok⟩ := h f hf
  unfold readField
  rw [lookup_writeFields hf, hv]
  simp [hok]

/-- A value that was read from the data passed the check of its field. -/
theorem ok_of_read {fields : List Field} {doc vals : Doc} (h : fields.mapM (readField doc) = .ok vals)
    {f : Field} (hf : f ∈ fields) {v : Scalar} (hv : doc.lookup f.key = some v) : f.ok v = true := by
  have h' := mapM_eq_ok _ _ _ h
  clear h
  induction h' with
  | nil => simp at hf
  | cons h1 _ ih =>
    rcases List.mem_cons.mp hf with rfl | hf
    · unfold readField at h1
      rw [hv] at h1
      by_contra hc
      simp [hc] at h1
    · exact ih hf

/-- Reading fails only with a validation error. -/
theorem read_fails {fields : List Field} {doc : Doc} {f : Field} (hf : f ∈ fields) {v : Scalar}
    (hv : doc.lookup f.key = some v) (hok : f.ok v = false) :
    fields.mapM (readField doc) = .error .validationError := by
  refine mapM_error _ _ _ (fun g _ => ?_) ⟨f, hf, ?_⟩
  · unfold readField
    cases doc.lookup g.key with
    | some w => by_cases h : g.ok w = true <;> simp [h]
    | none => cases g.default <;> simp
  · unfold readField
    simp [hv, hok]

/-- Without a value in the data, the default is taken. -/
theorem default_of_read {fields : List Field} {doc vals : Doc} (hn : (fields.map (·.key)).Nodup)
    (h : fields.mapM (readField doc) = .ok vals) {f : Field} (hf : f ∈ fields) (hno : doc.lookup f.key = none)
    {v : Scalar} (hd : f.default = some v) : vals.lookup f.key = some v := by
  have h' := mapM_eq_ok _ _ _ h
  clear h
  induction h' with
  | nil => simp at hf
  | @cons g kv gs kvs h1 _ ih =>
    have hkey : kv.1 = g.key := by
      unfold readField at h1
      cases hl : doc.lookup g.key with
      | some w =>
        simp only [hl] at h1
        split at h1 <;> cases h1
        rfl
      | none =>
        simp only [hl] at h1
        cases hg : g.default with
        | some w => simp only [hg] at h1; cases h1; rfl
        | none => simp only [hg] at h1; cases h1
    obtain ⟨k, w⟩ := kv
    simp only at hkey
    subst hkey
    simp only [List.map_cons, List.nodup_cons] at hn
    rcases List.mem_cons.mp hf with rfl | hf
    · unfold readField at h1
      simp only [hno, hd] at h1
      cases h1
      simp
    · have hne : f.key ≠ g.key := fun e => hn.1 (e ▸ List.mem_map_of_mem (f := (·.key)) hf)
      rw [List.lookup_cons, beq_eq_false_iff_ne.mpr hne]
      exact ih hn.2 hf

/-! ## The import time -/

theorem fields_env {env env' : Env} (hsame : env'.tleOk = env.tleOk) (c : Cls) :
    (c.fields env').map (fun f => (f.key, f.ok)) = (c.fields env).map fun f => (f.key, f.ok) := by
  cases c <;> simp [Cls.fields, orbitBase, hsame]

theorem Aligned.env {env env' : Env} (hsame : env'.tleOk = env.tleOk) {c : Cls} {vals : Doc}
    (h : Aligned (c.fields env) vals) : Aligned (c.fields env') vals := by
  have key : ∀ e : Env, Aligned (c.fields e) vals ↔
      List.Forall₂ (fun (p : String × (Scalar → Bool)) (kv : String × Scalar) => kv.1 = p.1 ∧ p.2 kv.2 = true)
        ((c.fields e).map fun f => (f.key, f.ok)) vals := fun e => by
    rw [List.forall₂_map_left_iff]; rfl
  rw [key] at h ⊢
  rwa [fields_env hsame c]

theorem writeObj_env (env env' : Env) (c : Cls) (o : Obj) : writeObj env c o = writeObj env' c o := by
  have key : ∀ e : Env, writeObj e c o = ((c.fields e).map (·.key)).filterMap fun k =>
      (o.vals.lookup k).map fun v => (k, v) := fun e => by
    rw [List.filterMap_map]; rfl
  rw [key, key]
  congr 1
  cases c <;> rfl

/-! ## Objects -/

/-- The object was made by giving data to its class. -/
def Made (env : Env) (o : Obj) : Prop := ∃ doc, readObj env o.cls doc = .ok o

theorem readObj_eq {env : Env} {c : Cls} {doc : Doc} {o : Obj} (h : readObj env c doc = .ok o) :
    o.cls = c ∧ (c.fields env).mapM (readField doc) = .ok o.vals := by
  unfold readObj at h
  simp only [bind_eq_ok, pure, Except.pure, Except.ok.injEq] at h
  obtain ⟨vals, hv, rfl⟩ := h
  exact ⟨rfl, hv⟩

theorem Made.aligned {env : Env} {o : Obj} (h : Made env o) : Aligned (o.cls.fields env) o.vals := by
  obtain ⟨doc, h⟩ := h
  exact aligned_of_read (cls_good env _) (readObj_eq h).2

/-- **C104, one object.** An instrument, an orbit or a ground station that was made from any data, written out and
read back — in the same process or in another, started at another time — is the same. -/
theorem C104_object (env env' : Env) (hsame : env'.tleOk = env.tleOk) (c : Cls) (doc : Doc) (o : Obj)
    (h : readObj env c doc = .ok o) : readObj env' c (writeObj env c o) = .ok o := by
  obtain ⟨rfl, hv⟩ := readObj_eq h
  have ha := (aligned_of_read (cls_good env _) hv).env hsame
  have hw := ha.write (cls_good env' _).1
  have hr := read_write fun f hf => ha.lookup (cls_good env' _).1 hf
  rw [writeObj_env env env']
  unfold readObj writeObj
  rw [hr, hw]
  rfl

/-! ## Instruments and orbits within a satellite -/

/-- An instrument without its pointing: an `Instrument` with the six values it declares. -/
def plainInstrument (i : Obj) : Obj :=
  ⟨.instrument, (["name", "field_of_regard", "min_access_time", "req_self_sunlit", "req_target_sunlit",
    "access_time_fixed"] : List String).filterMap fun k => (i.vals.lookup k).map fun v => (k, v)⟩

theorem writeObj_instrument (env : Env) (i : Obj) : writeObj env .instrument i = (plainInstrument i).vals := rfl

theorem instrument_reload (env env' : Env) (hsame : env'.tleOk = env.tleOk) {i : Obj} (hm : Made env i)
    (hsub : i.cls.isSub .instrument = true) :
    acceptObj env' .instrument (.inl (writeObj env .instrument i)) = .ok (plainInstrument i) := by
  have ha := hm.aligned.env hsame
  have hmem : ∀ f ∈ Cls.fields env' .instrument, f ∈ i.cls.fields env' := by
    intro f hf
    simp only [Cls.isSub, decide_eq_true_eq] at hsub
    obtain ⟨cls, vals⟩ := i
    cases cls <;> simp [Cls.base] at hsub
    · exact hf
    · exact List.mem_append_left _ hf
  have hr := read_write (fields := Cls.fields env' .instrument) fun f hf =>
    ha.lookup (cls_good env' _).1 (hmem f hf)
  rw [writeObj_env env env']
  show readObj env' .instrument (writeObj env' .instrument i) = _
  unfold readObj
  rw [show writeObj env' .instrument i = writeFields (Cls.fields env' .instrument) i.vals from rfl, hr]
  rfl

theorem plainInstrument_self {env : Env} {i : Obj} (hm : Made env i) (hc : i.cls = .instrument) :
    plainInstrument i = i := by
  have h := hm.aligned.write (cls_good env _).1
  obtain ⟨cls, vals⟩ := i
  subst hc
  show Obj.mk .instrument (writeFields (Cls.fields env .instrument) vals) = _
  exact congrArg _ h

/-- The discriminator of an orbit class. -/
def discriminator : Cls → Option String
  | .tle => some "tle"
  | .circular => some "circular"
  | .sso => some "sso"
  | .keplerian => some "keplerian"
  | .molniya => some "molniya"
  | .tundra => some "tundra"
  | _ => none

theorem literal_mem (env : Env) {c : Cls} {s : String} (h : discriminator c = some s) :
    literal s ∈ c.fields env := by
  cases c <;> simp [discriminator] at h <;> subst h <;> simp [Cls.fields, orbitBase]

theorem type_of_made {env : Env} {o : Obj} (hm : Made env o) {s : String} (h : discriminator o.cls = some s) :
    o.vals.lookup "type" = some (.text s) := by
  obtain ⟨v, hv, hok⟩ := hm.aligned.lookup (cls_good env _).1 (literal_mem env h)
  simp only [literal, decide_eq_true_eq] at hok
  subst hok
  exact hv

/-- Data that name another class are refused. -/
theorem other_type_fails (env : Env) {c : Cls} {s t : String} (h : discriminator c = some s) {doc : Doc}
    (ht : doc.lookup "type" = some (.text t)) (hne : t ≠ s) : readObj env c doc = .error .validationError := by
  have := read_fails (fields := c.fields env) (doc := doc) (literal_mem env h) ht (by simp [literal, hne])
  unfold readObj
  rw [this]
  rfl

theorem findSome_unique {α β : Type} (g : α → Option β) (l : List α) (b : β) {a : α} (ha : a ∈ l)
    (hb : g a = some b) (h : ∀ x ∈ l, g x = none ∨ g x = some b) : l.findSome? g = some b := by
  induction l with
  | nil => simp at ha
  | cons x t ih =>
    rw [List.findSome?_cons]
    rcases h x List.mem_cons_self with hx | hx
    · rw [hx]
      rcases List.mem_cons.mp ha with rfl | ha
      · rw [hx] at hb; cases hb
      · exact ih ha fun y hy => h y (List.mem_cons_of_mem _ hy)
    · rw [hx]

/-- An orbit written out by a field that declares its class is read back by any field that does. -/
theorem orbit_reload (env env' : Env) (hsame : env'.tleOk = env.tleOk) {o : Obj} (hm : Made env o)
    {cs : List Cls} (hcs : ∀ c ∈ cs, (discriminator c).isSome) (hin : o.cls ∈ cs) :
    acceptUnion env' cs (.inl (writeUnion env cs o)) = .ok o := by
  obtain ⟨s, hs⟩ := Option.isSome_iff_exists.mp (hcs _ hin)
  have hdump : writeUnion env cs o = o.vals := by
    unfold writeUnion
    rw [if_pos hin]
    exact hm.aligned.write (cls_good env _).1
  have hself : readObj env' o.cls o.vals = .ok o := by
    obtain ⟨doc, hd⟩ := hm
    have := C104_object env env' hsame _ _ _ hd
    rwa [show writeObj env o.cls o = o.vals from by rwa [writeUnion, if_pos hin] at hdump] at this
  have htype := type_of_made hm hs
  unfold acceptUnion
  rw [hdump, findSome_unique _ _ o hin (by simp [acceptObj, hself, Except.toOption])]
  intro c hc
  by_cases hcc : c = o.cls
  · right; subst hcc; simp [acceptObj, hself, Except.toOption]
  · left
    obtain ⟨t, ht⟩ := Option.isSome_iff_exists.mp (hcs _ hc)
    have hne : s ≠ t := by
      rintro rfl
      apply hcc
      have : ∀ c d : Cls, discriminator c = some s → discriminator d = some s → c = d := by
        intro c d h1 h2
        cases c <;> simp [discriminator] at h1 <;> subst h1 <;> cases d <;> simp [discriminator] at h2 <;> rfl
      exact this _ _ ht hs
    simp [acceptObj, other_type_fails env' ht htype hne, Except.toOption]

/-! ## Satellites and constellations -/

/-- What was given for a field holding an object is data or an object made from data. -/
def GivenMade (env : Env) : Given → Prop
  | .inl _ => True
  | .inr o => Made env o

/-- The objects among the arguments of a satellite were made from data. -/
def ArgsMade (env : Env) (doc : SysDoc) : Prop :=
  (∀ g, doc.orbit = some g → GivenMade env g) ∧
  ∀ gs, doc.instruments = some gs → ∀ g ∈ gs, GivenMade env g

theorem made_of_accept {env : Env} {c : Cls} {g : Given} {o : Obj} (hg : GivenMade env g)
    (h : acceptObj env c g = .ok o) : Made env o ∧ o.cls.isSub c = true := by
  cases g with
  | inl doc =>
    have h' : readObj env c doc = .ok o := h
    obtain ⟨rfl, -⟩ := readObj_eq h'
    exact ⟨⟨doc, h'⟩, by simp [Cls.isSub]⟩
  | inr o' =>
    simp only [acceptObj] at h
    split at h
    · cases h; exact ⟨hg, by assumption⟩
    · cases h

theorem made_of_union {env : Env} {cs : List Cls} {g : Given} {o : Obj} (hg : GivenMade env g)
    (h : acceptUnion env cs g = .ok o) : Made env o ∧ ∃ c ∈ cs, o.cls.isSub c = true := by
  unfold acceptUnion at h
  split at h
  · rename_i o' ho'
    cases h
    obtain ⟨c, hc, hco⟩ := List.exists_of_findSome?_eq_some ho'
    cases hac : acceptObj env c g with
    | error e => rw [hac] at hco; cases hco
    | ok o'' =>
      rw [hac] at hco
      cases hco
      exact ⟨(made_of_accept hg hac).1, c, hc, (made_of_accept hg hac).2⟩
  · cases h

/-- What a satellite that was made is like. -/
structure SysMade (env : Env) (s : Sys) : Prop where
  aligned : Aligned s.cls.fields s.vals
  orbit : Made env s.orbit
  declared : ∃ c ∈ s.cls.orbits, s.orbit.cls.isSub c = true
  instruments : ∀ i ∈ s.instruments, Made env i ∧ i.cls.isSub .instrument = true
  nonempty : s.instruments ≠ []
  check : s.cls.check s.vals = true

theorem readSys_made {env : Env} {c : SysCls} {doc : SysDoc} {s : Sys} (ha : ArgsMade env doc)
    (h : readSys env c doc = .ok s) : s.cls = c ∧ SysMade env s := by
  unfold readSys at h
  simp only [bind_eq_ok, require_eq_ok, pure, Except.pure, Except.ok.injEq] at h
  obtain ⟨vals, hv, orbit, ho, ins, hi, -, hne, -, hch, rfl⟩ := h
  refine ⟨rfl, ⟨aligned_of_read (sys_good _) hv, ?_, ?_, ?_, hne, hch⟩⟩
  · cases hg : doc.orbit with
    | none => rw [hg] at ho; cases ho
    | some g => rw [hg] at ho; exact (made_of_union (ha.1 g hg) ho).1
  · cases hg : doc.orbit with
    | none => rw [hg] at ho; cases ho
    | some g => rw [hg] at ho; exact (made_of_union (ha.1 g hg) ho).2
  · cases hg : doc.instruments with
    | none =>
      rw [hg] at hi
      simp only [readInstruments] at hi
      cases hr : readObj env .instrument [] with
      | error e => rw [hr] at hi; cases hi
      | ok o =>
        rw [hr] at hi
        cases hi
        intro i hi'
        obtain rfl := List.mem_singleton.mp hi'
        obtain ⟨hc, -⟩ := readObj_eq hr
        exact ⟨⟨[], by rw [hc]; exact hr⟩, by simp [Cls.isSub, hc]⟩
    | some gs =>
      rw [hg] at hi
      have hf := mapM_eq_ok _ _ _ hi
      have hall := ha.2 gs hg
      intro i hi'
      clear hi hne hch hg
      induction hf with
      | nil => simp at hi'
      | cons h1 _ ih =>
        rcases List.mem_cons.mp hi' with rfl | hi'
        · exact made_of_accept (hall _ List.mem_cons_self) h1
        · exact ih (fun g hg => hall g (List.mem_cons_of_mem _ hg)) hi'

/-- **C104, the general case.** A satellite, train or Walker constellation — or another constellation on a circular
orbit — written out and read back is the same except that all instruments come back without their pointing. -/
theorem C104_reload (env env' : Env) (hsame : env'.tleOk = env.tleOk) (c : SysCls) (doc : SysDoc) (s : Sys)
    (hargs : ArgsMade env doc) (h : readSys env c doc = .ok s)
    (horb : c = .satellite ∨ c = .train ∨ c = .walker ∨ s.orbit.cls = .circular) :
    readSys env' c (writeSys env c s) = .ok { s with instruments := s.instruments.map plainInstrument } := by
  obtain ⟨rfl, hm⟩ := readSys_made hargs h
  have hin : s.orbit.cls ∈ s.cls.orbits := by
    obtain ⟨c, hc, hsub⟩ := hm.declared
    simp only [Cls.isSub, decide_eq_true_eq] at hsub
    rcases hsub with e | e
    · exact e ▸ hc
    · obtain ⟨cls, vals, ⟨oc, ov⟩, ins⟩ := s
      cases cls <;> cases oc <;> simp_all [Cls.base, SysCls.orbits] <;> subst e <;> simp at hc
  have hall : ∀ c ∈ s.cls.orbits, (discriminator c).isSome := by
    cases s.cls <;> simp [SysCls.orbits, discriminator]
  have hins : (s.instruments.map fun i => (Sum.inl (writeObj env .instrument i) : Given)).mapM
      (acceptObj env' .instrument) = .ok (s.instruments.map plainInstrument) := by
    rw [List.mapM_map]
    exact mapM_ok _ _ _ fun i hi => instrument_reload env env' hsame (hm.instruments i hi).1 (hm.instruments i hi).2
  unfold readSys writeSys
  simp only [bind_eq_ok, require_eq_ok, pure, Except.pure, Except.ok.injEq]
  refine ⟨s.vals, ?_, s.orbit, orbit_reload env env' hsame hm.orbit hall hin, _, hins, (), ?_, (), hm.check, rfl⟩
  · rw [read_write fun f hf => hm.aligned.lookup (sys_good _).1 hf, hm.aligned.write (sys_good _).1]
  · simpa using hm.nonempty

/-- **C104.** With plain instruments it is the same. -/
theorem C104_satellite (env env' : Env) (hsame : env'.tleOk = env.tleOk) (c : SysCls) (doc : SysDoc) (s : Sys)
    (hargs : ArgsMade env doc) (h : readSys env c doc = .ok s)
    (horb : c = .satellite ∨ c = .train ∨ c = .walker ∨ s.orbit.cls = .circular)
    (hplain : ∀ i ∈ s.instruments, i.cls = .instrument) :
    readSys env' c (writeSys env c s) = .ok s := by
  rw [C104_reload env env' hsame c doc s hargs h horb]
  have hm := (readSys_made hargs h).2
  congr 1
  obtain ⟨cls, vals, orbit, ins⟩ := s
  congr 1
  conv_rhs => rw [← List.map_id ins]
  exact List.map_congr_left fun i hi => plainInstrument_self (hm.instruments i hi).1 (hplain i hi)

/-- An import at time 0; any two line elements pass. -/
def sampleEnv : Env := ⟨0, fun _ => true⟩

/-- A pointed instrument looking 30 degrees to the side. -/
def sidewaysDoc : Doc := [("name", .text "Imager"), ("field_of_regard", .num 60),
  ("cross_track_field_of_view", .num 10), ("along_track_field_of_view", .num 10), ("roll_angle", .num 30)]

/-- The instrument made from these data. -/
def sideways : Obj := ⟨.pointed, [("name", .text "Imager"), ("field_of_regard", .num 60),
  ("min_access_time", .span 0), ("req_self_sunlit", .none), ("req_target_sunlit", .none),
  ("access_time_fixed", .bool false), ("cross_track_field_of_view", .num 10), ("along_track_field_of_view", .num 10),
  ("roll_angle", .num 30), ("pitch_angle", .num 0), ("is_rectangular", .bool false), ("cross_track_pixels", .num 1),
  ("along_track_pixels", .num 1), ("cross_track_oversampling", .num 0), ("along_track_oversampling", .num 0)]⟩

theorem sideways_made : Made sampleEnv sideways := ⟨sidewaysDoc, by rfl⟩

/-- An orbit at 400 km with eccentricity 0.01. -/
def ellipticDoc : Doc := [("type", .text "keplerian"), ("altitude", .num 400000), ("inclination", .num 51),
  ("eccentricity", .num (1 / 100))]

/-- The orbit made from these data. -/
def elliptic : Obj := ⟨.keplerian, [("altitude", .num 400000), ("true_anomaly", .num 0), ("epoch", .time 0),
  ("type", .text "keplerian"), ("inclination", .num 51), ("right_ascension_ascending_node", .num 0),
  ("eccentricity", .num (1 / 100)), ("perigee_argument", .num 0)]⟩

theorem elliptic_made : Made sampleEnv elliptic := ⟨ellipticDoc, by decide +kernel⟩

/-- A Walker constellation of 6 satellites in 3 planes on that orbit with a default instrument. -/
def walkerDoc : SysDoc where
  vals := [("name", .text "W"), ("number_satellites", .num 6), ("number_planes", .num 3), ("relative_spacing", .num 1)]
  orbit := some (.inr elliptic)
  instruments := none

/-- The constellation made from these data. -/
def walkerSys : Sys where
  cls := .walker
  vals := [("name", .text "W"), ("type", .text "walker"), ("configuration", .text "delta"),
    ("number_satellites", .num 6), ("number_planes", .num 3), ("relative_spacing", .num 1)]
  orbit := elliptic
  instruments := [⟨.instrument, [("name", .text "Default"), ("field_of_regard", .num 180),
    ("min_access_time", .span 0), ("req_self_sunlit", .none), ("req_target_sunlit", .none),
    ("access_time_fixed", .bool false)]⟩]

theorem walker_made : readSys sampleEnv .walker walkerDoc = .ok walkerSys := by rfl

theorem walkerArgs : ArgsMade sampleEnv walkerDoc :=
  ⟨fun g hg => by cases hg; exact elliptic_made, fun gs hgs => by cases hgs⟩

/-- The hypotheses of `C104_satellite` hold of it. -/
example : readSys ⟨77, fun _ => true⟩ .walker (writeSys sampleEnv .walker walkerSys) = .ok walkerSys :=
  C104_satellite sampleEnv ⟨77, fun _ => true⟩ rfl .walker walkerDoc walkerSys walkerArgs walker_made
    (by decide) (by decide)

/-- **C104 is false of pointed instruments**: a satellite whose instrument looks 30 degrees to the side has, after
`model_dump` and reading back, an instrument that is not pointed; no error is raised. -/
theorem C104_pointed_false : ∃ (doc : SysDoc) (s s' : Sys), ArgsMade sampleEnv doc ∧
    readSys sampleEnv .satellite doc = .ok s ∧
    s.instruments.map (fun i => (i.cls, i.vals.lookup "roll_angle")) = [(.pointed, some (.num 30))] ∧
    readSys sampleEnv .satellite (writeSys sampleEnv .satellite s) = .ok s' ∧
    s'.instruments.map (fun i => (i.cls, i.vals.lookup "roll_angle")) = [(.instrument, none)] := by
  refine ⟨⟨[("name", .text "S")], some (.inr elliptic), some [.inr sideways]⟩,
    ⟨.satellite, [("name", .text "S"), ("type", .text "satellite")], elliptic, [sideways]⟩,
    ⟨.satellite, [("name", .text "S"), ("type", .text "satellite")], elliptic, [plainInstrument sideways]⟩,
    ⟨?_, ?_⟩, by rfl, by rfl, ?_, by rfl⟩
  · intro g hg; cases hg; exact elliptic_made
  · intro gs hgs g hg
    cases hgs
    obtain rfl := List.mem_singleton.mp hg
    exact sideways_made
  · exact C104_reload sampleEnv sampleEnv rfl .satellite
      ⟨[("name", .text "S")], some (.inr elliptic), some [.inr sideways]⟩ _
      ⟨fun g hg => by cases hg; exact elliptic_made, fun gs hgs g hg => by
        cases hgs; obtain rfl := List.mem_singleton.mp hg; exact sideways_made⟩ (by rfl) (Or.inl rfl)

/-- The same data given directly: data for a pointed instrument within the data for a satellite make an instrument that
is not pointed, whatever the satellite. -/
theorem C104_instrument_data (env : Env) (c : SysCls) (vals : Doc) (orbit : Option Given) (docs : List Doc) (s : Sys)
    (h : readSys env c ⟨vals, orbit, some (docs.map .inl)⟩ = .ok s) :
    s.instruments.length = docs.length ∧ ∀ i ∈ s.instruments, i.cls = .instrument := by
  unfold readSys readInstruments at h
  simp only [bind_eq_ok, require_eq_ok, pure, Except.pure, Except.ok.injEq] at h
  obtain ⟨_, -, _, -, ins, hi, -, -, -, -, rfl⟩ := h
  rw [List.mapM_map] at hi
  have hf := mapM_eq_ok _ _ _ hi
  refine ⟨hf.length_eq.symm, fun i hi' => ?_⟩
  clear hi
  induction hf with
  | nil => simp at hi'
  | cons h1 _ ih =>
    rcases List.mem_cons.mp hi' with rfl | hi'
    · exact (readObj_eq (show readObj env .instrument _ = _ from h1)).1
    · exact ih hi'

/-- **C104 is false of mutual orbiting groups and streets of coverage on an elliptic orbit**: what they write out
is refused when it is read. -/
theorem C104_elliptic_refused (env env' : Env) (c : SysCls) (hc : c = .mog ∨ c = .soc) (doc : SysDoc) (s : Sys)
    (hargs : ArgsMade env doc) (h : readSys env c doc = .ok s) (horb : s.orbit.cls = .keplerian) :
    readSys env' c (writeSys env c s) = .error .validationError := by
  obtain ⟨rfl, hm⟩ := readSys_made hargs h
  have ht := type_of_made hm.orbit (s := "keplerian") (by rw [horb]; rfl)
  have ho : readOrbit env' s.cls.orbits (some (.inl (writeUnion env s.cls.orbits s.orbit))) =
      .error .validationError := by
    have horbs : s.cls.orbits = [.circular] := by rcases hc with e | e <;> rw [e] <;> rfl
    rw [horbs]
    have hw : writeUnion env [.circular] s.orbit = writeObj env .circular s.orbit := by
      unfold writeUnion
      rw [horb]
      rfl
    have hl : (writeObj env .circular s.orbit).lookup "type" = some (.text "keplerian") := by
      rw [← ht]
      exact lookup_writeFields (fields := Cls.fields env .circular) (f := literal "circular")
        (literal_mem env (c := .circular) rfl)
    rw [hw]
    simp only [readOrbit, acceptUnion]
    simp [acceptObj, other_type_fails env' (c := .circular) rfl hl (by decide), Except.toOption]
  unfold readSys writeSys
  simp only
  rw [read_write fun f hf => hm.aligned.lookup (sys_good _).1 hf, ho]
  rfl

/-- A mutual orbiting group on an elliptic orbit can be made. -/
theorem C104_mutual_group_false : ∃ (doc : SysDoc) (s : Sys), ArgsMade sampleEnv doc ∧
    readSys sampleEnv .mog doc = .ok s ∧
    readSys sampleEnv .mog (writeSys sampleEnv .mog s) = .error .validationError := by
  have ha : ArgsMade sampleEnv ⟨[("name", .text "M"), ("parallel_axis", .num 1000), ("transverse_axis", .num 500)],
      some (.inr elliptic), none⟩ := ⟨fun g hg => by cases hg; exact elliptic_made, fun gs hgs => by cases hgs⟩
  refine ⟨_, ⟨.mog, [("name", .text "M"), ("type", .text "mog"), ("parallel_axis", .num 1000),
    ("transverse_axis", .num 500), ("clockwise", .bool true), ("number_satellites", .num 2)], elliptic,
    walkerSys.instruments⟩, ha, by rfl, ?_⟩
  exact C104_elliptic_refused sampleEnv sampleEnv .mog (Or.inl rfl) _ _ ha (by rfl) rfl

/-! ## Architectures -/

/-- The discriminator of a satellite or constellation. -/
def sysDiscriminator : SysCls → String
  | .satellite => "satellite"
  | .train => "train"
  | .walker => "walker"
  | .mog => "mog"
  | .soc => "soc"

theorem sysDiscriminator_inj {c d : SysCls} (h : sysDiscriminator c = sysDiscriminator d) : c = d := by
  cases c <;> cases d <;> first | rfl | (revert h; decide)

theorem sysLiteral_mem (c : SysCls) : literal (sysDiscriminator c) ∈ c.fields := by
  cases c <;> simp [SysCls.fields, sysDiscriminator]

theorem sys_type {env : Env} {s : Sys} (hm : SysMade env s) :
    s.vals.lookup "type" = some (.text (sysDiscriminator s.cls)) := by
  obtain ⟨v, hv, hok⟩ := hm.aligned.lookup (sys_good _).1 (sysLiteral_mem s.cls)
  simp only [literal, decide_eq_true_eq] at hok
  subst hok
  exact hv

theorem other_sys_fails (env : Env) {c : SysCls} {doc : SysDoc} {t : String}
    (ht : doc.vals.lookup "type" = some (.text t)) (hne : t ≠ sysDiscriminator c) :
    readSys env c doc = .error .validationError := by
  have := read_fails (fields := c.fields) (doc := doc.vals) (sysLiteral_mem c) ht (by simp [literal, hne])
  unfold readSys
  rw [this]
  rfl

/-- The satellites among the arguments of an architecture, and the stations, were made from data. -/
def ArchArgsMade (env : Env) (doc : ArchDoc) : Prop :=
  (∀ g ∈ doc.satellites, match g with
    | .inl d => ArgsMade env d
    | .inr s => SysMade env s) ∧
  ∀ g ∈ doc.stations, GivenMade env g

theorem mapM_mem {α β : Type} {f : α → Except PyErr β} {l : List α} {bs : List β} (h : l.mapM f = .ok bs) :
    ∀ b ∈ bs, ∃ a ∈ l, f a = .ok b := by
  have hf := mapM_eq_ok _ _ _ h
  clear h
  induction hf with
  | nil => simp
  | cons h1 _ ih =>
    intro b hb
    rcases List.mem_cons.mp hb with rfl | hb
    · exact ⟨_, List.mem_cons_self, h1⟩
    · obtain ⟨a, ha, he⟩ := ih b hb
      exact ⟨a, List.mem_cons_of_mem _ ha, he⟩

theorem acceptSys_made {env : Env} {g : SysDoc ⊕ Sys} {s : Sys} (hg : match g with
    | .inl d => ArgsMade env d
    | .inr s => SysMade env s) (h : acceptSys env g = .ok s) : SysMade env s := by
  unfold acceptSys at h
  split at h
  · rename_i s' hs'
    cases h
    obtain ⟨c, -, hc⟩ := List.exists_of_findSome?_eq_some hs'
    cases g with
    | inl d =>
      simp only at hc hg
      cases hr : readSys env c d with
      | error e => rw [hr] at hc; cases hc
      | ok s'' =>
        rw [hr] at hc
        cases hc
        exact (readSys_made hg hr).2
    | inr s'' =>
      simp only at hc hg
      split at hc
      · cases hc; exact hg
      · cases hc
  · cases h

theorem readArch_eq {env : Env} {doc : ArchDoc} {a : Arch} (h : readArch env doc = .ok a) :
    a.name = doc.name ∧ doc.satellites.mapM (acceptSys env) = .ok a.satellites ∧
    doc.stations.mapM (acceptObj env .station) = .ok a.stations := by
  unfold readArch at h
  simp only [bind_eq_ok, pure, Except.pure, Except.ok.injEq] at h
  obtain ⟨sats, hs, stations, ht, rfl⟩ := h
  exact ⟨rfl, hs, ht⟩

theorem stations_reload (env env' : Env) (hsame : env'.tleOk = env.tleOk) {doc : ArchDoc} {a : Arch}
    (hargs : ArchArgsMade env doc) (h : readArch env doc = .ok a) :
    (a.stations.map fun o => (Sum.inl (writeObj env .station o) : Given)).mapM (acceptObj env' .station) =
      .ok a.stations := by
  rw [List.mapM_map]
  have := mapM_ok (fun o => acceptObj env' .station (.inl (writeObj env .station o))) id a.stations fun o ho => by
    obtain ⟨g, hg, he⟩ := mapM_mem (readArch_eq h).2.2 o ho
    obtain ⟨hm, hsub⟩ := made_of_accept (hargs.2 g hg) he
    have hc : o.cls = .station := by
      simp only [Cls.isSub, decide_eq_true_eq] at hsub
      rcases hsub with e | e
      · exact e
      · obtain ⟨cls, vals⟩ := o
        cases cls <;> simp [Cls.base] at e
    obtain ⟨d, hd⟩ := hm
    rw [hc] at hd
    exact C104_object env env' hsame .station d o hd
  rw [List.map_id] at this
  exact this

/-- **C104, architectures.** An architecture of satellites and of train, Walker and mutual-orbit constellations (these
on circular orbits), with plain instruments, written out and read back is the same. -/
theorem C104_architecture (env env' : Env) (hsame : env'.tleOk = env.tleOk) (doc : ArchDoc) (a : Arch)
    (hargs : ArchArgsMade env doc) (h : readArch env doc = .ok a)
    (hcls : ∀ s ∈ a.satellites, s.cls ≠ .soc)
    (horb : ∀ s ∈ a.satellites, s.cls = .mog → s.orbit.cls = .circular)
    (hplain : ∀ s ∈ a.satellites, ∀ i ∈ s.instruments, i.cls = .instrument) :
    readArch env' (writeArch env a) = .ok a := by
  have hsats : (a.satellites.map fun s => (Sum.inl (writeEntry env s) : SysDoc ⊕ Sys)).mapM (acceptSys env') =
      .ok a.satellites := by
    rw [List.mapM_map]
    have := mapM_ok (fun s => acceptSys env' (.inl (writeEntry env s))) id a.satellites fun s hs => by
      obtain ⟨g, hg, he⟩ := mapM_mem (readArch_eq h).2.1 s hs
      have hm := acceptSys_made (hargs.1 g hg) he
      have hin : s.cls ∈ archClasses := by
        have := hcls s hs
        revert this
        cases s.cls <;> decide
      have hself : readSys env' s.cls (writeEntry env s) = .ok s := by
        unfold writeEntry
        rw [if_pos hin]
        have hre : readSys env s.cls ⟨s.vals, some (.inr s.orbit), some (s.instruments.map .inr)⟩ = .ok s := by
          unfold readSys
          simp only [bind_eq_ok, require_eq_ok, pure, Except.pure, Except.ok.injEq]
          refine ⟨s.vals, ?_, s.orbit, ?_, s.instruments, ?_, (), hm.nonempty, (), hm.check, rfl⟩
          · have := read_write fun f hf => hm.aligned.lookup (sys_good _).1 hf
            rwa [hm.aligned.write (sys_good _).1] at this
          · obtain ⟨c, hc, hsub⟩ := hm.declared
            simp only [readOrbit, acceptUnion]
            rw [findSome_unique _ _ s.orbit hc (by simp [acceptObj, hsub, Except.toOption])]
            intro c' _
            by_cases hs' : s.orbit.cls.isSub c' = true <;> simp [acceptObj, hs', Except.toOption]
          · show (s.instruments.map Sum.inr).mapM _ = _
            rw [List.mapM_map]
            have := mapM_ok (fun i => acceptObj env .instrument (.inr i)) id s.instruments fun i hi => by
              simp [acceptObj, (hm.instruments i hi).2]
            rw [List.map_id] at this
            exact this
        refine C104_satellite env env' hsame s.cls _ s ⟨?_, ?_⟩ hre ?_ (hplain s hs)
        · intro g hg
          cases hg
          exact hm.orbit
        · intro gs hgs g hg
          cases hgs
          obtain ⟨i, hi, rfl⟩ := List.mem_map.mp hg
          exact (hm.instruments i hi).1
        · have h1 := hcls s hs
          have h2 := horb s hs
          revert h1 h2
          cases s.cls <;> simp
      have htype : (writeEntry env s).vals.lookup "type" = some (.text (sysDiscriminator s.cls)) := by
        unfold writeEntry
        rw [if_pos hin]
        exact (lookup_writeFields (sysLiteral_mem s.cls)).trans (sys_type hm)
      unfold acceptSys
      rw [findSome_unique _ _ s hin (by simp [hself, Except.toOption])]
      · rfl
      intro c _
      by_cases hcc : c = s.cls
      · right; subst hcc; simp [hself, Except.toOption]
      · left
        have hne : sysDiscriminator s.cls ≠ sysDiscriminator c := fun e => hcc (sysDiscriminator_inj e).symm
        simp [other_sys_fails env' htype hne, Except.toOption]
    rw [List.map_id] at this
    exact this
  unfold readArch writeArch
  simp only [bind_eq_ok, pure, Except.pure, Except.ok.injEq]
  exact ⟨_, hsats, _, stations_reload env env' hsame hargs h, rfl⟩

/-- **C104 is false of streets of coverage in an architecture**: an architecture takes one, and what it writes out is
refused when it is read. -/
theorem C104_streets_refused (env env' : Env) (doc : ArchDoc) (a : Arch)
    (hargs : ArchArgsMade env doc) (h : readArch env doc = .ok a) (s : Sys) (hs : s ∈ a.satellites)
    (hsoc : s.cls = .soc) : ∃ e, readArch env' (writeArch env a) = .error e := by
  obtain ⟨g, hg, he⟩ := mapM_mem (readArch_eq h).2.1 s hs
  have hm := acceptSys_made (hargs.1 g hg) he
  have htype : (writeEntry env s).vals.lookup "type" = some (.text "soc") := by
    unfold writeEntry
    rw [if_neg (by rw [hsoc]; decide)]
    refine (lookup_writeFields (f := literal "satellite") (sysLiteral_mem .satellite)).trans ?_
    have := sys_type hm
    rw [hsoc] at this
    exact this
  have hfail : acceptSys env' (.inl (writeEntry env s)) = .error .validationError := by
    unfold acceptSys
    rw [List.findSome?_eq_none_iff.mpr]
    intro c hc
    have hne : "soc" ≠ sysDiscriminator c := by
      intro e
      have := sysDiscriminator_inj (c := .soc) e
      subst this
      revert hc
      decide
    simp [other_sys_fails env' htype hne, Except.toOption]
  cases hr : readArch env' (writeArch env a) with
  | error e => exact ⟨e, rfl⟩
  | ok a' =>
    exfalso
    have hs' := (readArch_eq hr).2.1
    have hf := mapM_eq_ok _ _ _ hs'
    have : ∀ (l : List (SysDoc ⊕ Sys)) (l' : List Sys), List.Forall₂ (fun a b => acceptSys env' a = .ok b) l l' →
        ∀ g ∈ l, ∃ b, acceptSys env' g = .ok b := by
      intro l l' hl
      induction hl with
      | nil => simp
      | cons h1 _ ih =>
        intro g hg
        rcases List.mem_cons.mp hg with rfl | hg
        · exact ⟨_, h1⟩
        · exact ih g hg
    obtain ⟨b, hb⟩ := this _ _ hf (.inl (writeEntry env s)) (List.mem_map_of_mem hs)
    rw [hfail] at hb
    cases hb

/-! ## Which orbits a satellite takes -/

/-- **C105 is false**: no satellite or constellation takes a Molniya or Tundra orbit, as an object or as data. -/
theorem C105_orbits_false (env : Env) (c : SysCls) (doc : SysDoc) (g : Given) (hg : doc.orbit = some g)
    (hm : (∃ o, g = .inr o ∧ (o.cls = .molniya ∨ o.cls = .tundra)) ∨
      ∃ d, g = .inl d ∧ (d.lookup "type" = some (.text "molniya") ∨ d.lookup "type" = some (.text "tundra"))) :
    ∃ e, readSys env c doc = .error e := by
  have ho : readOrbit env c.orbits doc.orbit = .error .validationError := by
    rw [hg]
    simp only [readOrbit, acceptUnion]
    rw [List.findSome?_eq_none_iff.mpr]
    intro k hk
    rcases hm with ⟨o, rfl, ho⟩ | ⟨d, rfl, hd⟩
    · have : o.cls.isSub k = false := by
        obtain ⟨cls, vals⟩ := o
        rcases ho with e | e <;> simp only at e <;> subst e <;> cases c <;>
          fin_cases hk <;> rfl
      simp [acceptObj, this, Except.toOption]
    · have hk' : ∃ s, discriminator k = some s ∧ s ≠ "molniya" ∧ s ≠ "tundra" := by
        cases c <;> fin_cases hk <;> exact ⟨_, rfl, by decide, by decide⟩
      obtain ⟨s, hs, h1, h2⟩ := hk'
      rcases hd with hd | hd
      · simp [acceptObj, other_type_fails env hs hd (Ne.symm h1), Except.toOption]
      · simp [acceptObj, other_type_fails env hs hd (Ne.symm h2), Except.toOption]
  unfold readSys
  cases c.fields.mapM (readField doc.vals) with
  | error e => exact ⟨e, rfl⟩
  | ok vals => rw [ho]; exact ⟨_, rfl⟩

/-- **C105 for the other orbits**: two line elements, circular, sun-synchronous and Keplerian orbits, as objects, are
taken by satellites, trains and Walker constellations and kept as they are. -/
theorem C105_orbits_partial (env : Env) (c : SysCls) (hc : c = .satellite ∨ c = .train ∨ c = .walker) (doc : SysDoc)
    (o : Obj) (hg : doc.orbit = some (.inr o))
    (ho : o.cls = .tle ∨ o.cls = .circular ∨ o.cls = .sso ∨ o.cls = .keplerian)
    (vals : Doc) (hv : c.fields.mapM (readField doc.vals) = .ok vals) (hcheck : c.check vals = true)
    (hi : doc.instruments = none) :
    ∃ s, readSys env c doc = .ok s ∧ s.orbit = o := by
  have hor : readOrbit env c.orbits doc.orbit = .ok o := by
    rw [hg]
    simp only [readOrbit, acceptUnion]
    have hin : o.cls ∈ c.orbits := by
      rcases hc with rfl | rfl | rfl <;> rcases ho with e | e | e | e <;> rw [e] <;> decide
    rw [findSome_unique _ _ o hin (by simp [acceptObj, Cls.isSub, Except.toOption])]
    intro k _
    by_cases h : o.cls.isSub k = true <;> simp [acceptObj, h, Except.toOption]
  refine ⟨⟨c, vals, o, walkerSys.instruments⟩, ?_, rfl⟩
  unfold readSys
  simp only [bind_eq_ok, require_eq_ok, pure, Except.pure, Except.ok.injEq]
  exact ⟨_, hv, _, hor, walkerSys.instruments, by rw [hi]; rfl, (), by decide, (), hcheck, rfl⟩

/-! ## The default epoch -/

/-- **C106, with an epoch.** Data that give an epoch make the same orbit in every process. -/
theorem C106_given_epoch (env env' : Env) (hsame : env'.tleOk = env.tleOk) (c : Cls) (doc : Doc) (v : Scalar)
    (hv : doc.lookup "epoch" = some v) : readObj env' c doc = readObj env c doc := by
  unfold readObj
  have : (c.fields env').mapM (readField doc) = (c.fields env).mapM (readField doc) := by
    cases c <;> simp [Cls.fields, orbitBase, List.mapM_cons, readField, hv, hsame]
  rw [this]

/-- **C106 is false without one**: the epoch is the time at which the library was imported, so that the same data make
another orbit in another process. -/
theorem C106_default_epoch_false (env env' : Env) (c : Cls) (hc : discriminator c ≠ none) (htle : c ≠ .tle)
    (doc : Doc) (hno : doc.lookup "epoch" = none) (o : Obj) (h : readObj env c doc = .ok o) :
    o.vals.lookup "epoch" = some (.time env.imported) ∧
    (env'.imported ≠ env.imported → readObj env' c doc ≠ .ok o) := by
  have key : ∀ (e : Env) (o : Obj), readObj e c doc = .ok o → o.vals.lookup "epoch" = some (.time e.imported) := by
    intro e o h
    obtain ⟨-, hv⟩ := readObj_eq h
    have hmem : (⟨"epoch", some (.time e.imported), isEpoch⟩ : Field) ∈ c.fields e := by
      cases c <;> simp [discriminator] at hc htle <;> simp [Cls.fields, orbitBase]
    exact default_of_read (cls_good e c).1 hv hmem hno rfl
  exact ⟨key env o h, fun hne h' => hne (by
    have h1 := key env o h
    have h2 := key env' o h'
    rw [h1] at h2
    simpa using h2.symm)⟩

/-! ## Concrete cases -/

theorem walkerSys_sysMade : SysMade sampleEnv walkerSys := (readSys_made walkerArgs walker_made).2

/-- A ground station. -/
def sampleStation : Doc := [("name", .text "G"), ("latitude", .num 40), ("longitude", .num (-74))]

/-- An architecture with the Walker constellation, given as an object, and a station, given as data. -/
def sampleArch : ArchDoc := ⟨"A", [.inr walkerSys], [.inl sampleStation]⟩

/-- The architecture made from these data. -/
def sampleArchMade : Arch := ⟨"A", [walkerSys], [⟨.station, [("name", .text "G"), ("latitude", .num 40),
  ("longitude", .num (-74)), ("elevation", .num 0), ("min_elevation_angle", .num 0), ("min_access_time", .span 0)]⟩]⟩

theorem sampleArch_args : ArchArgsMade sampleEnv sampleArch :=
  ⟨fun g hg => by
    simp only [sampleArch, List.mem_singleton] at hg
    subst hg
    exact walkerSys_sysMade, fun g hg => by
    simp only [sampleArch, List.mem_singleton] at hg
    subst hg
    trivial⟩

/-- The hypotheses of `C104_architecture` hold of it. -/
example : readArch ⟨5, fun _ => true⟩ (writeArch sampleEnv sampleArchMade) = .ok sampleArchMade :=
  C104_architecture sampleEnv ⟨5, fun _ => true⟩ rfl sampleArch sampleArchMade sampleArch_args (by decide +kernel)
    (by decide) (by decide) (by decide)

/-- A circular orbit. -/
def roundOrbit : Obj := ⟨.circular, [("altitude", .num 500000), ("true_anomaly", .num 0), ("epoch", .time 0),
  ("type", .text "circular"), ("inclination", .num 0), ("right_ascension_ascending_node", .num 0)]⟩

/-- A streets-of-coverage constellation. -/
def streetsSys : Sys := ⟨.soc, [("name", .text "C"), ("type", .text "soc"), ("swath_width", .num 1000000),
  ("packing_distance", .num 1)], roundOrbit, walkerSys.instruments⟩

theorem streets_made : SysMade sampleEnv streetsSys :=
  (readSys_made (c := .soc) (doc := ⟨[("name", .text "C"), ("swath_width", .num 1000000), ("packing_distance", .num 1)],
    some (.inl [("altitude", .num 500000)]), none⟩)
    ⟨fun g hg => by cases hg; trivial, fun gs hgs => by cases hgs⟩ (by decide +kernel)).2

/-- **C104 is false of streets of coverage**: an architecture with one is made, and its dump is refused. -/
theorem C104_streets_false : ∃ (doc : ArchDoc) (a : Arch), ArchArgsMade sampleEnv doc ∧
    readArch sampleEnv doc = .ok a ∧ ∃ e, readArch sampleEnv (writeArch sampleEnv a) = .error e := by
  have hargs : ArchArgsMade sampleEnv ⟨"A", [.inr streetsSys], []⟩ :=
    ⟨fun g hg => by
      simp only [List.mem_singleton] at hg
      subst hg
      exact streets_made, fun g hg => by cases hg⟩
  have hread : readArch sampleEnv ⟨"A", [.inr streetsSys], []⟩ = .ok ⟨"A", [streetsSys], []⟩ := by decide +kernel
  exact ⟨_, _, hargs, hread, C104_streets_refused sampleEnv sampleEnv _ _ hargs hread streetsSys
    (List.mem_singleton_self _) rfl⟩

/-- A Molniya orbit can be made, and no satellite takes it. -/
theorem C105_molniya_false : ∃ o, readObj sampleEnv .molniya [("altitude", .num 600000)] = .ok o ∧
    ∀ c vals ins, ∃ e, readSys sampleEnv c ⟨vals, some (.inr o), ins⟩ = .error e :=
  ⟨⟨.molniya, [("altitude", .num 600000), ("true_anomaly", .num 0), ("epoch", .time 0), ("type", .text "molniya"),
    ("inclination", .num 0), ("right_ascension_ascending_node", .num 0), ("orbital_period", .num 43080),
    ("perigee_argument", .num 0)]⟩, by decide +kernel, fun c vals ins =>
    C105_orbits_false sampleEnv c _ _ rfl (Or.inl ⟨_, rfl, Or.inl rfl⟩)⟩

example : ∃ s, readSys sampleEnv .walker walkerDoc = .ok s ∧ s.orbit = elliptic :=
  C105_orbits_partial sampleEnv .walker (by decide) walkerDoc elliptic rfl (by decide) walkerSys.vals
    (by decide +kernel) (by decide +kernel) rfl

/-- The same data, read in two processes started one second apart, make two orbits. -/
example : readObj ⟨1000000, fun _ => true⟩ .circular [("altitude", .num 500000)] ≠ .ok roundOrbit :=
  (C106_default_epoch_false sampleEnv ⟨1000000, fun _ => true⟩ .circular (by decide) (by decide) _ rfl roundOrbit
    (by decide +kernel)).2 (by decide)

example : readObj ⟨1000000, fun _ => true⟩ .circular [("altitude", .num 500000), ("epoch", .time 0)] = .ok roundOrbit :=
  (C106_given_epoch sampleEnv ⟨1000000, fun _ => true⟩ rfl .circular _ (.time 0) rfl).trans (by decide +kernel)

end Tatc.Props
