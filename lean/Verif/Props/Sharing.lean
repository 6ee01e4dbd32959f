import Verif.Model.Sharing
import Mathlib.Tactic.Linarith

/-!
# C121: members of a constellation are independent
-/

namespace Tatc.Props
open Tatc.Sharing

variable {O I : Type}

/-- References lead to objects that exist. -/
structure Closed (h : Heap O I) : Prop where
  orbit : ∀ s ∈ h.systems, s.orbit < h.orbits.length
  list : ∀ s ∈ h.systems, s.instruments < h.lists.length
  refs : ∀ l ∈ h.lists, ∀ r ∈ l, r < h.instruments.length

/-- Two systems have no object in common. -/
structure Apart (h : Heap O I) (m m' : Nat) (s s' : System) : Prop where
  ne : m ≠ m'
  left : h.systems[m]? = some s
  right : h.systems[m']? = some s'
  orbit : s.orbit ≠ s'.orbit
  list : s.instruments ≠ s'.instruments
  refs : ∀ r ∈ h.lists.getD s.instruments [], r ∉ h.lists.getD s'.instruments []

theorem view_congr {h h' : Heap O I} {m : Nat} {s : System} (hs : h.systems[m]? = some s)
    (hs' : h'.systems[m]? = some s) (ho : h'.orbits[s.orbit]? = h.orbits[s.orbit]?)
    (hl : h'.lists[s.instruments]? = h.lists[s.instruments]?)
    (hi : ∀ r ∈ h.lists.getD s.instruments [], h'.instruments[r]? = h.instruments[r]?) : view h' m = view h m := by
  unfold view
  rw [hs, hs']
  simp only
  rw [ho, hl]
  cases h1 : h.orbits[s.orbit]? with
  | none => rfl
  | some o =>
    cases h2 : h.lists[s.instruments]? with
    | none => rfl
    | some l =>
      simp only [Option.some.injEq, Prod.mk.injEq, true_and]
      apply List.filterMap_congr
      intro r hr
      exact hi r (by rw [List.getD_eq_getElem?_getD, h2]; exact hr)

theorem getD_mem {l : List (List Nat)} {k : Nat} {r : Nat} (h : r ∈ l.getD k []) : l.getD k [] ∈ l := by
  rw [List.getD_eq_getElem?_getD] at h ⊢
  cases hk : l[k]? with
  | none => rw [hk] at h; simp at h
  | some x => exact List.mem_of_getElem? hk

theorem getD_congr {α : Type} {l l' : List α} {k : Nat} {d : α} (h : l'[k]? = l[k]?) : l'.getD k d = l.getD k d := by
  rw [List.getD_eq_getElem?_getD, List.getD_eq_getElem?_getD, h]

theorem mem_set {l : List System} {m : Nat} {a b : System} (h : b ∈ l.set m a) : b ∈ l ∨ b = a :=
  List.mem_or_eq_of_mem_set h

theorem getElem?_modify_ne {α : Type} {l : List α} {i j : Nat} {f : α → α} (h : i ≠ j) : (l.modify i f)[j]? = l[j]? := by
  rw [List.getElem?_modify]; simp [h]

theorem mem_modify {α : Type} {l : List α} {i : Nat} {f : α → α} {b : α} (h : b ∈ l.modify i f) :
    b ∈ l ∨ ∃ a ∈ l, l[i]? = some a ∧ b = f a := by
  obtain ⟨k, hk⟩ := List.mem_iff_getElem?.mp h
  rw [List.getElem?_modify] at hk
  split_ifs at hk with e
  · subst e
    cases ha : l[i]? with
    | none => rw [ha] at hk; simp at hk
    | some a =>
      rw [ha] at hk
      right
      exact ⟨a, List.mem_of_getElem? ha, rfl, by simpa using hk.symm⟩
  · left
    exact List.mem_of_getElem? (by simpa using hk)

theorem getElem?_append_lt {α : Type} {l t : List α} {k : Nat} (h : k < l.length) : (l ++ t)[k]? = l[k]? :=
  List.getElem?_append_left h

/-- A change of one system leaves the references in order, and a system apart from it apart and as it was. -/
theorem change_apart {h : Heap O I} {m m' : Nat} {s s' : System} (w : Closed h) (a : Apart h m m' s s')
    (c : Change O I) : Closed (change m h c) ∧ (∃ t, Apart (change m h c) m m' t s') ∧
      view (change m h c) m' = view h m' := by
  have hs : s ∈ h.systems := List.mem_of_getElem? a.left
  have hs' : s' ∈ h.systems := List.mem_of_getElem? a.right
  have hm : m < h.systems.length := (List.getElem?_eq_some_iff.mp a.left).1
  have hset : ∀ t : System, (h.systems.set m t)[m]? = some t := fun t => by
    rw [List.getElem?_set_self hm]
  have hset' : ∀ t : System, (h.systems.set m t)[m']? = some s' := fun t => by
    rw [List.getElem?_set_ne a.ne, a.right]
  have hr' : ∀ r ∈ h.lists.getD s'.instruments [], r < h.instruments.length :=
    fun r hr => w.refs _ (getD_mem hr) r hr
  unfold change
  rw [a.left]
  simp only
  cases c with
  | rename name =>
    simp only
    refine ⟨⟨?_, ?_, w.refs⟩, ⟨{ s with name := name }, ⟨a.ne, hset _, hset' _, a.orbit, a.list, a.refs⟩⟩,
      view_congr a.right (hset' _) rfl rfl fun _ _ => rfl⟩
    · intro t ht
      rcases mem_set ht with ht | rfl
      · exact w.orbit t ht
      · exact w.orbit s hs
    · intro t ht
      rcases mem_set ht with ht | rfl
      · exact w.list t ht
      · exact w.list s hs
  | changeOrbit f =>
    simp only
    refine ⟨⟨?_, w.list, w.refs⟩, ⟨s, ⟨a.ne, a.left, a.right, a.orbit, a.list, a.refs⟩⟩,
      view_congr a.right a.right (getElem?_modify_ne a.orbit) rfl fun _ _ => rfl⟩
    intro t ht
    simpa using w.orbit t ht
  | changeInstrument k f =>
    simp only
    cases hk : (h.lists.getD s.instruments [])[k]? with
    | none => exact ⟨w, ⟨s, a⟩, rfl⟩
    | some r =>
      simp only
      have hrm := List.mem_of_getElem? hk
      refine ⟨⟨w.orbit, w.list, ?_⟩, ⟨s, ⟨a.ne, a.left, a.right, a.orbit, a.list, a.refs⟩⟩,
        view_congr a.right a.right rfl rfl ?_⟩
      · intro l hl q hq
        simpa using w.refs l hl q hq
      · intro q hq
        exact getElem?_modify_ne fun e => a.refs r hrm (e ▸ hq)
  | assignOrbit o =>
    simp only
    refine ⟨⟨?_, ?_, w.refs⟩, ⟨{ s with orbit := h.orbits.length }, ⟨a.ne, hset _, hset' _, ?_, a.list, a.refs⟩⟩,
      view_congr a.right (hset' _) (getElem?_append_lt (w.orbit s' hs')) rfl fun _ _ => rfl⟩
    · intro t ht
      simp only [List.length_append, List.length_singleton]
      rcases mem_set ht with ht | rfl
      · have := w.orbit t ht; omega
      · simp
    · intro t ht
      rcases mem_set ht with ht | rfl
      · exact w.list t ht
      · exact w.list s hs
    · have := w.orbit s' hs'
      simp only; omega
  | assignInstruments is =>
    simp only
    have hlt := w.list s' hs'
    have hg : (h.lists ++ [(List.range is.length).map (h.instruments.length + ·)]).getD h.lists.length [] =
        (List.range is.length).map (h.instruments.length + ·) := by
      rw [List.getD_eq_getElem?_getD, List.getElem?_append_right le_rfl]; simp
    refine ⟨⟨?_, ?_, ?_⟩, ⟨{ s with instruments := h.lists.length }, ⟨a.ne, hset _, hset' _, a.orbit, ?_, ?_⟩⟩,
      view_congr a.right (hset' _) rfl (getElem?_append_lt hlt) ?_⟩
    · intro t ht
      rcases mem_set ht with ht | rfl
      · exact w.orbit t ht
      · exact w.orbit s hs
    · intro t ht
      simp only [List.length_append, List.length_singleton]
      rcases mem_set ht with ht | rfl
      · have := w.list t ht; omega
      · simp
    · intro l hl r hr
      simp only [List.length_append]
      rcases List.mem_append.mp hl with hl | hl
      · have := w.refs l hl r hr; omega
      · rw [List.mem_singleton.mp hl] at hr
        simp only [List.mem_map, List.mem_range] at hr
        obtain ⟨q, hq, rfl⟩ := hr
        omega
    · simp only; omega
    · simp only
      rw [hg, getD_congr (getElem?_append_lt hlt)]
      intro r hr hr2
      have := hr' r hr2
      simp only [List.mem_map, List.mem_range] at hr
      obtain ⟨q, hq, rfl⟩ := hr
      omega
    · intro r hr
      exact getElem?_append_lt (hr' r hr)
  | append i =>
    simp only
    have hself : (h.lists.modify s.instruments (· ++ [h.instruments.length])).getD s.instruments [] =
        h.lists.getD s.instruments [] ++ [h.instruments.length] := by
      have := w.list s hs
      simp [List.getD_eq_getElem?_getD, this]
    refine ⟨⟨w.orbit, ?_, ?_⟩, ⟨s, ⟨a.ne, a.left, a.right, a.orbit, a.list, ?_⟩⟩,
      view_congr a.right a.right rfl (getElem?_modify_ne a.list) ?_⟩
    · intro t ht
      simpa using w.list t ht
    · intro l hl r hr
      simp only [List.length_append, List.length_singleton]
      rcases mem_modify hl with hl | ⟨l0, hl0, -, rfl⟩
      · have := w.refs l hl r hr; omega
      · rcases List.mem_append.mp hr with hr | hr
        · have := w.refs l0 hl0 r hr; omega
        · rw [List.mem_singleton.mp hr]; omega
    · simp only
      rw [hself, getD_congr (getElem?_modify_ne a.list)]
      intro r hr hr2
      rcases List.mem_append.mp hr with hr | hr
      · exact a.refs r hr hr2
      · have := hr' r hr2
        rw [List.mem_singleton.mp hr] at this
        omega
    · intro r hr
      exact getElem?_append_lt (hr' r hr)
  | remove k =>
    simp only
    have hself : (h.lists.modify s.instruments (·.eraseIdx k)).getD s.instruments [] =
        (h.lists.getD s.instruments []).eraseIdx k := by
      have := w.list s hs
      simp [List.getD_eq_getElem?_getD, this]
    refine ⟨⟨w.orbit, ?_, ?_⟩, ⟨s, ⟨a.ne, a.left, a.right, a.orbit, a.list, ?_⟩⟩,
      view_congr a.right a.right rfl (getElem?_modify_ne a.list) fun _ _ => rfl⟩
    · intro t ht
      simpa using w.list t ht
    · intro l hl r hr
      rcases mem_modify hl with hl | ⟨l0, hl0, -, rfl⟩
      · exact w.refs l hl r hr
      · exact w.refs l0 hl0 r (List.mem_of_mem_eraseIdx hr)
    · simp only
      rw [hself, getD_congr (getElem?_modify_ne a.list)]
      intro r hr
      exact a.refs r (List.mem_of_mem_eraseIdx hr)
  | replace k i =>
    simp only
    have hself : (h.lists.modify s.instruments (·.set k h.instruments.length)).getD s.instruments [] =
        (h.lists.getD s.instruments []).set k h.instruments.length := by
      have := w.list s hs
      simp [List.getD_eq_getElem?_getD, this]
    refine ⟨⟨w.orbit, ?_, ?_⟩, ⟨s, ⟨a.ne, a.left, a.right, a.orbit, a.list, ?_⟩⟩,
      view_congr a.right a.right rfl (getElem?_modify_ne a.list) ?_⟩
    · intro t ht
      simpa using w.list t ht
    · intro l hl r hr
      simp only [List.length_append, List.length_singleton]
      rcases mem_modify hl with hl | ⟨l0, hl0, -, rfl⟩
      · have := w.refs l hl r hr; omega
      · rcases List.mem_or_eq_of_mem_set hr with hr | rfl
        · have := w.refs l0 hl0 r hr; omega
        · omega
    · simp only
      rw [hself, getD_congr (getElem?_modify_ne a.list)]
      intro r hr hr2
      rcases List.mem_or_eq_of_mem_set hr with hr | rfl
      · exact a.refs r hr hr2
      · have := hr' _ hr2
        omega
    · intro r hr
      exact getElem?_append_lt (hr' r hr)

/-- And so does a history of changes. -/
theorem changes_apart {h : Heap O I} {m m' : Nat} {s s' : System} (w : Closed h) (a : Apart h m m' s s')
    (cs : List (Change O I)) : view (changes m h cs) m' = view h m' := by
  induction cs generalizing h s with
  | nil => rfl
  | cons c cs ih =>
    obtain ⟨w1, ⟨t, a1⟩, hv⟩ := change_apart w a c
    have := ih w1 a1
    unfold changes at this ⊢
    rw [List.foldl_cons, this, hv]

/-- `h'` has the objects of `h`, unchanged, and more. -/
structure Extends (h h' : Heap O I) : Prop where
  orbits : h.orbits <+: h'.orbits
  instruments : h.instruments <+: h'.instruments
  lists : h.lists <+: h'.lists
  systems : h.systems <+: h'.systems

theorem Extends.refl (h : Heap O I) : Extends h h :=
  ⟨List.prefix_rfl, List.prefix_rfl, List.prefix_rfl, List.prefix_rfl⟩

theorem Extends.trans {a b c : Heap O I} (h : Extends a b) (h' : Extends b c) : Extends a c :=
  ⟨h.orbits.trans h'.orbits, h.instruments.trans h'.instruments, h.lists.trans h'.lists, h.systems.trans h'.systems⟩

theorem prefix_getElem? {α : Type} {l l' : List α} (h : l <+: l') {k : Nat} (hk : k < l.length) : l'[k]? = l[k]? := by
  obtain ⟨t, rfl⟩ := h
  exact getElem?_append_lt hk

/-- What was there looks as before. -/
theorem Extends.view {h h' : Heap O I} (w : Closed h) (e : Extends h h') {m : Nat} (hm : m < h.systems.length) :
    Sharing.view h' m = Sharing.view h m := by
  have hs : h.systems[m]? = some h.systems[m] := List.getElem?_eq_getElem hm
  have hmem : h.systems[m] ∈ h.systems := List.getElem_mem hm
  refine view_congr hs (by rw [prefix_getElem? e.systems hm, hs]) (prefix_getElem? e.orbits (w.orbit _ hmem))
    (prefix_getElem? e.lists (w.list _ hmem)) ?_
  intro r hr
  exact prefix_getElem? e.instruments (w.refs _ (getD_mem hr) r hr)

/-- The system `m` of `h'` has only objects that `h` has not. -/
structure NewIn (h h' : Heap O I) (m : Nat) (s : System) : Prop where
  here : h'.systems[m]? = some s
  new : h.systems.length ≤ m
  orbit : h.orbits.length ≤ s.orbit
  list : h.lists.length ≤ s.instruments
  refs : ∀ r ∈ h'.lists.getD s.instruments [], h.instruments.length ≤ r

theorem NewIn.later {h h' h'' : Heap O I} {m : Nat} {s : System} (w : Closed h') (n : NewIn h h' m s)
    (e : Extends h' h'') : NewIn h h'' m s := by
  have hm := (List.getElem?_eq_some_iff.mp n.here).1
  have hs := List.mem_of_getElem? n.here
  refine ⟨by rw [prefix_getElem? e.systems hm, n.here], n.new, n.orbit, n.list, ?_⟩
  rw [getD_congr (prefix_getElem? e.lists (w.list s hs))]
  exact n.refs

/-- A new system is apart from what was there. -/
theorem NewIn.apart {h h' : Heap O I} {m m' : Nat} {s : System} (w : Closed h) (e : Extends h h') (n : NewIn h h' m s)
    (hm' : m' < h.systems.length) : ∃ s', Apart h' m m' s s' ∧ Apart h' m' m s' s := by
  have hs : h.systems[m']? = some h.systems[m'] := List.getElem?_eq_getElem hm'
  have hmem : h.systems[m'] ∈ h.systems := List.getElem_mem hm'
  have hs' : h'.systems[m']? = some h.systems[m'] := by rw [prefix_getElem? e.systems hm', hs]
  have ho := w.orbit _ hmem
  have hl := w.list _ hmem
  have hrefs : ∀ r ∈ h'.lists.getD h.systems[m'].instruments [], r < h.instruments.length := by
    rw [getD_congr (prefix_getElem? e.lists hl)]
    exact fun r hr => w.refs _ (getD_mem hr) r hr
  have h1 := n.new
  have h2 := n.orbit
  have h3 := n.list
  refine ⟨h.systems[m'], ⟨by omega, n.here, hs', by omega, by omega, ?_⟩, ⟨by omega, hs', n.here, by omega, by omega, ?_⟩⟩
  · intro r hr hr'
    have := n.refs r hr
    have := hrefs r hr'
    omega
  · intro r hr' hr
    have := n.refs r hr
    have := hrefs r hr'
    omega

theorem filterMap_some {h : List I} {refs : List Nat} (hr : ∀ r ∈ refs, r < h.length) :
    (refs.filterMap fun r => h[r]?).map some = refs.map fun r => h[r]? := by
  induction refs with
  | nil => rfl
  | cons r t ih =>
    have h1 : h[r]? = some (h[r]'(hr r (by simp))) := List.getElem?_eq_getElem _
    simp only [List.filterMap_cons, h1, List.map_cons]
    rw [ih fun q hq => hr q (by simp [hq])]

/-- One member: everything there stays, the member is new, and it has a derived orbit and the instruments of the
constellation. -/
theorem member_spec {h : Heap O I} (w : Closed h) {c : Nat} (hc : c < h.systems.length) (derive : O → O)
    (name : List Char) : Extends h (member c derive name h).2 ∧ Closed (member c derive name h).2 ∧
      (∃ s, NewIn h (member c derive name h).2 (member c derive name h).1 s) ∧
      ∃ n o is, view h c = some (n, o, is) ∧
        view (member c derive name h).2 (member c derive name h).1 = some (name, derive o, is) := by
  set s := h.systems[c] with hsdef
  have hs : h.systems[c]? = some s := List.getElem?_eq_getElem hc
  have hmem : s ∈ h.systems := List.getElem_mem hc
  have ho := w.orbit s hmem
  have hl := w.list s hmem
  have hoe : h.orbits[s.orbit]? = some (h.orbits[s.orbit]) := List.getElem?_eq_getElem ho
  have hle : h.lists[s.instruments]? = some (h.lists[s.instruments]) := List.getElem?_eq_getElem hl
  set refs := h.lists[s.instruments] with hrefs
  have hgd : h.lists.getD s.instruments [] = refs := by rw [List.getD_eq_getElem?_getD, hle]; rfl
  have hr : ∀ r ∈ refs, r < h.instruments.length := w.refs refs (List.getElem_mem hl)
  set copies := refs.filterMap fun r => h.instruments[r]? with hcopies
  have hcl : copies.length = refs.length := by
    have := congrArg List.length (filterMap_some hr)
    rw [List.length_map, List.length_map] at this
    exact this
  set news := refs.map fun r => h.instruments.length + refs.idxOf r with hnews
  have hnl : ∀ q ∈ news, h.instruments.length ≤ q ∧ q < h.instruments.length + copies.length := by
    intro q hq
    rw [hnews, List.mem_map] at hq
    obtain ⟨r, hr1, rfl⟩ := hq
    have := List.idxOf_lt_length_iff.mpr hr1
    omega
  have hget : (h.lists ++ [news]).getD h.lists.length [] = news := by
    rw [List.getD_eq_getElem?_getD, List.getElem?_append_right le_rfl]; simp
  have hm : member c derive name h = (h.systems.length,
      { orbits := h.orbits ++ [derive (h.orbits[s.orbit])]
        instruments := h.instruments ++ copies
        lists := h.lists ++ [news] ++ [news]
        systems := h.systems ++ [⟨name, h.orbits.length, (h.lists ++ [news]).length⟩] }) := by
    unfold member
    simp only [hs, hoe, newOrbit, deepcopyList, newSystem, hgd]
    rw [← hcopies, ← hnews, hget]
  rw [hm]
  simp only
  refine ⟨⟨⟨_, rfl⟩, ⟨_, rfl⟩, ⟨[news] ++ [news], by simp⟩, ⟨_, rfl⟩⟩, ⟨?_, ?_, ?_⟩, ⟨⟨name, h.orbits.length, (h.lists ++ [news]).length⟩, ⟨?_, le_rfl, le_rfl, ?_, ?_⟩⟩, ?_⟩
  · intro t ht
    simp only [List.length_append, List.length_singleton]
    rcases List.mem_append.mp ht with ht | ht
    · have := w.orbit t ht; omega
    · rw [List.mem_singleton.mp ht]; simp
  · intro t ht
    simp only [List.length_append, List.length_singleton]
    rcases List.mem_append.mp ht with ht | ht
    · have := w.list t ht; omega
    · rw [List.mem_singleton.mp ht]; simp
  · intro l hl r hr2
    simp only [List.length_append]
    simp only [List.append_assoc, List.mem_append, List.mem_singleton] at hl
    rcases hl with hl | hl | hl
    · have := w.refs l hl r hr2; omega
    · rw [hl] at hr2; exact (hnl r hr2).2
    · rw [hl] at hr2; exact (hnl r hr2).2
  · simp
  · simp
  · simp only
    intro r hr2
    rw [List.getD_eq_getElem?_getD, List.getElem?_append_right le_rfl] at hr2
    simp only [Nat.sub_self, List.getElem?_cons_zero, Option.getD_some] at hr2
    exact (hnl r hr2).1
  · refine ⟨s.name, h.orbits[s.orbit], copies, ?_, ?_⟩
    · unfold view
      rw [hs]
      simp only [hoe, hle]
      rfl
    · unfold view
      simp only [List.getElem?_append_right le_rfl, Nat.sub_self, List.getElem?_cons_zero, Option.some.injEq,
        Prod.mk.injEq, true_and]
      have key : ∀ r ∈ refs, (h.instruments ++ copies)[h.instruments.length + refs.idxOf r]? = h.instruments[r]? := by
        intro r hr2
        rw [List.getElem?_append_right (by omega), Nat.add_sub_cancel_left]
        have h1 := List.idxOf_lt_length_iff.mpr hr2
        have h2 := congrArg (fun l : List (Option I) => l[refs.idxOf r]?) (filterMap_some hr)
        simp only [List.getElem?_map] at h2
        rw [List.getElem?_eq_getElem h1, List.getElem_idxOf h1, ← hcopies] at h2
        simp only [Option.map_some] at h2
        cases h3 : copies[refs.idxOf r]? with
        | none => rw [h3] at h2; simp at h2
        | some x => rw [h3] at h2; simpa using h2
      rw [hnews, List.filterMap_map]
      exact List.filterMap_congr fun r hr2 => key r hr2

/-- All members. -/
theorem generate_spec {h : Heap O I} (w : Closed h) {c : Nat} (hc : c < h.systems.length) {n : List Char} {o : O}
    {is : List I} (hv : view h c = some (n, o, is)) (plan : List ((O → O) × List Char)) :
    Extends h (generateMembers c plan h).2 ∧ Closed (generateMembers c plan h).2 ∧
      (generateMembers c plan h).1.length = plan.length ∧
      (∀ m ∈ (generateMembers c plan h).1, ∃ s, NewIn h (generateMembers c plan h).2 m s) ∧
      (generateMembers c plan h).1.Pairwise (fun m m' => ∃ s s', Apart (generateMembers c plan h).2 m m' s s' ∧
        Apart (generateMembers c plan h).2 m' m s' s) ∧
      (generateMembers c plan h).1.map (view (generateMembers c plan h).2) =
        plan.map fun p => some (p.2, p.1 o, is) := by
  induction plan generalizing h with
  | nil => exact ⟨Extends.refl h, w, rfl, by simp [generateMembers], by simp [generateMembers], rfl⟩
  | cons p plan ih =>
    obtain ⟨derive, name⟩ := p
    obtain ⟨e1, w1, ⟨s, n1⟩, n0, o0, is0, hv0, hv1⟩ := member_spec w hc derive name
    rw [hv] at hv0
    obtain ⟨rfl, rfl, rfl⟩ : n = n0 ∧ o = o0 ∧ is = is0 := by simpa using hv0
    have hc1 : c < (member c derive name h).2.systems.length := lt_of_lt_of_le hc e1.systems.length_le
    have hvc : view (member c derive name h).2 c = some (n, o, is) := by rw [e1.view w hc, hv]
    obtain ⟨e2, w2, hlen, n2, p2, v2⟩ := ih w1 hc1 hvc
    have hmlt : (member c derive name h).1 < (member c derive name h).2.systems.length :=
      (List.getElem?_eq_some_iff.mp n1.here).1
    simp only [generateMembers]
    refine ⟨e1.trans e2, w2, by simp [hlen], ?_, ?_, ?_⟩
    · intro m hm
      rcases List.mem_cons.mp hm with rfl | hm
      · exact ⟨s, n1.later w1 e2⟩
      · obtain ⟨t, ht⟩ := n2 m hm
        have a1 := e1.systems.length_le
        have a2 := e1.orbits.length_le
        have a3 := e1.lists.length_le
        have a4 := e1.instruments.length_le
        exact ⟨t, ht.here, a1.trans ht.new, a2.trans ht.orbit, a3.trans ht.list, fun r hr => a4.trans (ht.refs r hr)⟩
    · rw [List.pairwise_cons]
      refine ⟨?_, p2⟩
      intro m hm
      obtain ⟨t, ht⟩ := n2 m hm
      obtain ⟨s', h1, h2⟩ := ht.apart w1 e2 hmlt
      exact ⟨s', t, h2, h1⟩
    · rw [List.map_cons, List.map_cons, v2, e2.view w1 hmlt, hv1]

/-- C121.  The members of a constellation have the planned names and orbits and the instruments of the constellation; and
whatever is done to one of them, the others, the constellation and all other systems stay what they were; and what is
done to these does not touch the members. -/
theorem C121_members (h : Heap O I) (w : Closed h) (c : Nat) (hc : c < h.systems.length)
    (plan : List ((O → O) × List Char)) (cs : List (Change O I)) :
    let ms := (generateMembers c plan h).1
    let h' := (generateMembers c plan h).2
    (∃ n o is, view h c = some (n, o, is) ∧ ms.map (view h') = plan.map fun p => some (p.2, p.1 o, is)) ∧
    (∀ i j m m' : Nat, i ≠ j → ms[i]? = some m → ms[j]? = some m' → view (changes m h' cs) m' = view h' m') ∧
    (∀ m ∈ ms, ∀ k < h.systems.length,
      view (changes m h' cs) k = view h k ∧ view (changes k h' cs) m = view h' m) := by
  have hs : h.systems[c]? = some h.systems[c] := List.getElem?_eq_getElem hc
  obtain ⟨-, -, -, n, o, is, hv, -⟩ := member_spec w hc id []
  obtain ⟨e, w', -, hn, hp, hm⟩ := generate_spec w hc hv plan
  refine ⟨⟨n, o, is, hv, hm⟩, ?_, ?_⟩
  · intro i j m m' hij hi hj
    obtain ⟨hi1, hi2⟩ := List.getElem?_eq_some_iff.mp hi
    obtain ⟨hj1, hj2⟩ := List.getElem?_eq_some_iff.mp hj
    rw [List.pairwise_iff_getElem] at hp
    rcases lt_or_gt_of_ne hij with hlt | hlt
    · obtain ⟨s, s', a, -⟩ := hp i j hi1 hj1 hlt
      rw [hi2, hj2] at a
      exact changes_apart w' a cs
    · obtain ⟨s, s', -, a⟩ := hp j i hj1 hi1 hlt
      rw [hi2, hj2] at a
      exact changes_apart w' a cs
  · intro m hmem k hk
    obtain ⟨s, ns⟩ := hn m hmem
    obtain ⟨s', a, a'⟩ := ns.apart w e hk
    exact ⟨by rw [changes_apart w' a cs, e.view w hk], changes_apart w' a' cs⟩

/-- The system made by `generate_walker`: all stays, and it looks like the constellation. -/
theorem walker_spec {h : Heap O I} (w : Closed h) {c : Nat} (hc : c < h.systems.length) :
    Extends h (generateWalker c h).2 ∧ Closed (generateWalker c h).2 ∧
      (generateWalker c h).1 < (generateWalker c h).2.systems.length ∧
      view (generateWalker c h).2 (generateWalker c h).1 = view h c := by
  set s := h.systems[c] with hsdef
  have hs : h.systems[c]? = some s := List.getElem?_eq_getElem hc
  have hmem : s ∈ h.systems := List.getElem_mem hc
  have ho := w.orbit s hmem
  have hl := w.list s hmem
  have hle : h.lists[s.instruments]? = some (h.lists[s.instruments]) := List.getElem?_eq_getElem hl
  set refs := h.lists[s.instruments] with hrefs
  have hgd : h.lists.getD s.instruments [] = refs := by rw [List.getD_eq_getElem?_getD, hle]; rfl
  have hm : generateWalker c h = (h.systems.length,
      { h with lists := h.lists ++ [refs], systems := h.systems ++ [⟨s.name, s.orbit, h.lists.length⟩] }) := by
    unfold generateWalker
    simp only [hs, newSystem, hgd]
  rw [hm]
  simp only
  refine ⟨⟨List.prefix_rfl, List.prefix_rfl, ⟨_, rfl⟩, ⟨_, rfl⟩⟩, ⟨?_, ?_, ?_⟩, by simp, ?_⟩
  · intro t ht
    rcases List.mem_append.mp ht with ht | ht
    · exact w.orbit t ht
    · rw [List.mem_singleton.mp ht]; exact ho
  · intro t ht
    simp only [List.length_append, List.length_singleton]
    rcases List.mem_append.mp ht with ht | ht
    · have := w.list t ht; omega
    · rw [List.mem_singleton.mp ht]; simp
  · intro l hl2 r hr2
    rcases List.mem_append.mp hl2 with hl2 | hl2
    · exact w.refs l hl2 r hr2
    · rw [List.mem_singleton.mp hl2] at hr2
      exact w.refs refs (List.getElem_mem hl) r hr2
  · unfold view
    simp only [List.getElem?_append_right le_rfl, Nat.sub_self, List.getElem?_cons_zero, hs, hle]

/-- C121 for streets of coverage, whose members are those of an intermediate Walker constellation. -/
theorem C121_streets (h : Heap O I) (w : Closed h) (c : Nat) (hc : c < h.systems.length)
    (plan : List ((O → O) × List Char)) (cs : List (Change O I)) :
    let ms := (socMembers c plan h).1
    let h' := (socMembers c plan h).2
    (∃ n o is, view h c = some (n, o, is) ∧ ms.map (view h') = plan.map fun p => some (p.2, p.1 o, is)) ∧
    (∀ i j m m' : Nat, i ≠ j → ms[i]? = some m → ms[j]? = some m' → view (changes m h' cs) m' = view h' m') ∧
    (∀ m ∈ ms, ∀ k < h.systems.length,
      view (changes m h' cs) k = view h k ∧ view (changes k h' cs) m = view h' m) := by
  obtain ⟨e, w', hlt, hv⟩ := walker_spec w hc
  obtain ⟨⟨n, o, is, h1, h2⟩, h3, h4⟩ := C121_members _ w' _ hlt plan cs
  refine ⟨⟨n, o, is, by rw [← hv]; exact h1, h2⟩, h3, fun m hm k hk => ?_⟩
  obtain ⟨h5, h6⟩ := h4 m hm k (lt_of_lt_of_le hk e.systems.length_le)
  exact ⟨by rw [← e.view w hk]; exact h5, h6⟩

/-- A constellation at 500 km with an instrument that it carries twice and another one. -/
def oneSystem : Heap Nat Nat := ⟨[500], [50, 180], [[0, 0, 1]], [⟨['c'], 0, 0⟩]⟩

theorem oneSystem_wf : Closed oneSystem := by
  constructor <;> decide

/-- Two members: the third instrument of the first is changed, then an instrument is added, the first instrument, which is
the second too, is changed and the orbit, and the second member is what it was. -/
example : let r := generateMembers 0 [(fun a => a + 1, ['1']), (fun a => a + 2, ['2'])] oneSystem
    let h := changes 1 r.2 [.changeInstrument 2 (fun _ => 10), .append 7, .changeInstrument 0 (· + 1), .changeOrbit (· * 2)]
    r.1 = [1, 2] ∧ view h 1 = some (['1'], 1002, [51, 51, 10, 7]) ∧ view h 2 = some (['2'], 502, [50, 50, 180]) ∧
      view h 0 = some (['c'], 500, [50, 50, 180]) := by decide

/-- The only member of a satellite is the satellite: what is done to it is done to the system. -/
theorem C121_satellite_false : ∃ (h : Heap Nat Nat) (c m : Nat) (cs : List (Change Nat Nat)), Closed h ∧
    c < h.systems.length ∧ (satelliteMembers c h).1 = [m] ∧ view (changes m (satelliteMembers c h).2 cs) c ≠ view h c :=
  ⟨oneSystem, 0, 0, [.changeOrbit (· + 1)], oneSystem_wf, by decide, rfl, by decide⟩

/-- The Walker constellation of streets of coverage shares the orbit and the instruments of the constellation: changing
either of one changes the other. -/
theorem C121_walker_false : ∃ (h : Heap Nat Nat) (c : Nat), Closed h ∧ c < h.systems.length ∧
    view (changes (generateWalker c h).1 (generateWalker c h).2 [.changeOrbit (· + 1)]) c ≠ view h c ∧
    view (changes (generateWalker c h).1 (generateWalker c h).2 [.changeInstrument 0 (· + 1)]) c ≠ view h c ∧
    view (changes (generateWalker c h).1 (generateWalker c h).2 [.append 1]) c = view h c :=
  ⟨oneSystem, 0, oneSystem_wf, by decide, by decide, by decide, by decide⟩

end Tatc.Props
