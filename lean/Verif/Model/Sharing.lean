import Mathlib.Data.List.Basic
import Mathlib.Data.List.Range

/-!
# Model of objects and references in constellations

`src/tatc/schemas/satellite.py`: which objects the members of a space system share.  Objects are numbered by kind in the
order of their creation and a reference is a number; numbers and texts are values.  What an orbit or an instrument holds is
one value: the types `O` and `I`.  The validated fields of a new model are the given objects themselves, apart from lists,
which pydantic makes anew from the given members.
-/

namespace Tatc.Sharing

/-- A `SpaceSystem` (`src/tatc/schemas/satellite.py` L29-L45): its name and references to an orbit and to a list. -/
structure System where
  name : List Char
  orbit : Nat
  instruments : Nat
deriving DecidableEq

/-- The objects that exist: orbits, instruments, lists of references to instruments, and space systems
(`src/tatc/schemas/satellite.py` L29-L45). -/
structure Heap (O I : Type) where
  orbits : List O
  instruments : List I
  lists : List (List Nat)
  systems : List System

variable {O I : Type}

/-- `copy.deepcopy(self.instruments)` (`src/tatc/schemas/satellite.py` L126, L260, L394): new instruments and a new list; two
references to one instrument become two references to one copy.  Simplification: a copy is made for each reference, of
which the first one of the same instrument is used. -/
def deepcopyList (h : Heap O I) (l : Nat) : Nat × Heap O I :=
  let refs := h.lists.getD l []
  let base := h.instruments.length
  (h.lists.length,
    { h with instruments := h.instruments ++ refs.filterMap fun r => h.instruments[r]?
             lists := h.lists ++ [refs.map fun r => base + refs.idxOf r] })

/-- `Satellite(name=..., orbit=..., instruments=...)` (`src/tatc/schemas/satellite.py` L120-L127): the orbit and the
instruments are the given ones, the list is new. -/
def newSystem (h : Heap O I) (name : List Char) (orbit list : Nat) : Nat × Heap O I :=
  (h.systems.length,
    { h with lists := h.lists ++ [h.lists.getD list []]
             systems := h.systems ++ [⟨name, orbit, h.lists.length⟩] })

/-- A new orbit, as `get_derived_orbit` and `KeplerianOrbit(...)` return
(`src/tatc/schemas/satellite.py` L122-L125, L254-L259, L378-L388). -/
def newOrbit (h : Heap O I) (o : O) : Nat × Heap O I := (h.orbits.length, { h with orbits := h.orbits ++ [o] })

/-- One member of a constellation: an orbit made from that of the constellation, and a copy of its instruments
(`src/tatc/schemas/satellite.py` L120-L127, L247-L261, L391-L395). -/
def member (c : Nat) (derive : O → O) (name : List Char) (h : Heap O I) : Nat × Heap O I :=
  match h.systems[c]? with
  | none => (0, h)
  | some s =>
    match h.orbits[s.orbit]? with
    | none => (0, h)
    | some o =>
      let (orbit, h) := newOrbit h (derive o)
      let (list, h) := deepcopyList h s.instruments
      newSystem h name orbit list

/-- `generate_members` of trains, Walker constellations and mutual orbiting groups
(`src/tatc/schemas/satellite.py` L110-L128, L238-L262, L294-L396): the names and orbits are those of `plan`; they are modelled
in `Model/Constellation.lean` and `Model/Mog.lean`.  Simplification: the orbits of a mutual orbiting group are made before
the first satellite. -/
def generateMembers (c : Nat) : List ((O → O) × List Char) → Heap O I → List Nat × Heap O I
  | [], h => ([], h)
  | (derive, name) :: plan, h =>
    let r := member c derive name h
    let rest := generateMembers c plan r.2
    (r.1 :: rest.1, rest.2)

/-- `Satellite.generate_members` (`src/tatc/schemas/satellite.py` L56-L63). -/
def satelliteMembers (c : Nat) (h : Heap O I) : List Nat × Heap O I := ([c], h)

/-- `SOCConstellation.generate_walker` (`src/tatc/schemas/satellite.py` L472-L478): the orbit and the instruments are those of
the constellation. -/
def generateWalker (c : Nat) (h : Heap O I) : Nat × Heap O I :=
  match h.systems[c]? with
  | none => (0, h)
  | some s => newSystem h s.name s.orbit s.instruments

/-- `SOCConstellation.generate_members` (`src/tatc/schemas/satellite.py` L480-L481). -/
def socMembers (c : Nat) (plan : List ((O → O) × List Char)) (h : Heap O I) : List Nat × Heap O I :=
  let (w, h) := generateWalker c h
  generateMembers w plan h

/-- What a user, or an analysis, can do to a space system (`src/tatc/schemas/satellite.py` L29-L45): change its name;
change a field of its orbit, as `to_tle` does when it stores the element set (`src/tatc/schemas/orbit.py` L814), or of one of
its instruments; give it another orbit or other instruments; add, remove or replace an instrument in its list. -/
inductive Change (O I : Type)
  | rename (name : List Char)
  | changeOrbit (f : O → O)
  | changeInstrument (k : Nat) (f : I → I)
  | assignOrbit (o : O)
  | assignInstruments (is : List I)
  | append (i : I)
  | remove (k : Nat)
  | replace (k : Nat) (i : I)

/-- One change of the system `m`; a missing index changes nothing (`src/tatc/schemas/satellite.py` L29-L45). -/
def change (m : Nat) (h : Heap O I) (c : Change O I) : Heap O I :=
  match h.systems[m]? with
  | none => h
  | some s =>
    match c with
    | .rename name => { h with systems := h.systems.set m { s with name := name } }
    | .changeOrbit f => { h with orbits := h.orbits.modify s.orbit f }
    | .changeInstrument k f =>
      match (h.lists.getD s.instruments [])[k]? with
      | none => h
      | some r => { h with instruments := h.instruments.modify r f }
    | .assignOrbit o =>
      { h with orbits := h.orbits ++ [o], systems := h.systems.set m { s with orbit := h.orbits.length } }
    | .assignInstruments is =>
      { h with instruments := h.instruments ++ is
               lists := h.lists ++ [(List.range is.length).map (h.instruments.length + ·)]
               systems := h.systems.set m { s with instruments := h.lists.length } }
    | .append i =>
      { h with instruments := h.instruments ++ [i]
               lists := h.lists.modify s.instruments (· ++ [h.instruments.length]) }
    | .remove k => { h with lists := h.lists.modify s.instruments (·.eraseIdx k) }
    | .replace k i =>
      { h with instruments := h.instruments ++ [i]
               lists := h.lists.modify s.instruments (·.set k h.instruments.length) }

/-- A history of changes of one system (`src/tatc/schemas/satellite.py` L29-L45). -/
def changes (m : Nat) (h : Heap O I) (cs : List (Change O I)) : Heap O I := cs.foldl (change m) h

/-- What a user sees of a space system: its name, its orbit and its instruments
(`src/tatc/schemas/satellite.py` L29-L45). -/
def view (h : Heap O I) (m : Nat) : Option (List Char × O × List I) :=
  match h.systems[m]? with
  | none => none
  | some s =>
    match h.orbits[s.orbit]?, h.lists[s.instruments]? with
    | some o, some l => some (s.name, o, l.filterMap fun r => h.instruments[r]?)
    | _, _ => none

end Tatc.Sharing
