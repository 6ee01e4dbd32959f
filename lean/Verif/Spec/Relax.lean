import Verif.Model.Latency
import Mathlib.Data.List.Forall2

/-!
# Specification: asking less of the instruments, or having more of them
-/

namespace Tatc.Spec
open Tatc.Coverage

/-- The same instrument on the same passes, with a minimum access time that is not longer and tests that are not stricter. -/
structure AsksLess (r r' : InstrumentRun) : Prop where
  name : r'.spec.name = r.spec.name
  kind : r'.spec.fixed = r.spec.fixed
  minimum : r'.spec.minAccess ≤ r.spec.minAccess
  tests : ∀ p, r.valid p = true → r'.valid p = true
  passes : r'.periods = r.periods

/-- The same satellite: every instrument is still there, in the same order, and none asks more; there may be others. -/
structure KeepsInstruments (m m' : Member) : Prop where
  name : m'.name = m.name
  instruments : List.SublistForall₂ AsksLess m.instruments m'.instruments

/-- Every member of every constellation is still there; there may be others. -/
def KeepsSatellites (s s' : List (List Member)) : Prop :=
  List.SublistForall₂ (fun c c' => List.SublistForall₂ KeepsInstruments c c') s s'

/-- Every ground station is still there, with the same contacts and a minimum access time that is not longer; there may be
others. -/
def KeepsStations (s s' : List (Latency.Station × List Interval)) : Prop :=
  List.SublistForall₂ (fun a b => b.1.name = a.1.name ∧ b.1.minAccess ≤ a.1.minAccess ∧ b.2 = a.2) s s'

end Tatc.Spec
