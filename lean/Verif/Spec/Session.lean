import Verif.Model.Session

/-!
# What calls should be computed with
-/

namespace Tatc.Spec
open Tatc.Session Tatc.Config

/-- The settings after the first steps of a session: those that were made last. -/
def settingsAfter (rc : RuntimeConfig) : List Op → RuntimeConfig
  | [] => rc
  | .configure rc' :: ops => settingsAfter rc' ops
  | _ :: ops => settingsAfter rc ops

/-- What a call asks for, given the settings: an argument that is given counts, otherwise the setting of that name.
`none` for a call that does not ask for a repeat cycle; otherwise the criteria of the search and whether a stored repeat
cycle may be used. -/
noncomputable def asks (rc : RuntimeConfig) : Op → Option (Criteria × Bool)
  | .repeatCycle a => some
      (⟨a.deltaPosition.getD rc.deltaPosition, a.deltaVelocity.getD rc.deltaVelocity,
        a.elevation.getD rc.searchElevation,
        a.duration.getD (Num.roundHalfEven (rc.searchDuration * 24 * 60 * 60 * 1000000))⟩,
        a.lazy.getD rc.lazyLoad)
  | .track tryRepeat => if tryRepeat.getD rc.forOrbitTrack = true then some
      (⟨rc.deltaPosition, rc.deltaVelocity, rc.searchElevation,
        Num.roundHalfEven (rc.searchDuration * 24 * 60 * 60 * 1000000)⟩, rc.lazyLoad) else none
  | .events tryRepeat => if tryRepeat.getD rc.forObservationEvents = true then some
      (⟨rc.deltaPosition, rc.deltaVelocity, rc.searchElevation,
        Num.roundHalfEven (rc.searchDuration * 24 * 60 * 60 * 1000000)⟩, rc.lazyLoad) else none
  | .configure _ => none
  | .footprint _ _ => none

/-- What a call should be computed with, given the settings: the repeat cycle that the search finds, if it asks for one;
the number of points that is given, or else the setting of that name. -/
noncomputable def wanted (search : Criteria → Option Int) (rc : RuntimeConfig) (op : Op) : Option Used :=
  match op with
  | .configure _ => none
  | .footprint _ (some n) => some (.points n)
  | .footprint true none => some (.points rc.pointsRectangularSide)
  | .footprint false none => some (.points rc.pointsElliptical)
  | op => some (.cycle ((asks rc op).bind fun a => search a.1))

end Tatc.Spec
