import Verif.Model.Geometry

/-!
# Model of what an instrument says about its view

`src/tatc/schemas/instrument.py` L61-L83 and the `swath_width` column of `src/tatc/analysis/track.py` L164-L207.
-/

namespace Tatc.Instruments
open Tatc.Num Tatc.Geometry

/-- `Instrument.get_swath_width` (`src/tatc/schemas/instrument.py` L61-L71); the elevation of the ground is the default of
`field_of_regard_to_swath_width`, zero. -/
noncomputable def getSwathWidth (fieldOfRegard height : ℝ) : ℝ := forToSwath height fieldOfRegard 0

/-- `Instrument.get_min_elevation_angle` (`src/tatc/schemas/instrument.py` L73-L83); the elevation of the ground is the
default of `compute_min_elevation_angle`, zero. -/
noncomputable def getMinElevationAngle (fieldOfRegard height : ℝ) : ℝ := minElevation height fieldOfRegard 0

/-- The `swath_width` of a row of `collect_orbit_track` (`src/tatc/analysis/track.py` L170-L174, L198-L202): `height` is the
elevation of the point below the satellite that `itrs_xyz` and WGS84 give, here the height of the satellite. -/
noncomputable def trackSwathWidth (height fieldOfRegard elevation : ℝ) : ℝ := forToSwath height fieldOfRegard elevation

end Tatc.Instruments
