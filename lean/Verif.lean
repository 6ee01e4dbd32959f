import Verif.Props.Reduce
import Verif.Props.Grid
import Verif.Props.Visible
import Verif.Props.Collect
import Verif.Props.Latency
import Verif.Props.TleTime
import Verif.Props.Cache
import Verif.Props.Tle
import Verif.Props.TleFields
import Verif.Props.Names
import Verif.Props.Derived
import Verif.Props.Walker
import Verif.Props.Mog
import Verif.Props.Geometry
import Verif.Props.Access
import Verif.Props.Samples
import Verif.Props.Soc
import Verif.Props.Lattice
import Verif.Props.GridPoints
import Verif.Props.MogAnomaly
import Verif.Props.SunSync
import Verif.Props.RoArcs
import Verif.Props.RoGeometry
import Verif.Props.RoSeries
import Verif.Props.Dop
import Verif.Props.PolygonRings
import Verif.Props.PolygonWrap
import Verif.Props.Instrument
import Verif.Props.Rays
import Verif.Props.Footprint
import Verif.Props.OrbitTrack
import Verif.Props.GroundTrack
import Verif.Props.LineTrack
import Verif.Props.Config
import Verif.Props.MeanAnomaly
import Verif.Props.Convert
import Verif.Props.ConvertPeriod
import Verif.Props.FieldOfView
import Verif.Props.Buffer
import Verif.Props.TotalAccess
import Verif.Props.Frames
import Verif.Props.Repeat
import Verif.Spec.Kepler
import Verif.Lemmas.Kepler
import Verif.Props.EndToEnd
import Verif.Props.Kepler
import Verif.Model.Schema
import Verif.Props.Schema
import Verif.Spec.Sight
import Verif.Model.Globe
import Verif.Props.Sight
import Verif.Spec.Regard
import Verif.Model.Collect
import Verif.Props.Regard
import Verif.Spec.Region
import Verif.Lemmas.Region
import Verif.Props.Cutter
import Verif.Props.Region
import Verif.Props.Cap
import Verif.Props.Turned
import Verif.Props.Chunks
import Verif.Props.Consecutive
import Verif.Model.GroundView
import Verif.Props.GroundView
import Verif.Model.Swath
import Verif.Spec.Swath
import Verif.Props.Swath
import Verif.Model.Sharing
import Verif.Props.Sharing
import Verif.Model.Store
import Verif.Props.Store
import Verif.Model.Derive
import Verif.Spec.Derive
import Verif.Props.Derive
import Verif.Model.Solar
import Verif.Spec.Shadow
import Verif.Props.Solar
import Verif.Spec.Positioning
import Verif.Props.DopMeaning
import Verif.Props.LatticeSpread
import Verif.Props.LatticeCover
import Verif.Spec.Streets
import Verif.Props.Streets
import Verif.Props.TimeOrigin
import Verif.Props.Wider
import Verif.Model.Epoch
import Verif.Spec.Calendar
import Verif.Props.Epoch
import Verif.Props.StreetsGap
import Verif.Props.Approach
import Verif.Props.Rounded
import Verif.Props.RoundedGrid
import Verif.Props.MutualMotion
import Verif.Props.Alike
import Verif.Props.RoundedSamples
import Verif.Props.RoundedLattice
import Verif.Props.RoundedLattice
import Verif.Props.RoundedViewing
import Verif.Props.TrueAnomaly
import Verif.Spec.Relax
import Verif.Props.Relax
import Verif.Model.IeeeCells
import Verif.Props.RoundedCells
import Verif.Model.PointSchema
import Verif.Props.ValidPoints
import Verif.Model.IeeeKepler
import Verif.Props.RoundedKepler
import Verif.Model.IeeeRepeat
import Verif.Props.RoundedRepeat
import Verif.Props.SameTimes
import Verif.Props.GridMean
import Verif.Props.RoWider
import Verif.Props.Promise
import Verif.Props.RoundedMean
import Verif.Props.RoundedEpoch
import Verif.Props.LongPass
import Verif.Spec.Passes
import Verif.Props.InView
import Verif.Props.Contact
import Verif.Props.Fewest
import Verif.Props.Ranges
import Verif.Props.Accepted
import Verif.Props.Session
import Verif.Props.Settled
import Verif.Model.Times
import Verif.Props.Times
import Verif.Model.Repair
import Verif.Props.Repair
import Verif.Model.IeeePeriod
import Verif.Props.RoundedPeriod
import Verif.Spec.Symmetry
import Verif.Props.Symmetry
import Verif.Props.PassRows
import Verif.Props.SightGap
import Verif.Props.Recurs
import Verif.Props.Arrival
import Verif.Props.SettledOver
import Verif.Props.Witnesses
import Verif.Model.IeeeSoc
import Verif.Props.RoundedSoc
import Verif.Props.RoundedStreets
import Verif.Props.RoundedTiny
import Verif.Props.RoundedSwath
import Verif.Model.IeeeFov
import Verif.Props.RoundedFov
import Verif.Model.IeeeGround
import Verif.Props.RoundedGround
import Verif.Model.IeeeAnomaly
import Verif.Props.RoundedAnomaly
import Verif.Model.IeeeSso
import Verif.Props.RoundedSso
import Verif.Model.IeeeWalker
import Verif.Props.RoundedWalker
import Verif.Model.IeeeTrain
import Verif.Props.RoundedTrain
import Verif.Model.IeeeDerived
import Verif.Props.RoundedKeplerian
import Verif.Props.RoundedWalkerKeplerian
import Verif.Props.RoundedTrainKeplerian
import Verif.Model.IeeeTle
import Verif.Props.RoundedTle
import Verif.Props.RoundedTleTrain
import Verif.Props.RoundedTleDistinct
import Verif.Props.RoundedTleTrainDistinct
