import Verif.Props.Airspeed
import Verif.Props.Appleman
import Verif.Props.Atmos
import Verif.Props.Autodiff
import Verif.Props.Backends
import Verif.Props.Bada3
import Verif.Props.Bada3Merge
import Verif.Props.Bada3Opf
import Verif.Props.Bada3Synonym
import Verif.Props.Bada4
import Verif.Props.Bada4File
import Verif.Props.Bada4Heating
import Verif.Props.Bada4Missing
import Verif.Props.Bada4Perf
import Verif.Props.Binding
import Verif.Props.Construct
import Verif.Props.Continuity
import Verif.Props.Contrail
import Verif.Props.Crossover
import Verif.Props.Drag
import Verif.Props.Emission
import Verif.Props.EmissionOrder
import Verif.Props.EngineRecord
import Verif.Props.Envelope
import Verif.Props.Feasible
import Verif.Props.Files
import Verif.Props.Filters
import Verif.Props.Finite
import Verif.Props.Fuel
import Verif.Props.Fuzzy
import Verif.Props.Gen
import Verif.Props.GenComplete
import Verif.Props.GenDistance
import Verif.Props.GenDistanceDescent
import Verif.Props.GenFloat
import Verif.Props.GenFloatSetup
import Verif.Props.GenFloatShipped
import Verif.Props.GenFuel
import Verif.Props.GenKeywords
import Verif.Props.GenNoise
import Verif.Props.GenParams
import Verif.Props.GenPhases
import Verif.Props.GenRandom
import Verif.Props.GenSegments
import Verif.Props.GenTime
import Verif.Props.Geo
import Verif.Props.Gradient
import Verif.Props.Graph
import Verif.Props.Humidity
import Verif.Props.Idle
import Verif.Props.Ints
import Verif.Props.JaxShapes
import Verif.Props.Kinematic
import Verif.Props.Lengths
import Verif.Props.LevelFlight
import Verif.Props.Listing
import Verif.Props.Mass
import Verif.Props.MinDrag
import Verif.Props.Missing
import Verif.Props.Nav
import Verif.Props.NavShipped
import Verif.Props.Ndarray
import Verif.Props.Objects
import Verif.Props.Olr
import Verif.Props.Overflow
import Verif.Props.Phase
import Verif.Props.PhaseIndices
import Verif.Props.PhaseLocal
import Verif.Props.PhaseRegions
import Verif.Props.PressureAltitude
import Verif.Props.RangeFuel
import Verif.Props.Registry
import Verif.Props.RegistrySets
import Verif.Props.Rounding
import Verif.Props.RoundingCrossover
import Verif.Props.RoundingDistance
import Verif.Props.RoundingPerf
import Verif.Props.RoundingPressureAlt
import Verif.Props.Route
import Verif.Props.SavGol
import Verif.Props.Selection
import Verif.Props.Shapes
import Verif.Props.Solar
import Verif.Props.Spline
import Verif.Props.Statistics
import Verif.Props.Tape
import Verif.Props.Thrust
import Verif.Props.ThrustLaws
import Verif.Props.TopOfClimb
import Verif.Props.TriplePoint
import Verif.Props.Twf
