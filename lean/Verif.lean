import Verif.Lemmas.Alike
import Verif.Lemmas.BiRectangular
import Verif.Lemmas.Close
import Verif.Lemmas.Commute
import Verif.Lemmas.Coordinates
import Verif.Lemmas.Domains
import Verif.Lemmas.Duration
import Verif.Lemmas.DurationCeil
import Verif.Lemmas.DurationFloor
import Verif.Lemmas.Equivalence
import Verif.Lemmas.Features
import Verif.Lemmas.GFunction
import Verif.Lemmas.GKinds
import Verif.Lemmas.Ground
import Verif.Lemmas.GroundHeatExchangers
import Verif.Lemmas.GroundLoads
import Verif.Lemmas.Heat
import Verif.Lemmas.HeatConcave
import Verif.Lemmas.HeatError
import Verif.Lemmas.Hybrid
import Verif.Lemmas.HybridTotal
import Verif.Lemmas.InterpClose
import Verif.Lemmas.Loads
import Verif.Lemmas.Mirror
import Verif.Lemmas.MirrorLoads
import Verif.Lemmas.Moved
import Verif.Lemmas.Nan
import Verif.Lemmas.OfficeLast
import Verif.Lemmas.OfficeTable
import Verif.Lemmas.PyList
import Verif.Lemmas.Radial
import Verif.Lemmas.RadialSim
import Verif.Lemmas.Rectangular
import Verif.Lemmas.Report
import Verif.Lemmas.ReportState
import Verif.Lemmas.RoundTrip
import Verif.Lemmas.RoundedBasic
import Verif.Lemmas.RoundedBounds
import Verif.Lemmas.RoundedGhe
import Verif.Lemmas.RoundedHybrid
import Verif.Lemmas.RoundedHybridBounds
import Verif.Lemmas.RoundedHybridLoads
import Verif.Lemmas.RoundedInterp
import Verif.Lemmas.RoundedLoads
import Verif.Lemmas.RoundedMonths
import Verif.Lemmas.RoundedNested
import Verif.Lemmas.RoundedRectangular
import Verif.Lemmas.RoundedShapes
import Verif.Lemmas.RoundedWhole
import Verif.Lemmas.RoundedZoned
import Verif.Lemmas.RoundedZonedNested
import Verif.Lemmas.Rounding
import Verif.Lemmas.ScaleLoads
import Verif.Lemmas.Scaling
import Verif.Lemmas.SearchOrder
import Verif.Lemmas.SearchRoutines
import Verif.Lemmas.Session
import Verif.Lemmas.Shapes
import Verif.Lemmas.Superposition
import Verif.Lemmas.Synthetic
import Verif.Lemmas.Turned
import Verif.Lemmas.Utilities
import Verif.Lemmas.Warm
import Verif.Lemmas.WholeGhe
import Verif.Lemmas.WholeMake
import Verif.Lemmas.WholeSearch
import Verif.Lemmas.WholeTotal
import Verif.Lemmas.Zoned
import Verif.Lemmas.ZonedNested
import Verif.Model.Compare
import Verif.Model.Coordinates
import Verif.Model.Crash
import Verif.Model.Creation
import Verif.Model.Design
import Verif.Model.Domains
import Verif.Model.Equivalence
import Verif.Model.Export
import Verif.Model.FeatureRecognition
import Verif.Model.Files
import Verif.Model.FindScripts
import Verif.Model.FlowRates
import Verif.Model.GFunction
import Verif.Model.GroundHeatExchangers
import Verif.Model.GroundLoads
import Verif.Model.Interp
import Verif.Model.Library
import Verif.Model.Nan
import Verif.Model.Network
import Verif.Model.Office
import Verif.Model.OfficeLoads
import Verif.Model.Ornl
import Verif.Model.PeakTable
import Verif.Model.Pipes
import Verif.Model.Plots
import Verif.Model.Radial
import Verif.Model.Refill
import Verif.Model.Report
import Verif.Model.RoundedDomains
import Verif.Model.RoundedGhe
import Verif.Model.RoundedHybrid
import Verif.Model.RoundedLoads
import Verif.Model.RoundedResponse
import Verif.Model.RoundedSearch
import Verif.Model.RoundedSimulation
import Verif.Model.RoundedWhole
import Verif.Model.Rounding
import Verif.Model.Script
import Verif.Model.SearchRoutines
import Verif.Model.Session
import Verif.Model.Shared
import Verif.Model.Texts
import Verif.Model.Ticks
import Verif.Model.TubeScripts
import Verif.Model.Utilities
import Verif.Model.WholeGhe
import Verif.Model.WholeSearch
import Verif.Props.Calendar
import Verif.Props.CoaxialExample
import Verif.Props.Compare
import Verif.Props.CompareExample
import Verif.Props.Coordinates
import Verif.Props.Crash
import Verif.Props.Creation
import Verif.Props.Deeper
import Verif.Props.Design
import Verif.Props.DesignExample
import Verif.Props.Domains
import Verif.Props.EmptyField
import Verif.Props.Equivalence
import Verif.Props.EquivalenceExample
import Verif.Props.Export
import Verif.Props.Features
import Verif.Props.FieldContents
import Verif.Props.Files
import Verif.Props.FindScripts
import Verif.Props.FluidPlots
import Verif.Props.GDamaged
import Verif.Props.GFunction
import Verif.Props.GKinds
import Verif.Props.Gaps
import Verif.Props.GapsExact
import Verif.Props.GapsIff
import Verif.Props.GridExample
import Verif.Props.GroundHeatExchangers
import Verif.Props.HoursSlow
import Verif.Props.Hybrid
import Verif.Props.HybridFits
import Verif.Props.HybridScale
import Verif.Props.HybridScaleExample
import Verif.Props.HybridWitness
import Verif.Props.Inexact
import Verif.Props.Inputs
import Verif.Props.Library
import Verif.Props.LibraryExample
import Verif.Props.Loads
import Verif.Props.LoadsExample
import Verif.Props.Mirror
import Verif.Props.MoreLoad
import Verif.Props.MoreLoadExample
import Verif.Props.Moved
import Verif.Props.Nan
import Verif.Props.NestedSearch
import Verif.Props.Network
import Verif.Props.Office
import Verif.Props.OfficeSize
import Verif.Props.Ornl
import Verif.Props.PeakDuration
import Verif.Props.PeakTable
import Verif.Props.PeaksShort
import Verif.Props.Pipes
import Verif.Props.Plots
import Verif.Props.Radial
import Verif.Props.Refill
import Verif.Props.RefillExample
import Verif.Props.Report
import Verif.Props.Round
import Verif.Props.Rounded
import Verif.Props.RoundedAgree
import Verif.Props.RoundedDesign
import Verif.Props.RoundedExample
import Verif.Props.RoundedFindings
import Verif.Props.RoundedGhe
import Verif.Props.RoundedHybrid
import Verif.Props.RoundedLoads
import Verif.Props.RoundedNested
import Verif.Props.RoundedResponse
import Verif.Props.RoundedSearch
import Verif.Props.RoundedSearchExample
import Verif.Props.RoundedSimulation
import Verif.Props.RoundedWhole
import Verif.Props.RoundedWholeExample
import Verif.Props.RoundedZoned
import Verif.Props.RoundedZonedNested
import Verif.Props.Script
import Verif.Props.SearchRoutines
import Verif.Props.Session
import Verif.Props.SessionExample
import Verif.Props.Shared
import Verif.Props.SharedExample
import Verif.Props.Slowing
import Verif.Props.Stability
import Verif.Props.StabilityExample
import Verif.Props.SuccessiveOutcomes
import Verif.Props.Superpose
import Verif.Props.Synthetic
import Verif.Props.Texts
import Verif.Props.Ticks
import Verif.Props.TownExample
import Verif.Props.TubeScripts
import Verif.Props.TubeScriptsExample
import Verif.Props.Utilities
import Verif.Props.Warm
import Verif.Props.WholeDesign
import Verif.Props.WholeGhe
import Verif.Props.WholeMake
import Verif.Props.WholeSearch
import Verif.Props.WholeSize
import Verif.Props.WholeValue
import Verif.Props.Workflow
import Verif.Props.WorkflowExample
import Verif.Props.Year
import Verif.Props.ZonedDesign
import Verif.Props.ZonedExample
import Verif.Props.ZonedFields
import Verif.Props.ZonedShape
import Verif.Py
import Verif.PyState
import Verif.Spec.Field
import Verif.Spec.Floats
import Verif.Spec.Ground
import Verif.Spec.Hybrid
import Verif.Spec.Lasting
import Verif.Spec.Mirror
import Verif.Spec.Near
import Verif.Spec.Peaks
import Verif.Spec.Radial
import Verif.Spec.RadialGrid
import Verif.Spec.Report
import Verif.Spec.Response
import Verif.Spec.Sizing
import Verif.Spec.Synthetic
import Verif.Spec.Tabulated
import Verif.Spec.Texts
import Verif.Spec.TubeScripts
import Verif.Spec.Warm
import Verif.Spec.Year
import Verif.Audit
