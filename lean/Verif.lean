import Verif.Alignment
import Verif.AlignmentLemmas
import Verif.CableElongation
import Verif.CableElongationLemmas
import Verif.CableElongationSpec
import Verif.CableElongationTotal
import Verif.CableModel
import Verif.CableReloader
import Verif.CableReloaderLemmas
import Verif.CableUnitLoad
import Verif.Catenary2d
import Verif.Catenary2dLemmas
import Verif.Catenary3d
import Verif.Catenary3dLemmas
import Verif.CatenarySolver
import Verif.CatenarySolverLemmas
import Verif.ComponentElongation
import Verif.ComponentElongationLemmas
import Verif.ConnectionsAgree
import Verif.Double
import Verif.DoubleAngle
import Verif.DoubleAttachment
import Verif.DoubleBase
import Verif.DoubleBaseLemmas
import Verif.DoubleCatenary
import Verif.DoubleElongation
import Verif.DoubleFinite
import Verif.DoubleFiniteBase
import Verif.DoubleFiniteLemmas
import Verif.DoubleHeat
import Verif.DoubleHeatLemmas
import Verif.DoubleLemmas
import Verif.DoubleLine
import Verif.DoubleLoads
import Verif.DoubleRadiation
import Verif.DoubleSearch
import Verif.DoubleSpatial
import Verif.DoubleSun
import Verif.DoubleSwing
import Verif.DoubleTangent
import Verif.ElongationHeap
import Verif.ElongationHeapLemmas
import Verif.GrowthLemmas
import Verif.Helper
import Verif.HelperText
import Verif.LineAlias
import Verif.LineCable
import Verif.LineCableLemmas
import Verif.LineCopy
import Verif.LineExec
import Verif.LineGeometry
import Verif.LineGeometryLemmas
import Verif.LineInside
import Verif.LineInvariant
import Verif.LineLoader
import Verif.LineLoaderFacts
import Verif.LineLoaderLemmas
import Verif.LineSagger
import Verif.LineSaggerLemmas
import Verif.LineStraight
import Verif.LineStructure
import Verif.LineValidate
import Verif.Locator
import Verif.LocatorLemmas
import Verif.NotANumber
import Verif.Outcome
import Verif.PolyHeap
import Verif.PolyHeapLemmas
import Verif.Polynomial
import Verif.PolynomialLemmas
import Verif.Props.Acceptance
import Verif.Props.AcceptanceTools
import Verif.Props.Alignment
import Verif.Props.AllOrNone
import Verif.Props.Ampacity
import Verif.Props.BuildOrder
import Verif.Props.CableElongation
import Verif.Props.CableReloader
import Verif.Props.CableUnitLoad
import Verif.Props.Catenary2d
import Verif.Props.Catenary3d
import Verif.Props.CatenaryLift
import Verif.Props.CatenaryMirror
import Verif.Props.CatenarySolver
import Verif.Props.CatenaryTighter
import Verif.Props.CatenaryUnits
import Verif.Props.ComponentElongation
import Verif.Props.Connections
import Verif.Props.CorrectionSign
import Verif.Props.CorrectorPoints
import Verif.Props.DoubleAngle
import Verif.Props.DoubleAttachment
import Verif.Props.DoubleCatenary
import Verif.Props.DoubleElongation
import Verif.Props.DoubleFinite
import Verif.Props.DoubleFiniteAgree
import Verif.Props.DoubleFiniteBase
import Verif.Props.DoubleHeat
import Verif.Props.DoubleHelper
import Verif.Props.DoubleInclined
import Verif.Props.DoubleLine
import Verif.Props.DoubleLoads
import Verif.Props.DoublePolynomial
import Verif.Props.DoubleRadiation
import Verif.Props.DoubleSearch
import Verif.Props.DoubleSpan
import Verif.Props.DoubleSpatial
import Verif.Props.DoubleStation
import Verif.Props.DoubleSun
import Verif.Props.DoubleSwing
import Verif.Props.DoubleTangent
import Verif.Props.DoubleUnits
import Verif.Props.DoubleVector
import Verif.Props.ElongationAccepts
import Verif.Props.ElongationHeap
import Verif.Props.ElongationUnits
import Verif.Props.Equilibrium
import Verif.Props.HeatLoss
import Verif.Props.HeavierLoad
import Verif.Props.Helper
import Verif.Props.HelperFormat
import Verif.Props.HelperGeneral
import Verif.Props.HelperText
import Verif.Props.LineAlias
import Verif.Props.LineCable
import Verif.Props.LineGeometry
import Verif.Props.LineLoader
import Verif.Props.LineLocality
import Verif.Props.LineOrigin
import Verif.Props.LineSagger
import Verif.Props.LineSaggerExample
import Verif.Props.LineStraight
import Verif.Props.LineUnits
import Verif.Props.LineUnloader
import Verif.Props.Locator
import Verif.Props.LocatorExample
import Verif.Props.LocatorSwing
import Verif.Props.LongerSpan
import Verif.Props.MirroredLine
import Verif.Props.MoreStretch
import Verif.Props.NeverGiven
import Verif.Props.NeverGivenLoaders
import Verif.Props.NotANumber
import Verif.Props.NotANumberLine
import Verif.Props.OwnConstraint
import Verif.Props.PointeeEdits
import Verif.Props.PolyHeap
import Verif.Props.Polynomial
import Verif.Props.RejectedSolvers
import Verif.Props.ReloadAbove
import Verif.Props.ReloadAgain
import Verif.Props.RulingSpan
import Verif.Props.SagCorrector
import Verif.Props.SaggerLimitKept
import Verif.Props.Sagging
import Verif.Props.SaggingTighter
import Verif.Props.SaggingUnits
import Verif.Props.Slacker
import Verif.Props.Solar
import Verif.Props.SolarUnits
import Verif.Props.SolverHistory
import Verif.Props.SolverOrder
import Verif.Props.SolverTension
import Verif.Props.StrainFound
import Verif.Props.StrainPositive
import Verif.Props.Strainer
import Verif.Props.StretchFound
import Verif.Props.StretchTransfer
import Verif.Props.StretchUndefined
import Verif.Props.SupportRaised
import Verif.Props.SwingOrder
import Verif.Props.TangentAlong
import Verif.Props.TemperatureHistory
import Verif.Props.Thermal
import Verif.Props.ThermalHistory
import Verif.Props.ThermalShift
import Verif.Props.Transient
import Verif.Props.TransitOverhead
import Verif.Props.TransmissionLine
import Verif.Props.Undo
import Verif.Props.UnitSizes
import Verif.Props.UnitSystems
import Verif.Props.Units
import Verif.Props.Validators
import Verif.Props.Vector
import Verif.SagCorrector
import Verif.SagCorrectorLemmas
import Verif.SagLemmas
import Verif.Sagging
import Verif.SaggingLemmas
import Verif.SecantGrowth
import Verif.SecantLemmas
import Verif.SectionCable
import Verif.Solar
import Verif.SolarLemmas
import Verif.StructureValidate
import Verif.TensionLemmas
import Verif.Thermal
import Verif.ThermalLemmas
import Verif.ThermalSolvers
import Verif.TransmissionLine
import Verif.TransmissionLineLemmas
import Verif.TrigSeries
import Verif.Units
import Verif.Vector
import Verif.VectorLemmas
