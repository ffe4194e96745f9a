import Verif.Lemmas.AS
import Verif.Lemmas.ASEvolve
import Verif.Lemmas.Amplitude
import Verif.Lemmas.ApiAS
import Verif.Lemmas.ApiCS
import Verif.Lemmas.ArraysLaw
import Verif.Lemmas.ArraysOk
import Verif.Lemmas.ArraysRel
import Verif.Lemmas.ArraysRun
import Verif.Lemmas.ArraysTie
import Verif.Lemmas.BExpand
import Verif.Lemmas.BFlow
import Verif.Lemmas.BLead
import Verif.Lemmas.BOrder
import Verif.Lemmas.BSeries
import Verif.Lemmas.BTable
import Verif.Lemmas.BesselFn
import Verif.Lemmas.BesselModes
import Verif.Lemmas.Binary64
import Verif.Lemmas.Broadcast
import Verif.Lemmas.BroadcastAllenCahn
import Verif.Lemmas.BroadcastEig
import Verif.Lemmas.BroadcastFlat
import Verif.Lemmas.BroadcastFull
import Verif.Lemmas.BroadcastModels
import Verif.Lemmas.BroadcastNorm
import Verif.Lemmas.BroadcastRel
import Verif.Lemmas.BroadcastSeen
import Verif.Lemmas.BroadcastShape
import Verif.Lemmas.BroadcastStep
import Verif.Lemmas.BroadcastTags
import Verif.Lemmas.BuildAS
import Verif.Lemmas.CS
import Verif.Lemmas.CSEvolve
import Verif.Lemmas.Calculus
import Verif.Lemmas.Chain
import Verif.Lemmas.Cheb
import Verif.Lemmas.Clock
import Verif.Lemmas.CoefBounds
import Verif.Lemmas.Conj
import Verif.Lemmas.Construct
import Verif.Lemmas.Contour
import Verif.Lemmas.ContourMat
import Verif.Lemmas.Controller
import Verif.Lemmas.Count
import Verif.Lemmas.Damping
import Verif.Lemmas.Dtypes
import Verif.Lemmas.DtypesReal
import Verif.Lemmas.ERK
import Verif.Lemmas.ETDCoef
import Verif.Lemmas.Estimate
import Verif.Lemmas.Expm
import Verif.Lemmas.Factor
import Verif.Lemmas.FirstRaise
import Verif.Lemmas.Float64
import Verif.Lemmas.FloatAdvection
import Verif.Lemmas.FloatArith
import Verif.Lemmas.FloatBranch
import Verif.Lemmas.FloatCheb
import Verif.Lemmas.FloatCoefs
import Verif.Lemmas.FloatDeriv
import Verif.Lemmas.FloatExact
import Verif.Lemmas.FloatGrids
import Verif.Lemmas.FloatHankel
import Verif.Lemmas.FloatKx
import Verif.Lemmas.FloatMatCoefs
import Verif.Lemmas.FloatMatExact
import Verif.Lemmas.FloatMatLoop
import Verif.Lemmas.FloatMatNear
import Verif.Lemmas.FloatMean
import Verif.Lemmas.FloatModels
import Verif.Lemmas.FloatNear
import Verif.Lemmas.FloatPsi
import Verif.Lemmas.FloatSolve
import Verif.Lemmas.Fourier
import Verif.Lemmas.Heap
import Verif.Lemmas.HeapBlocks
import Verif.Lemmas.HeapBuffer
import Verif.Lemmas.HeapInPlace
import Verif.Lemmas.HeapInPlaceAS
import Verif.Lemmas.HeapLoop
import Verif.Lemmas.HeapSolvers
import Verif.Lemmas.HeapTie
import Verif.Lemmas.InPlaceEvolve
import Verif.Lemmas.InPlaceStep
import Verif.Lemmas.InPlaceTrial
import Verif.Lemmas.Intertwine
import Verif.Lemmas.Invariant
import Verif.Lemmas.LawETD34
import Verif.Lemmas.LawETD35
import Verif.Lemmas.LawETD4
import Verif.Lemmas.LawETD5
import Verif.Lemmas.LawIF34
import Verif.Lemmas.LawIF4
import Verif.Lemmas.LawIF45DP
import Verif.Lemmas.Lawful
import Verif.Lemmas.Limit
import Verif.Lemmas.NonFinite
import Verif.Lemmas.NonFiniteExact
import Verif.Lemmas.NonFiniteLoose
import Verif.Lemmas.NonFiniteRun
import Verif.Lemmas.OneStep
import Verif.Lemmas.OrderCond
import Verif.Lemmas.Oscillation
import Verif.Lemmas.PhiFun
import Verif.Lemmas.RawAS
import Verif.Lemmas.Reflect
import Verif.Lemmas.RelLoop
import Verif.Lemmas.Relate
import Verif.Lemmas.Restart
import Verif.Lemmas.Retry
import Verif.Lemmas.RoundedArith
import Verif.Lemmas.RoundedCoefs
import Verif.Lemmas.RoundedError
import Verif.Lemmas.RoundedGlobal
import Verif.Lemmas.RoundedLaw
import Verif.Lemmas.RoundedOk
import Verif.Lemmas.RoundedRun
import Verif.Lemmas.RoundedSolver
import Verif.Lemmas.RoundedStep
import Verif.Lemmas.RoundedTie
import Verif.Lemmas.Similar
import Verif.Lemmas.SizedLoop
import Verif.Lemmas.Spectral
import Verif.Lemmas.Stability
import Verif.Lemmas.Stages
import Verif.Lemmas.StagesAS
import Verif.Lemmas.StagesCS
import Verif.Lemmas.StiffMethods
import Verif.Lemmas.StiffPhi
import Verif.Lemmas.StiffReduce
import Verif.Lemmas.StiffRun
import Verif.Lemmas.StiffStable
import Verif.Lemmas.StiffStep
import Verif.Lemmas.Subspace
import Verif.Lemmas.Taylor
import Verif.Lemmas.Times
import Verif.Lemmas.TimesTie
import Verif.Lemmas.Translate
import Verif.Lemmas.Underflow
import Verif.Lemmas.User
import Verif.Lemmas.Witness
import Verif.Lemmas.WrapAS
import Verif.Lemmas.WrapCS
import Verif.Model.Arrays
import Verif.Model.Binary64
import Verif.Model.Broadcast
import Verif.Model.BroadcastModels
import Verif.Model.ComputeS
import Verif.Model.Config
import Verif.Model.Construct
import Verif.Model.Derivatives
import Verif.Model.Dtypes
import Verif.Model.ETD
import Verif.Model.ETD34
import Verif.Model.ETD35
import Verif.Model.ETD4
import Verif.Model.ETD5
import Verif.Model.FloatArith
import Verif.Model.FloatCoefs
import Verif.Model.FloatGrids
import Verif.Model.FloatHankel
import Verif.Model.FloatMatrix
import Verif.Model.FloatModels
import Verif.Model.Fourier
import Verif.Model.Grids
import Verif.Model.Hankel
import Verif.Model.HankelNd
import Verif.Model.Heap
import Verif.Model.IF34
import Verif.Model.IF4
import Verif.Model.IF45DP
import Verif.Model.Logging
import Verif.Model.Method
import Verif.Model.MirrorNd
import Verif.Model.Models
import Verif.Model.NonFinite
import Verif.Model.Operator
import Verif.Model.Py
import Verif.Model.Rounded
import Verif.Model.RoundedArith
import Verif.Model.Settings
import Verif.Model.SolverAS
import Verif.Model.SolverCS
import Verif.Model.SolverType
import Verif.Model.Solvers
import Verif.Model.Subnormal
import Verif.Model.Times
import Verif.Props.Accuracy
import Verif.Props.AccuracyEst
import Verif.Props.Adaptive
import Verif.Props.AdaptiveClock
import Verif.Props.AdaptiveEvolve
import Verif.Props.Aliasing
import Verif.Props.AllenCahn
import Verif.Props.Amplitude
import Verif.Props.BesselHankel
import Verif.Props.Chebyshev
import Verif.Props.Clock
import Verif.Props.Companion
import Verif.Props.Config
import Verif.Props.Confined
import Verif.Props.Conservation
import Verif.Props.ConstStep
import Verif.Props.ConstantForcing
import Verif.Props.Construct
import Verif.Props.ContourBounds
import Verif.Props.Convergence
import Verif.Props.Damping
import Verif.Props.DerivArgs
import Verif.Props.Dtypes
import Verif.Props.Exact
import Verif.Props.Examples
import Verif.Props.FloatAdaptive
import Verif.Props.FloatAllenCahn
import Verif.Props.FloatCases
import Verif.Props.FloatCoefs
import Verif.Props.FloatEnd
import Verif.Props.FloatGrids
import Verif.Props.FloatHankel
import Verif.Props.FloatModels
import Verif.Props.FloatProblems
import Verif.Props.FloatRuns
import Verif.Props.Forcing
import Verif.Props.Hankel
import Verif.Props.HelperShapes
import Verif.Props.History
import Verif.Props.HistoryExamples
import Verif.Props.Idle
import Verif.Props.InPlace
import Verif.Props.InPlaceAS
import Verif.Props.Intertwine
import Verif.Props.LinAlg
import Verif.Props.Lists
import Verif.Props.Liveness
import Verif.Props.MinStep
import Verif.Props.Mirror
import Verif.Props.MirrorNd
import Verif.Props.ModelBatches
import Verif.Props.ModelConv
import Verif.Props.ModelOps
import Verif.Props.MoreCases
import Verif.Props.NonFinite
import Verif.Props.Operator
import Verif.Props.OperatorExamples
import Verif.Props.Order
import Verif.Props.Oscillation
import Verif.Props.PeriodicGrid
import Verif.Props.Phi
import Verif.Props.Prefix
import Verif.Props.Replay
import Verif.Props.Restart
import Verif.Props.Rounded
import Verif.Props.Rounding
import Verif.Props.Schemes
import Verif.Props.Settings
import Verif.Props.SettingsExamples
import Verif.Props.Shapes
import Verif.Props.ShapesMore
import Verif.Props.Soliton
import Verif.Props.SolverKind
import Verif.Props.SpectralDeriv
import Verif.Props.StepGrowth
import Verif.Props.Stiff
import Verif.Props.Symmetry
import Verif.Props.TestEquation
import Verif.Props.Times
import Verif.Props.Tolerances
import Verif.Props.Underflow
import Verif.Spec.Adaptive
import Verif.Spec.Bessel
import Verif.Spec.Clock
import Verif.Spec.Config
import Verif.Spec.Confined
import Verif.Spec.ConstantForcing
import Verif.Spec.Construct
import Verif.Spec.Convergence
import Verif.Spec.Damping
import Verif.Spec.Dtypes
import Verif.Spec.ERK
import Verif.Spec.ETrees
import Verif.Spec.FloatCoefs
import Verif.Spec.FloatGrids
import Verif.Spec.FloatHankel
import Verif.Spec.FloatModels
import Verif.Spec.Heap
import Verif.Spec.Idle
import Verif.Spec.InPlace
import Verif.Spec.Intertwine
import Verif.Spec.Limit
import Verif.Spec.Methods
import Verif.Spec.NonFinite
import Verif.Spec.Oscillation
import Verif.Spec.Phi
import Verif.Spec.Relate
import Verif.Spec.Rounded
import Verif.Spec.Run
import Verif.Spec.RungeKutta
import Verif.Spec.Shapes
import Verif.Spec.Solvers
import Verif.Spec.Stiff
import Verif.Spec.TestEquation
import Verif.Spec.Tolerance
import Verif.Spec.Translate
import Verif.Spec.Trees
