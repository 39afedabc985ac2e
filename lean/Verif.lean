import Verif.Props.Traversal
import Verif.Props.Views
import Verif.Props.ForwardStencil
import Verif.Props.Bounds
import Verif.Props.Span
import Verif.Props.Expr
import Verif.Props.Assign
import Verif.Props.Window
import Verif.Props.DeviceVector
import Verif.Props.RoundFlux
import Verif.Props.RoundApply
import Verif.Props.RoundStencil
import Verif.Spec.Rounding
import Verif.Props.RoundAdjust
import Verif.Props.RoundBc
import Verif.Props.RoundFalse
import Verif.Props.RoundDyadic
import Verif.Props.Flux
import Verif.Props.Apply
import Verif.Props.Stencil
import Verif.Props.Operator
import Verif.Props.CoarseFine
import Verif.Props.Bc
import Verif.Props.Ghost
import Verif.Props.Corner
import Verif.Props.Steps
import Verif.Props.DotOffset
import Verif.Props.Smooth
import Verif.Props.SmoothUnrolled
import Verif.Props.Energy
import Verif.Props.EnergyOrdered
import Verif.Props.SmoothConv
import Verif.Props.Assemble
import Verif.Props.AssembleSolve
import Verif.Props.Node
import Verif.Props.BlockSmooth
import Verif.Props.AdjustRhs
import Verif.Props.NodeStencil
import Verif.Props.Stability
import Verif.Props.Accuracy
import Verif.Props.Convergence
import Verif.Props.Solve
import Verif.Spec.Eliminate
import Verif.Lemmas.Eliminate
import Verif.Lemmas.EliminateRun
import Verif.Lemmas.RowExamples
import Verif.Props.Eliminate
import Verif.Spec.Bridge
import Verif.Lemmas.Bridge
import Verif.Lemmas.BridgeRun
import Verif.Lemmas.BridgeOff
import Verif.Props.Bridge
import Verif.Spec.Touched
import Verif.Lemmas.Touched
import Verif.Props.Touched
import Verif.Spec.Sides
import Verif.Lemmas.Blind
import Verif.Lemmas.BlindBc
import Verif.Lemmas.Sides
import Verif.Props.Sides
import Verif.Spec.Folded
import Verif.Lemmas.GhostRow
import Verif.Props.GhostRow
import Verif.Model.Kernels.LapackSmooth
import Verif.Spec.BlockEqn
import Verif.Lemmas.LapackSmooth
import Verif.Lemmas.LapackEx
import Verif.Lemmas.OnlyOob
import Verif.Props.LapackSmooth
import Verif.Spec.ErrorEnergy
import Verif.Lemmas.ErrorEnergy
import Verif.Lemmas.ErrorEnergySym
import Verif.Props.ErrorEnergy
import Verif.Spec.RoundError
import Verif.Lemmas.Near
import Verif.Lemmas.FluxOrder
import Verif.Lemmas.RoundOp
import Verif.Props.RoundErrFlux
import Verif.Props.RoundErrApply
import Verif.Props.RoundErrRes
import Verif.Props.RoundErrClose
import Verif.Props.RoundTests
import Verif.Props.RoundErrCoef
import Verif.Spec.RoundSmooth
import Verif.Lemmas.RoundSmooth
import Verif.Lemmas.RoundSmoothEx
import Verif.Props.RoundSmooth
import Verif.Spec.Boundary
import Verif.Lemmas.BoundarySolve
import Verif.Lemmas.BoundaryAsm
import Verif.Lemmas.BoundaryEx
import Verif.Props.BoundarySolve
import Verif.Lemmas.BoundaryOne
import Verif.Lemmas.BoundaryOne3
import Verif.Props.BoundaryOne
import Verif.Lemmas.ExWith
import Verif.Props.Symmetry
import Verif.Props.Reduce
import Verif.Props.Lines
import Verif.Spec.BoundaryExact
import Verif.Lemmas.BoundaryConv
import Verif.Lemmas.BoundaryConvDim
import Verif.Lemmas.BoundaryConvEx
import Verif.Props.BoundaryConv
import Verif.Spec.Fill
import Verif.Lemmas.Fill
import Verif.Lemmas.FillEx
import Verif.Props.Fill
import Verif.Props.Fill3
import Verif.Spec.MatrixFree
import Verif.Lemmas.MatrixFree
import Verif.Lemmas.Thin
import Verif.Props.MatrixFree
import Verif.Props.MatrixFree3
import Verif.Spec.Walls
import Verif.Lemmas.Walls
import Verif.Lemmas.WallsFill
import Verif.Lemmas.WallsRun
import Verif.Lemmas.WallsEx
import Verif.Props.Walls
import Verif.Props.Walls3
import Verif.Model.Kernels.SpanTest
import Verif.Model.Kernels.IterTest
import Verif.Spec.SpanTest
import Verif.Lemmas.SpanTest
import Verif.Lemmas.IterTest
import Verif.Lemmas.FsTest
import Verif.Props.SpanTest
import Verif.Props.FineTest
import Verif.Props.WindowTest
import Verif.Props.IterTest
import Verif.Props.FsTest
import Verif.Props.SubTest
import Verif.Props.OffsetTest
import Verif.Lemmas.Rename
import Verif.Lemmas.FluxRename
import Verif.Lemmas.ApplyRename
import Verif.Lemmas.StencilRename
import Verif.Lemmas.BcRename
import Verif.Lemmas.CoarseFineRename
import Verif.Lemmas.Driver
import Verif.Model.Tests.Driver
import Verif.Model.Tests.Flux
import Verif.Model.Tests.Apply
import Verif.Model.Tests.Stencil
import Verif.Model.Tests.Bc
import Verif.Model.Tests.CoarseFine
import Verif.Props.DotStride
import Verif.Props.FluxDriver
import Verif.Props.ApplyDriver
import Verif.Props.StencilDriver
import Verif.Props.BcDriver
import Verif.Props.CoarseFineDriver
import Verif.Props.DriverOracle
import Verif.Spec.Spectral
import Verif.Lemmas.Spectral
import Verif.Lemmas.SpectralEx
import Verif.Props.Spectral
import Verif.Props.StepContract
import Verif.Props.StepOrder
import Verif.Lemmas.StepSharp
import Verif.Props.StepSharp
import Verif.Lemmas.StepFar
import Verif.Props.StepFar
import Verif.Spec.Insulated
import Verif.Lemmas.Insulated
import Verif.Props.Insulated
import Verif.Model.Tests.Host
import Verif.Model.Tests.Span
import Verif.Lemmas.Host
import Verif.Props.SpanDriver
import Verif.Model.Tests.Window
import Verif.Lemmas.WindowRounds
import Verif.Props.WindowDriver
import Verif.Props.WindowOracle
import Verif.Model.Tests.Iter
import Verif.Lemmas.IterDriver
import Verif.Props.IterDriver
import Verif.Props.IterOracle
import Verif.Props.SubDriver
import Verif.Props.IterOracle
import Verif.Model.Tests.Offset
import Verif.Props.OffsetDriver
import Verif.Props.OffsetOracle
import Verif.Lemmas.DotDriver
import Verif.Props.DotDriver
import Verif.Lemmas.DotOracle
import Verif.Props.DotOracle
import Verif.Lemmas.SpanOracle
import Verif.Props.SpanOracle
import Verif.Lemmas.LapackResidual
import Verif.Props.LapackResidual
