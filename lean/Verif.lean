import Verif.Cpp
import Verif.Model.Vec
import Verif.Model.Grid
import Verif.Model.Array
import Verif.Spec.Grid
import Verif.Lemmas.Grid
import Verif.Lemmas.Make
import Verif.Lemmas.Field
import Verif.Lemmas.Array
import Verif.Props.Grid
import Verif.Props.GridHistory
import Verif.Props.Array
import Verif.Props.Vec
import Verif.Model.Levelset
import Verif.Model.Hermite
import Verif.Model.Linear
import Verif.Spec.Levelset
import Verif.Spec.Poly
import Verif.Lemmas.Interp
import Verif.Lemmas.Hermite
import Verif.Lemmas.Generic
import Verif.Props.Hermite
import Verif.Lemmas.Accum
import Verif.Lemmas.Smooth
import Verif.Lemmas.Glue
import Verif.Lemmas.Fields
import Verif.Props.Smooth
import Verif.Props.Limiter
import Verif.Props.Compute
import Verif.Model.Gradient
import Verif.Spec.Stencil
import Verif.Lemmas.Gradient
import Verif.Lemmas.MvPoly
import Verif.Props.Gradient
import Verif.Model.Temporal
import Verif.Lemmas.Temporal
import Verif.Props.Temporal
import Verif.Model.Analytic
import Verif.Lemmas.Analytic
import Verif.Props.Analytic
import Verif.Model.Files
import Verif.Spec.Files
import Verif.Props.Files
import Verif.Model.Parser
import Verif.Spec.Parser
import Verif.Props.Parser
import Verif.Model.App
import Verif.Spec.App
import Verif.Lemmas.App
import Verif.Props.App
import Verif.Props.AppStep
import Verif.Model.RefHermite
import Verif.Props.RefHermite
import Verif.Model.Conc
import Verif.Lemmas.Conc
import Verif.Model.RefTime
import Verif.Model.RefGrid
import Verif.Model.RefCuda
import Verif.Spec.Ref
import Verif.Lemmas.RefRun
import Verif.Lemmas.RefAdvect
import Verif.Props.RefSearch
import Verif.Props.RefAdvect
import Verif.Props.RefLocate
import Verif.Lemmas.RefUpdate
import Verif.Props.RefUpdate
import Verif.Lemmas.RefMixed
import Verif.Lemmas.Sched
import Verif.Props.RefMixed
import Verif.Props.RefStencil
import Verif.Props.RefSuper
import Verif.Props.RefFields
import Verif.Props.RefHeun
import Verif.Model.RefMain
import Verif.Spec.RefRun
import Verif.Props.RefFrames
import Verif.Props.RefStep
import Verif.Props.RefMain
import Verif.Props.RefRace
import Verif.Model.RefMpi
import Verif.Model.RefRanks
import Verif.Model.RefArgs
import Verif.Model.RefHybrid
import Verif.Props.RefMpi
import Verif.Props.RefGather
import Verif.Props.RefHybrid
import Verif.Model.RefCudaMain
import Verif.Props.RefCudaStep
import Verif.Props.RefCudaMain
import Verif.Model.RefOld
import Verif.Spec.RefOld
import Verif.Props.RefCells
import Verif.Props.RefOld
import Verif.Props.RefOldStep
import Verif.Props.RefOldRun
import Verif.Spec.RefLinear
import Verif.Props.RefLinear
import Verif.Props.RefExact
import Verif.Model.Readers
import Verif.Spec.Readers
import Verif.Props.Readers
import Verif.Props.Visualize
import Verif.Spec.Smooth
import Verif.Lemmas.HermiteError
import Verif.Props.Accuracy
import Verif.Spec.Characteristic
import Verif.Lemmas.RungeKutta
import Verif.Props.RefOrder
import Verif.Props.RefConsistent
import Verif.Props.RefReversal
import Verif.Props.RefGradient
import Verif.Model.Double
import Verif.Lemmas.Double
import Verif.Lemmas.Safe
import Verif.Lemmas.RefSafe
import Verif.Props.RefAnyArith
import Verif.Props.RefDouble
import Verif.Props.RefStepCount
import Verif.Spec.Double
import Verif.Lemmas.DoubleOps
import Verif.Lemmas.BaseDouble
import Verif.Lemmas.InterpAny
import Verif.Lemmas.StepDouble
import Verif.Props.GridDouble
import Verif.Props.StepDouble
import Verif.Props.TimeDouble
import Verif.Lemmas.RotationDouble
import Verif.Spec.AppDouble
import Verif.Props.AppDouble
import Verif.Validate.UnitTests
import Verif.Spec.Spline
import Verif.Lemmas.Apx
import Verif.Lemmas.SplineNear
import Verif.Lemmas.KernelDouble
import Verif.Lemmas.InterpEval
import Verif.Lemmas.EtaDouble
import Verif.Lemmas.SplineNest
import Verif.Lemmas.PointDouble
import Verif.Props.SplineDouble
import Verif.Lemmas.SplineMove
import Verif.Lemmas.PullDouble
import Verif.Props.SplineStep
import Verif.Lemmas.Ranks
import Verif.Props.RefRanks
import Verif.Props.RefArgs
import Verif.Props.GradientAccuracy
import Verif.Spec.Transport
import Verif.Lemmas.Transport
import Verif.Props.Transport
import Verif.Props.GradientDouble
import Verif.Spec.TransportDouble
import Verif.Lemmas.SplineReal
import Verif.Props.TransportDouble
import Verif.Spec.Bending
import Verif.Lemmas.Bending
import Verif.Props.Stability
import Verif.Spec.Limit
import Verif.Spec.Linear
import Verif.Lemmas.LinearEval
import Verif.Lemmas.Linear
import Verif.Props.LinearAccuracy
import Verif.Spec.AppPoly
import Verif.Props.AppPoly
import Verif.Model.RefText
import Verif.Spec.RefText
import Verif.Lemmas.RefText
import Verif.Props.RefText
import Verif.Model.Text
import Verif.Spec.Text
import Verif.Lemmas.Text
import Verif.Props.Text
import Verif.Model.Carry
import Verif.Spec.Carry
import Verif.Lemmas.Converge
import Verif.Props.Converge
import Verif.Props.Noise
import Verif.Lemmas.SecondOrder
import Verif.Props.SecondOrder
import Verif.Spec.RunDouble
import Verif.Lemmas.CarryNear
import Verif.Lemmas.Inflow
import Verif.Lemmas.InflowNear
import Verif.Lemmas.LimitDouble
import Verif.Spec.Flip
import Verif.Lemmas.Flip
import Verif.Lemmas.FlipDouble
import Verif.Spec.RefFlip
import Verif.Lemmas.RefFlip
import Verif.Lemmas.RefFlipMain
import Verif.Lemmas.RefFlipMpi
import Verif.Lemmas.Flush
import Verif.Props.ConvergeDouble
import Verif.Spec.Saddle
import Verif.Props.Saddle
import Verif.Props.Inflow
import Verif.Props.Flush
import Verif.Props.InflowDouble
import Verif.Props.LimitDouble
import Verif.Props.Flip
import Verif.Props.RefFlip
import Verif.Spec.Local
import Verif.Lemmas.Local
import Verif.Props.Local
import Verif.Spec.Unseen
import Verif.Lemmas.Unseen
import Verif.Props.Unseen
import Verif.Spec.Ieee
import Verif.Props.Ieee
import Verif.Spec.Axes
import Verif.Lemmas.Axes
import Verif.Props.Axes
import Verif.Spec.Mirror
import Verif.Spec.Zoom
import Verif.Spec.Flat
import Verif.Spec.Clock
import Verif.Spec.Level
import Verif.Spec.RefLevel
import Verif.Spec.Superpose
import Verif.Lemmas.Mirror
import Verif.Lemmas.Zoom
import Verif.Lemmas.Flat
import Verif.Lemmas.Clock
import Verif.Lemmas.Level
import Verif.Lemmas.Superpose
import Verif.Props.Mirror
import Verif.Props.Zoom
import Verif.Props.Flat
import Verif.Props.Clock
import Verif.Props.Level
import Verif.Props.Superpose
import Verif.Props.RefLevel
