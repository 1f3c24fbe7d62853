import Verif.Model.Lists
import Verif.Lemmas.ExactlyOnce
import Verif.Model.Fmm
import Verif.Lemmas.Csr
import Verif.Lemmas.Traversal
import Verif.Examples
import Verif.Lemmas.Grid
import Verif.Lemmas.GridPos
import Verif.Lemmas.LevelStarts
import Verif.Props.ExactlyOnce
import Verif.Props.Lists
import Verif.Props.Walk
import Verif.Props.LevelStarts
import Verif.Props.Merger
import Verif.Props.Separation
import Verif.Lemmas.Fmm
import Verif.Spec.Fmm
import Verif.Lemmas.FmmTotal
import Verif.Props.Fmm
import Verif.Model.IntShift
import Verif.Props.DeepLevels
import Verif.Props.Tools
import Verif.Props.AllReduce
import Verif.Props.TranslationClasses
import Verif.Props.TreeOfBoxes
import Verif.Props.TobRequests
import Verif.Props.TobRoundTrip
import Verif.Model.AreaQuery
import Verif.Spec.AreaQuery
import Verif.Lemmas.AreaQuery
import Verif.Props.AreaQuery
import Verif.Props.AreaQueryMargin
import Verif.Model.Partition
import Verif.Spec.Partition
import Verif.Lemmas.Partition
import Verif.Props.Partition
import Verif.Props.BoxMasks
import Verif.Model.Communicate
import Verif.Spec.Communicate
import Verif.Lemmas.Communicate
import Verif.Lemmas.CommunicateRun
import Verif.Props.Communicate
import Verif.Model.LocalTree
import Verif.Spec.LocalTree
import Verif.Lemmas.Compact
import Verif.Lemmas.LocalTree
import Verif.Props.LocalTree
import Verif.Model.DistFmm
import Verif.Spec.DistFmm
import Verif.Lemmas.DistFmm
import Verif.Props.DistFmm
import Verif.Model.Filter
import Verif.Lemmas.Filter
import Verif.Props.Filter
import Verif.Model.RotationClasses
import Verif.Spec.RotationClasses
import Verif.Props.RotationClasses
import Verif.Model.Cost
import Verif.Props.Cost
import Verif.Model.BuildArgs
import Verif.Spec.BuildArgs
import Verif.Props.BuildArgs
import Verif.Model.TreeBuild
import Verif.Lemmas.CountSort
import Verif.Lemmas.TreeBuild
import Verif.Lemmas.TreeSplit
import Verif.Lemmas.TreeLoop
import Verif.Model.TreeFinish
import Verif.Lemmas.Flat
import Verif.Lemmas.FlatOK
import Verif.Lemmas.Kinds
import Verif.Lemmas.Finish
import Verif.Lemmas.FinishTree
import Verif.Model.Morton
import Verif.Spec.TreeBuild
import Verif.Lemmas.Morton
import Verif.Lemmas.Build
import Verif.Lemmas.Extents
import Verif.Lemmas.Inside
import Verif.Props.TreeBuild
import Verif.Props.BuiltTree
import Verif.Lemmas.Prune
import Verif.Props.Prune
import Verif.Lemmas.LoopInd
import Verif.Lemmas.Weights
import Verif.Lemmas.LeafWeights
import Verif.Props.Leaves
import Verif.Lemmas.WalkMem
import Verif.Lemmas.StateTree
import Verif.Lemmas.Balance
import Verif.Props.Balanced
import Verif.Lemmas.Stored
import Verif.Lemmas.StoredBuilt
import Verif.Props.Stored
import Verif.Props.Scans
import Verif.Lemmas.Occupied
import Verif.Props.LevelEnds
import Verif.Model.BuildCall
import Verif.Spec.BuildCall
import Verif.Props.BuildCall
import Verif.Props.DistBuilt
import Verif.Spec.Rounding
import Verif.Lemmas.Rounding
import Verif.Lemmas.RoundedBits
import Verif.Lemmas.RoundedL2
import Verif.Props.RootBox
import Verif.Props.Rounding
import Verif.Spec.RoundedCall
import Verif.Props.RoundedCall
import Verif.Props.ListSizes
import Verif.Props.ListSizesBuilt
import Verif.Model.FmmLib
import Verif.Spec.FmmLib
import Verif.Lemmas.FmmLib
import Verif.Lemmas.FmmLibSim
import Verif.Props.FmmLib
import Verif.Props.FmmLibRotmat
import Verif.Spec.FmmLibChain
import Verif.Props.FmmLibChain
import Verif.Props.FmmLibBuilt
import Verif.Model.DistFmmLib
import Verif.Spec.DistFmmLib
import Verif.Lemmas.DistFmmLib
import Verif.Props.DistFmmLib
import Verif.Props.DistFmmLibBuilt
import Verif.Model.DeviceTests
import Verif.Spec.DeviceTests
import Verif.Lemmas.DeviceTests
import Verif.Lemmas.DeviceSep
import Verif.Props.DeviceTests
import Verif.Model.Alloc
import Verif.Lemmas.AllocRel
import Verif.Lemmas.AllocSplit
import Verif.Lemmas.AllocMove
import Verif.Lemmas.AllocRestrict
import Verif.Lemmas.AllocLoop
import Verif.Lemmas.AllocFinish
import Verif.Props.Alloc
import Verif.Lemmas.ClassesF
import Verif.Props.ClassesF
import Verif.Spec.AreaF
import Verif.Lemmas.AreaF
import Verif.Props.AreaF
import Verif.Spec.AreaBuilt
import Verif.Lemmas.Fruitful
import Verif.Props.AreaBuilt
import Verif.Lemmas.Order
import Verif.Lemmas.OrderFin
import Verif.Spec.Order
import Verif.Props.Order
import Verif.Lemmas.Splits
import Verif.Lemmas.Depth
import Verif.Props.Splits
import Verif.Spec.Coarsest
import Verif.Lemmas.Coarsest
import Verif.Props.Coarsest
import Verif.Spec.Backward
import Verif.Lemmas.Backward
import Verif.Props.Backward
import Verif.Model.CostFactory
import Verif.Spec.CostFactory
import Verif.Lemmas.CostFactory
import Verif.Props.CostFactory
import Verif.Spec.Work
import Verif.Lemmas.Work
import Verif.Props.Work
import Verif.Lemmas.Geometric
import Verif.Spec.CauchyLib
import Verif.Lemmas.CauchyLib
import Verif.Lemmas.CauchyError
import Verif.Lemmas.Separation
import Verif.Lemmas.CauchyChain
import Verif.Props.Convergence
import Verif.Props.ConvergenceDist
import Verif.Spec.LogLib
import Verif.Lemmas.LogSeries
import Verif.Lemmas.LogError
import Verif.Lemmas.LogChain
import Verif.Props.LogConvergence
import Verif.Model.Lookup
import Verif.Props.Lookup
import Verif.Model.Container
import Verif.Spec.Container
import Verif.Lemmas.Container
import Verif.Props.Container
import Verif.Model.FmmLibGrad
import Verif.Props.FmmLibGrad
import Verif.Model.FmmLibCtor
import Verif.Props.FmmLibCtor
import Verif.Model.FmmLibErr
import Verif.Props.FmmLibErr
import Verif.Model.WorkItems
import Verif.Model.FinishKernels
import Verif.Model.Commands
import Verif.Model.GetBoxList
import Verif.Model.MaskKernels
import Verif.Model.LoopKernels
import Verif.Lemmas.WorkItems
import Verif.Lemmas.LoopKernels
import Verif.Lemmas.RestrictKernel
import Verif.Lemmas.FinishKernels
import Verif.Lemmas.MaskKernels
import Verif.Props.Schedules
import Verif.Props.Commands
import Verif.Props.GetBoxList
import Verif.Props.MaskSchedules
import Verif.Props.Visualization
import Verif.Model.TobTraversal
import Verif.Lemmas.TobTraversal
import Verif.Props.TobTraversal
import Verif.Model.FlatIndex
import Verif.Props.FlatIndex
import Verif.Model.LeafMesh
import Verif.Spec.LeafMesh
import Verif.Props.LeafMesh
import Verif.Model.TravCommands
import Verif.Lemmas.TravCommands
import Verif.Props.TravCommands
import Verif.Model.AreaCommands
import Verif.Lemmas.AreaCommands
import Verif.Props.AreaCommands
import Verif.Model.BuildCommands
import Verif.Props.BuildCommands
import Verif.Model.Morton32
import Verif.Lemmas.Morton32
import Verif.Props.Morton32
import Verif.Model.DeepCenters
import Verif.Props.DeepCenters
import Verif.Model.Kernels32
import Verif.Lemmas.Kernels32
import Verif.Props.Kernels32
import Verif.Model.DeviceTests32
import Verif.Lemmas.Rounded32
import Verif.Props.Rounded32
import Verif.Model.AreaF32
import Verif.Lemmas.AreaF32
import Verif.Props.AreaF32
import Verif.Props.DeepTraversal
