import Verif.Lemmas.ATComplete
import Verif.Lemmas.Acquisition
import Verif.Lemmas.AutoTuner
import Verif.Lemmas.AxilrodTeller
import Verif.Lemmas.BalanceVectors
import Verif.Lemmas.Basic
import Verif.Lemmas.BayesianClusterSearch
import Verif.Lemmas.BayesianSearch
import Verif.Lemmas.CellBlock3D
import Verif.Lemmas.CellFunctor
import Verif.Lemmas.CellFunctor3B
import Verif.Lemmas.CellGeometry
import Verif.Lemmas.CellLoops
import Verif.Lemmas.CellOp
import Verif.Lemmas.CheckpointBorder
import Verif.Lemmas.CheckpointFile
import Verif.Lemmas.CheckpointNumbers
import Verif.Lemmas.CheckpointPieces
import Verif.Lemmas.Cholesky
import Verif.Lemmas.ColorTraversal
import Verif.Lemmas.CsvLogs
import Verif.Lemmas.DirectSum
import Verif.Lemmas.Distribution
import Verif.Lemmas.ExampleStore
import Verif.Lemmas.ForEach
import Verif.Lemmas.ForEachOctree
import Verif.Lemmas.ForEachVCL
import Verif.Lemmas.FuzzyLogic
import Verif.Lemmas.FuzzyTuning
import Verif.Lemmas.GaussianClusterIndex
import Verif.Lemmas.GaussianClusterRun
import Verif.Lemmas.GaussianClusterSample
import Verif.Lemmas.GaussianClusterTune
import Verif.Lemmas.GaussianKernel
import Verif.Lemmas.GaussianMixture
import Verif.Lemmas.GaussianProcess
import Verif.Lemmas.GaussianRun
import Verif.Lemmas.IterDelete
import Verif.Lemmas.IterLoop
import Verif.Lemmas.IterPass
import Verif.Lemmas.IterTotal
import Verif.Lemmas.IterVisits
import Verif.Lemmas.Iterator
import Verif.Lemmas.LCC01
import Verif.Lemmas.LCC01Combined
import Verif.Lemmas.LCC01Ring
import Verif.Lemmas.LCC01RingCalls
import Verif.Lemmas.LCC01RingComplete
import Verif.Lemmas.LCC01Triwise
import Verif.Lemmas.LCC04
import Verif.Lemmas.LCC04Base
import Verif.Lemmas.LCC04Complete
import Verif.Lemmas.LCC04HCP
import Verif.Lemmas.LCC04Local
import Verif.Lemmas.LCC04Memory
import Verif.Lemmas.LCC04Row
import Verif.Lemmas.LCC04Rows
import Verif.Lemmas.LCC04Setup
import Verif.Lemmas.LCC08
import Verif.Lemmas.LCC18
import Verif.Lemmas.LCClose
import Verif.Lemmas.LCCollect
import Verif.Lemmas.LCDelete
import Verif.Lemmas.LCHistory
import Verif.Lemmas.LCInteract
import Verif.Lemmas.LCIter
import Verif.Lemmas.LCReferences
import Verif.Lemmas.LCReferencesHistory
import Verif.Lemmas.LCReferencesUpdate
import Verif.Lemmas.LCRegion
import Verif.Lemmas.LCResize
import Verif.Lemmas.LCStore
import Verif.Lemmas.LCWhole
import Verif.Lemmas.LJ
import Verif.Lemmas.LJAVX
import Verif.Lemmas.LJAVXSystem
import Verif.Lemmas.LJComplete
import Verif.Lemmas.LJFlops
import Verif.Lemmas.LJMemory
import Verif.Lemmas.LJMultisite
import Verif.Lemmas.LJMultisiteSoA
import Verif.Lemmas.LJMultisiteSums
import Verif.Lemmas.LJSVE
import Verif.Lemmas.LJSVESystem
import Verif.Lemmas.LJSoA
import Verif.Lemmas.LJSums
import Verif.Lemmas.LJTraversal
import Verif.Lemmas.LiveInfo
import Verif.Lemmas.LiveInfoGather
import Verif.Lemmas.LogicControl
import Verif.Lemmas.MDHalo
import Verif.Lemmas.MDLoad
import Verif.Lemmas.MDMigrate
import Verif.Lemmas.MDObjects
import Verif.Lemmas.MDObjectsBox
import Verif.Lemmas.MDObjectsPacked
import Verif.Lemmas.MPIBuckets
import Verif.Lemmas.MPIPhase
import Verif.Lemmas.Mapping
import Verif.Lemmas.NarrowedIntervals
import Verif.Lemmas.Nodup
import Verif.Lemmas.Num
import Verif.Lemmas.OctreeGeometry
import Verif.Lemmas.OctreeInsert
import Verif.Lemmas.OctreeInteract
import Verif.Lemmas.OctreeIter
import Verif.Lemmas.OctreeIterEnd
import Verif.Lemmas.OctreeIterFlat
import Verif.Lemmas.OctreeIterSim
import Verif.Lemmas.OctreeIterThreads
import Verif.Lemmas.OctreeNeighbors
import Verif.Lemmas.OctreeStorage
import Verif.Lemmas.OpenCells
import Verif.Lemmas.PTMethods
import Verif.Lemmas.PTNewton
import Verif.Lemmas.PTNumbers
import Verif.Lemmas.PTReset
import Verif.Lemmas.PairCount
import Verif.Lemmas.PairLoops
import Verif.Lemmas.ParticleProperties
import Verif.Lemmas.RandomSearch
import Verif.Lemmas.Remainder
import Verif.Lemmas.Remainder3
import Verif.Lemmas.Replay
import Verif.Lemmas.RotationalIntegrator
import Verif.Lemmas.RuleBasedTuning
import Verif.Lemmas.RuleCompile
import Verif.Lemmas.SPH
import Verif.Lemmas.SPHExchange
import Verif.Lemmas.SPHExchangeAll
import Verif.Lemmas.SPHKernel
import Verif.Lemmas.SPHLeaving
import Verif.Lemmas.SPHProtocol
import Verif.Lemmas.Sampling
import Verif.Lemmas.Serialization
import Verif.Lemmas.ShrinkingPhase
import Verif.Lemmas.Skin
import Verif.Lemmas.Sliced
import Verif.Lemmas.SlicedInv
import Verif.Lemmas.SlicedLocks
import Verif.Lemmas.Smoothing
import Verif.Lemmas.SoA
import Verif.Lemmas.SoALoad
import Verif.Lemmas.SortDir
import Verif.Lemmas.SwitchLists
import Verif.Lemmas.TripleInteract
import Verif.Lemmas.TripleLoops
import Verif.Lemmas.TripleSums
import Verif.Lemmas.TuningFilter
import Verif.Lemmas.TuningFlags
import Verif.Lemmas.TuningLog
import Verif.Lemmas.TuningPhase
import Verif.Lemmas.VarVerletLists
import Verif.Lemmas.VerletClusterCalls
import Verif.Lemmas.VerletClusterGrid
import Verif.Lemmas.VerletClusterIter
import Verif.Lemmas.VerletClusterPairs
import Verif.Lemmas.VerletClusterPartition
import Verif.Lemmas.VerletClusterRebuild
import Verif.Lemmas.VerletClusterVisits
import Verif.Lemmas.VerletListsC08
import Verif.Lemmas.VerletListsCells
import Verif.Lemmas.VerletListsPairwise
import Verif.Lemmas.VerletListsUse
import Verif.Lemmas.WholeInteractions
import Verif.Lemmas.WithRemainder
import Verif.Lemmas.WithRemainder3
import Verif.Model.ATTraversal
import Verif.Model.Acquisition
import Verif.Model.ActiveHarmony
import Verif.Model.AutoTuner
import Verif.Model.AxilrodTeller
import Verif.Model.BalanceVectors
import Verif.Model.Basic
import Verif.Model.BayesianClusterSearch
import Verif.Model.BayesianSearch
import Verif.Model.CellBlock3D
import Verif.Model.CellFunctor
import Verif.Model.CellOp
import Verif.Model.Checkpoint
import Verif.Model.CliParser
import Verif.Model.ColorTraversal
import Verif.Model.Configuration
import Verif.Model.ConstexprMath
import Verif.Model.ContainerSelector
import Verif.Model.CsvLogs
import Verif.Model.DeleteParticle
import Verif.Model.DirectSum
import Verif.Model.Distribution
import Verif.Model.EndConfig
import Verif.Model.EnergyMeter
import Verif.Model.ExceptionHandler
import Verif.Model.FeatureVectorEncoder
import Verif.Model.ForEach
import Verif.Model.ForEachVCL
import Verif.Model.FuzzyLogic
import Verif.Model.FuzzyTuning
import Verif.Model.GaussianCluster
import Verif.Model.GaussianProcess
import Verif.Model.Helpers
import Verif.Model.IterationEstimate
import Verif.Model.Iterator
import Verif.Model.LCC01
import Verif.Model.LCC01Combined
import Verif.Model.LCC04
import Verif.Model.LCC04Combined
import Verif.Model.LCC08
import Verif.Model.LCC18
import Verif.Model.LCInteract
import Verif.Model.LJFlops
import Verif.Model.LJFunctor
import Verif.Model.LJFunctorAVX
import Verif.Model.LJFunctorSVE
import Verif.Model.LJMultisite
import Verif.Model.LJTraversal
import Verif.Model.LinkedCellsReferences
import Verif.Model.LiveInfo
import Verif.Model.LoadEstimators
import Verif.Model.LogicControl
import Verif.Model.LogicParticles
import Verif.Model.MDBalance
import Verif.Model.MDDomain
import Verif.Model.MDLoad
import Verif.Model.MDLoop
import Verif.Model.MDMigrate
import Verif.Model.MDObjects
import Verif.Model.MDRun
import Verif.Model.MPIPhase
import Verif.Model.MPITuning
import Verif.Model.Mapping
import Verif.Model.MemoryProfiler
import Verif.Model.NeighborListsBuffer
import Verif.Model.Num
import Verif.Model.NumParticlesEstimator
import Verif.Model.Octree
import Verif.Model.OctreeDirection
import Verif.Model.OctreeIter
import Verif.Model.OctreeLogger
import Verif.Model.OctreeStorage
import Verif.Model.Outcome
import Verif.Model.Ownership
import Verif.Model.PairLoops
import Verif.Model.ParticleProperties
import Verif.Model.PredictiveTuning
import Verif.Model.ProgressBar
import Verif.Model.Quaternion
import Verif.Model.RandomSearch
import Verif.Model.Reflect
import Verif.Model.RelevantCsfs
import Verif.Model.Remainder
import Verif.Model.ResizeBox
import Verif.Model.RotationalIntegrator
import Verif.Model.RuleBasedTuning
import Verif.Model.RuleVM
import Verif.Model.SPH
import Verif.Model.SPHExchange
import Verif.Model.Sampling
import Verif.Model.SearchSpace
import Verif.Model.SerialMPI
import Verif.Model.Serialization
import Verif.Model.Sliced
import Verif.Model.SlowConfigFilter
import Verif.Model.Smoothing
import Verif.Model.SoA
import Verif.Model.StringMatch
import Verif.Model.Thermostat
import Verif.Model.TripleTraversal
import Verif.Model.TuningLog
import Verif.Model.TuningSetup
import Verif.Model.VarVerletLists
import Verif.Model.Verlet
import Verif.Model.VerletClusterIter
import Verif.Model.VerletClusterLists
import Verif.Model.VerletLists
import Verif.Model.VerletListsC08
import Verif.Model.VerletListsCells
import Verif.Model.VerletListsPairwise
import Verif.Model.VerletListsUse
import Verif.Model.VtkNames
import Verif.Model.WholeInteractions
import Verif.Model.YamlParser
import Verif.Props.C01
import Verif.Props.C02
import Verif.Props.C03
import Verif.Props.C04
import Verif.Props.C05
import Verif.Props.C06
import Verif.Props.C07
import Verif.Props.C08
import Verif.Props.C09
import Verif.Props.C10
import Verif.Props.C100
import Verif.Props.C101
import Verif.Props.C102
import Verif.Props.C103
import Verif.Props.C104
import Verif.Props.C105
import Verif.Props.C106
import Verif.Props.C107
import Verif.Props.C108
import Verif.Props.C109
import Verif.Props.C11
import Verif.Props.C110
import Verif.Props.C111
import Verif.Props.C112
import Verif.Props.C113
import Verif.Props.C114
import Verif.Props.C115
import Verif.Props.C116
import Verif.Props.C117
import Verif.Props.C118
import Verif.Props.C119
import Verif.Props.C12
import Verif.Props.C120
import Verif.Props.C121
import Verif.Props.C122
import Verif.Props.C123
import Verif.Props.C124
import Verif.Props.C125
import Verif.Props.C126
import Verif.Props.C127
import Verif.Props.C128
import Verif.Props.C129
import Verif.Props.C13
import Verif.Props.C130
import Verif.Props.C131
import Verif.Props.C132
import Verif.Props.C133
import Verif.Props.C134
import Verif.Props.C135
import Verif.Props.C136
import Verif.Props.C137
import Verif.Props.C138
import Verif.Props.C139
import Verif.Props.C14
import Verif.Props.C140
import Verif.Props.C141
import Verif.Props.C142
import Verif.Props.C143
import Verif.Props.C144
import Verif.Props.C15
import Verif.Props.C16
import Verif.Props.C17
import Verif.Props.C18
import Verif.Props.C19
import Verif.Props.C20
import Verif.Props.C21
import Verif.Props.C22
import Verif.Props.C23
import Verif.Props.C24
import Verif.Props.C25
import Verif.Props.C26
import Verif.Props.C27
import Verif.Props.C28
import Verif.Props.C29
import Verif.Props.C30
import Verif.Props.C31
import Verif.Props.C32
import Verif.Props.C33
import Verif.Props.C34
import Verif.Props.C35
import Verif.Props.C36
import Verif.Props.C37
import Verif.Props.C38
import Verif.Props.C39
import Verif.Props.C40
import Verif.Props.C41
import Verif.Props.C42
import Verif.Props.C43
import Verif.Props.C44
import Verif.Props.C45
import Verif.Props.C46
import Verif.Props.C47
import Verif.Props.C48
import Verif.Props.C49
import Verif.Props.C50
import Verif.Props.C51
import Verif.Props.C52
import Verif.Props.C53
import Verif.Props.C54
import Verif.Props.C55
import Verif.Props.C56
import Verif.Props.C57
import Verif.Props.C58
import Verif.Props.C59
import Verif.Props.C60
import Verif.Props.C61
import Verif.Props.C62
import Verif.Props.C63
import Verif.Props.C64
import Verif.Props.C65
import Verif.Props.C66
import Verif.Props.C67
import Verif.Props.C68
import Verif.Props.C69
import Verif.Props.C70
import Verif.Props.C71
import Verif.Props.C72
import Verif.Props.C73
import Verif.Props.C74
import Verif.Props.C75
import Verif.Props.C76
import Verif.Props.C77
import Verif.Props.C78
import Verif.Props.C79
import Verif.Props.C80
import Verif.Props.C81
import Verif.Props.C82
import Verif.Props.C83
import Verif.Props.C84
import Verif.Props.C85
import Verif.Props.C86
import Verif.Props.C87
import Verif.Props.C88
import Verif.Props.C89
import Verif.Props.C90
import Verif.Props.C91
import Verif.Props.C92
import Verif.Props.C93
import Verif.Props.C94
import Verif.Props.C95
import Verif.Props.C96
import Verif.Props.C97
import Verif.Props.C98
import Verif.Props.C99
import Verif.Spec.AxilrodTeller
import Verif.Spec.Calls
import Verif.Spec.CellPairs
import Verif.Spec.Checkpoint
import Verif.Spec.CliParser
import Verif.Spec.CloseHistory
import Verif.Spec.ContainerSelector
import Verif.Spec.Count
import Verif.Spec.CsvLogs
import Verif.Spec.EndConfig
import Verif.Spec.ExceptionHandler
import Verif.Spec.Flops
import Verif.Spec.ForEach
import Verif.Spec.Forces
import Verif.Spec.FuzzyTuning
import Verif.Spec.GaussianCluster
import Verif.Spec.GaussianProcess
import Verif.Spec.Geometry
import Verif.Spec.Gradient
import Verif.Spec.Grid
import Verif.Spec.Iteration
import Verif.Spec.LJMultisite
import Verif.Spec.LennardJones
import Verif.Spec.ListUse
import Verif.Spec.LiveInfo
import Verif.Spec.LoadEstimators
import Verif.Spec.MDDomain
import Verif.Spec.MDLoop
import Verif.Spec.MDMigrate
import Verif.Spec.MDObjects
import Verif.Spec.MDRun
import Verif.Spec.MPIPhase
import Verif.Spec.MemoryProfiler
import Verif.Spec.NumParticlesEstimator
import Verif.Spec.Octree
import Verif.Spec.OctreeIteration
import Verif.Spec.OctreeLogger
import Verif.Spec.Ownership
import Verif.Spec.ParticleHistory
import Verif.Spec.ParticleProperties
import Verif.Spec.Phases
import Verif.Spec.PredictiveTuning
import Verif.Spec.ProgressBar
import Verif.Spec.ReferencesHistory
import Verif.Spec.Reflect
import Verif.Spec.Rotation
import Verif.Spec.RotationalMotion
import Verif.Spec.RuleSemantics
import Verif.Spec.RuleTuning
import Verif.Spec.SPH
import Verif.Spec.SPHExchange
import Verif.Spec.Sampling
import Verif.Spec.SearchSpace
import Verif.Spec.SerialMPI
import Verif.Spec.Smoothing
import Verif.Spec.SoA
import Verif.Spec.Thermostat
import Verif.Spec.TripleForces
import Verif.Spec.Tuning
import Verif.Spec.TuningLog
import Verif.Spec.Verlet
import Verif.Spec.VtkNames
import Verif.Spec.YamlParser
