import Verif.Spec.ALS
import Verif.Spec.AlsRange
import Verif.Spec.AnnIndex
import Verif.Spec.Approx
import Verif.Spec.ApproxKnn
import Verif.Spec.ApproxMetrics
import Verif.Spec.ArrayLayout
import Verif.Spec.BPR
import Verif.Spec.Better
import Verif.Spec.Call
import Verif.Spec.CallerData
import Verif.Spec.Cosine
import Verif.Spec.Csr
import Verif.Spec.Dataset
import Verif.Spec.ElementTypes
import Verif.Spec.Energy
import Verif.Spec.ExplainError
import Verif.Spec.FairSplit
import Verif.Spec.Feedback
import Verif.Spec.FitLoop
import Verif.Spec.GpuDot
import Verif.Spec.GpuKernel
import Verif.Spec.GpuKnn
import Verif.Spec.GpuMatrix
import Verif.Spec.GpuPartialFit
import Verif.Spec.GpuQuery
import Verif.Spec.Gradient
import Verif.Spec.Interface
import Verif.Spec.Knn
import Verif.Spec.KnnMemory
import Verif.Spec.KnnRange
import Verif.Spec.Laws
import Verif.Spec.Listing
import Verif.Spec.LossError
import Verif.Spec.Metrics
import Verif.Spec.NearRanking
import Verif.Spec.NeighbourFeedback
import Verif.Spec.Overflow
import Verif.Spec.PairRanking
import Verif.Spec.PartialFit
import Verif.Spec.Persist
import Verif.Spec.Range
import Verif.Spec.Ranking
import Verif.Spec.RowError
import Verif.Spec.Sampling
import Verif.Spec.Settle
import Verif.Spec.SingleError
import Verif.Spec.Split
import Verif.Spec.Storage
import Verif.Spec.Symmetry
import Verif.Spec.TopK
import Verif.Spec.WeightError
import Verif.Spec.Weights
import Verif.Model.ALS
import Verif.Model.ALSState
import Verif.Model.Ann
import Verif.Model.AnnCalls
import Verif.Model.AnnFit
import Verif.Model.Augment
import Verif.Model.BPR
import Verif.Model.Basic
import Verif.Model.BlasCheck
import Verif.Model.CallerData
import Verif.Model.Dataset
import Verif.Model.DeviceLifetime
import Verif.Model.Download
import Verif.Model.Draws
import Verif.Model.ElementTypes
import Verif.Model.Evaluation
import Verif.Model.EvaluationRun
import Verif.Model.Examples
import Verif.Model.Extended
import Verif.Model.ExtendedBm25
import Verif.Model.ExtendedCosine
import Verif.Model.ExtendedKnn
import Verif.Model.ExtendedTfidf
import Verif.Model.Factory
import Verif.Model.FailedCalls
import Verif.Model.FitCheck
import Verif.Model.FitLoop
import Verif.Model.FloatTraining
import Verif.Model.GpuALS
import Verif.Model.GpuDot
import Verif.Model.GpuKernel
import Verif.Model.GpuKnn
import Verif.Model.GpuKnnEntry
import Verif.Model.GpuLaunch
import Verif.Model.GpuMatrix
import Verif.Model.GpuQuery
import Verif.Model.GpuState
import Verif.Model.Heap
import Verif.Model.IntWeights
import Verif.Model.Interface
import Verif.Model.KnnCalls
import Verif.Model.LMF
import Verif.Model.LibHeap
import Verif.Model.LoadAny
import Verif.Model.Locked
import Verif.Model.MFBase
import Verif.Model.MachineInts
import Verif.Model.Memory
import Verif.Model.Metrics
import Verif.Model.NativeAls
import Verif.Model.NativeCsr
import Verif.Model.NativeMemory
import Verif.Model.NearestNeighbours
import Verif.Model.Overflow
import Verif.Model.Parallel
import Verif.Model.ParallelALS
import Verif.Model.ParallelKnn
import Verif.Model.Persist
import Verif.Model.RangeALS
import Verif.Model.RoundALS
import Verif.Model.RoundAnn
import Verif.Model.RoundCG
import Verif.Model.RoundCgDense
import Verif.Model.RoundExplain
import Verif.Model.RoundGpuDot
import Verif.Model.RoundGpuLoss
import Verif.Model.RoundInit
import Verif.Model.RoundKnn
import Verif.Model.RoundLoss
import Verif.Model.RoundMetrics
import Verif.Model.RoundParallelKnn
import Verif.Model.RoundPyDirect
import Verif.Model.RoundSingle
import Verif.Model.RoundWeights
import Verif.Model.Rounding
import Verif.Model.Seed
import Verif.Model.Select
import Verif.Model.SgdMemory
import Verif.Model.SharedFactors
import Verif.Model.SharedGpu
import Verif.Model.SharedKnn
import Verif.Model.Threads
import Verif.Model.TopK
import Verif.Model.Vec
import Verif.Model.Weights
import Verif.Lemmas.ALS
import Verif.Lemmas.Accum
import Verif.Lemmas.AnnFit
import Verif.Lemmas.BPR
import Verif.Lemmas.CG
import Verif.Lemmas.CallerData
import Verif.Lemmas.Csr
import Verif.Lemmas.Dataset
import Verif.Lemmas.DeviceLifetime
import Verif.Lemmas.Draws
import Verif.Lemmas.Explain
import Verif.Lemmas.Factory
import Verif.Lemmas.FailedCalls
import Verif.Lemmas.FairChoice
import Verif.Lemmas.Feedback
import Verif.Lemmas.FloatBpr
import Verif.Lemmas.FloatTraining
import Verif.Lemmas.GpuDot
import Verif.Lemmas.GpuKernel
import Verif.Lemmas.GpuKnn
import Verif.Lemmas.GpuMatrix
import Verif.Lemmas.GpuPartialFit
import Verif.Lemmas.GpuQuery
import Verif.Lemmas.GpuState
import Verif.Lemmas.Gradient
import Verif.Lemmas.Growth
import Verif.Lemmas.Heap
import Verif.Lemmas.HeapExact
import Verif.Lemmas.Ieee
import Verif.Lemmas.Items
import Verif.Lemmas.Knn
import Verif.Lemmas.KnnExact
import Verif.Lemmas.KnnLoop
import Verif.Lemmas.KnnScorer
import Verif.Lemmas.LMF
import Verif.Lemmas.LibHeap
import Verif.Lemmas.LoadAny
import Verif.Lemmas.Locked
import Verif.Lemmas.MachineInts
import Verif.Lemmas.Mask
import Verif.Lemmas.Memory
import Verif.Lemmas.Metrics
import Verif.Lemmas.NanSweep
import Verif.Lemmas.NativeAls
import Verif.Lemmas.NativeMemory
import Verif.Lemmas.Parallel
import Verif.Lemmas.ParallelALS
import Verif.Lemmas.ParallelKnn
import Verif.Lemmas.PartialFit
import Verif.Lemmas.Queries
import Verif.Lemmas.QueryLaws
import Verif.Lemmas.RangeALS
import Verif.Lemmas.Ranking
import Verif.Lemmas.Recommend
import Verif.Lemmas.Relative
import Verif.Lemmas.Rotation
import Verif.Lemmas.RoundALS
import Verif.Lemmas.RoundCG
import Verif.Lemmas.RoundCgDense
import Verif.Lemmas.RoundGpuDot
import Verif.Lemmas.RoundGpuLoss
import Verif.Lemmas.RoundKnn
import Verif.Lemmas.RoundLoss
import Verif.Lemmas.RoundMetrics
import Verif.Lemmas.Rounding
import Verif.Lemmas.Select
import Verif.Lemmas.Settle
import Verif.Lemmas.SharedFactors
import Verif.Lemmas.SharedKnn
import Verif.Lemmas.SharedQueries
import Verif.Lemmas.SharedUpdates
import Verif.Lemmas.Similar
import Verif.Lemmas.Solver
import Verif.Lemmas.Split
import Verif.Lemmas.State
import Verif.Lemmas.Symmetry
import Verif.Lemmas.Tails
import Verif.Lemmas.Threads
import Verif.Lemmas.TopK
import Verif.Lemmas.Transpose
import Verif.Lemmas.Weights
import Verif.Props.C01
import Verif.Props.C01Heap
import Verif.Props.C02
import Verif.Props.C03
import Verif.Props.C04
import Verif.Props.C05
import Verif.Props.C06
import Verif.Props.C07
import Verif.Props.C08
import Verif.Props.C09
import Verif.Props.C10
import Verif.Props.C100
import Verif.Props.C100Float
import Verif.Props.C100Lmf
import Verif.Props.C100Order
import Verif.Props.C101
import Verif.Props.C101Examples
import Verif.Props.C101Values
import Verif.Props.C102
import Verif.Props.C102Double
import Verif.Props.C102Recommend
import Verif.Props.C103
import Verif.Props.C103Bm25
import Verif.Props.C103Bm25Examples
import Verif.Props.C103Cosine
import Verif.Props.C103Double
import Verif.Props.C103Single
import Verif.Props.C103Tfidf
import Verif.Props.C11
import Verif.Props.C12
import Verif.Props.C13
import Verif.Props.C14
import Verif.Props.C15
import Verif.Props.C15Round
import Verif.Props.C16
import Verif.Props.C17
import Verif.Props.C18
import Verif.Props.C19
import Verif.Props.C20
import Verif.Props.C21
import Verif.Props.C22
import Verif.Props.C23
import Verif.Props.C24
import Verif.Props.C25
import Verif.Props.C26
import Verif.Props.C27
import Verif.Props.C28
import Verif.Props.C29
import Verif.Props.C29Int
import Verif.Props.C30
import Verif.Props.C31
import Verif.Props.C31Examples
import Verif.Props.C32
import Verif.Props.C33
import Verif.Props.C34
import Verif.Props.C35
import Verif.Props.C36
import Verif.Props.C37
import Verif.Props.C38
import Verif.Props.C39
import Verif.Props.C40
import Verif.Props.C41
import Verif.Props.C42
import Verif.Props.C43
import Verif.Props.C44
import Verif.Props.C45
import Verif.Props.C45Entry
import Verif.Props.C46
import Verif.Props.C47
import Verif.Props.C48
import Verif.Props.C49
import Verif.Props.C50
import Verif.Props.C51
import Verif.Props.C52
import Verif.Props.C53
import Verif.Props.C53Examples
import Verif.Props.C54
import Verif.Props.C55
import Verif.Props.C56
import Verif.Props.C57
import Verif.Props.C58
import Verif.Props.C59
import Verif.Props.C60
import Verif.Props.C61
import Verif.Props.C62
import Verif.Props.C63
import Verif.Props.C64
import Verif.Props.C65
import Verif.Props.C66
import Verif.Props.C67
import Verif.Props.C67Knn
import Verif.Props.C67Sampled
import Verif.Props.C67Similar
import Verif.Props.C68
import Verif.Props.C69
import Verif.Props.C70
import Verif.Props.C71
import Verif.Props.C71Examples
import Verif.Props.C71Nested
import Verif.Props.C72
import Verif.Props.C72Alone
import Verif.Props.C72Factors
import Verif.Props.C72Gpu
import Verif.Props.C72Races
import Verif.Props.C72Writer
import Verif.Props.C73
import Verif.Props.C74
import Verif.Props.C74Ann
import Verif.Props.C74Gpu
import Verif.Props.C74Knn
import Verif.Props.C75
import Verif.Props.C75Python
import Verif.Props.C75Zero
import Verif.Props.C76
import Verif.Props.C77
import Verif.Props.C78
import Verif.Props.C78Knn
import Verif.Props.C79
import Verif.Props.C79Formats
import Verif.Props.C79Knn
import Verif.Props.C80
import Verif.Props.C81
import Verif.Props.C82
import Verif.Props.C83
import Verif.Props.C83Examples
import Verif.Props.C83Single
import Verif.Props.C84
import Verif.Props.C85
import Verif.Props.C86
import Verif.Props.C86Lmf
import Verif.Props.C87
import Verif.Props.C88
import Verif.Props.C89
import Verif.Props.C89Cosine
import Verif.Props.C90
import Verif.Props.C90Python
import Verif.Props.C90Sweep
import Verif.Props.C91
import Verif.Props.C91Block
import Verif.Props.C91Gpu
import Verif.Props.C91Sweep
import Verif.Props.C92
import Verif.Props.C92Gpu
import Verif.Props.C92Negative
import Verif.Props.C93
import Verif.Props.C93Examples
import Verif.Props.C94
import Verif.Props.C94Exact
import Verif.Props.C94Examples
import Verif.Props.C94Fit
import Verif.Props.C94Float
import Verif.Props.C95
import Verif.Props.C95Models
import Verif.Props.C96
import Verif.Props.C97
import Verif.Props.C97Epochs
import Verif.Props.C97Examples
import Verif.Props.C97Fit
import Verif.Props.C97Float
import Verif.Props.C97Sample
import Verif.Props.C98
import Verif.Props.C98Examples
import Verif.Props.C98Explain
import Verif.Props.C98Total
import Verif.Props.C99
import Verif.Props.C99Examples
import Verif.Props.C99Fit
