import Verif.Lemmas.Algorithms.BinCap
import Verif.Lemmas.Algorithms.Cuts
import Verif.Lemmas.Algorithms.Dichotomic
import Verif.Lemmas.Algorithms.DichotomicCost
import Verif.Lemmas.Algorithms.DichotomicEnd
import Verif.Lemmas.Algorithms.DichotomicLoop
import Verif.Lemmas.Algorithms.Svc
import Verif.Lemmas.Algorithms.SvcLoop
import Verif.Lemmas.Algorithms.ThreadReports
import Verif.Lemmas.Algorithms.ThreadRuns
import Verif.Lemmas.Algorithms.Threads
import Verif.Lemmas.Box.Block
import Verif.Lemmas.Box.BlockLoop
import Verif.Lemmas.Box.Build
import Verif.Lemmas.Box.Built
import Verif.Lemmas.Box.Columns
import Verif.Lemmas.Box.Dantzig
import Verif.Lemmas.Box.Describe
import Verif.Lemmas.Box.Dff
import Verif.Lemmas.Box.DffOne
import Verif.Lemmas.Box.Flip
import Verif.Lemmas.Box.Fresh
import Verif.Lemmas.Box.Indicators
import Verif.Lemmas.Box.ItemLoop
import Verif.Lemmas.Box.PostProcess
import Verif.Lemmas.Box.Reach
import Verif.Lemmas.Box.ReachLengths
import Verif.Lemmas.Box.Run
import Verif.Lemmas.Box.Spaces
import Verif.Lemmas.Box.SpacesExport
import Verif.Lemmas.Box.SpacesFull
import Verif.Lemmas.Box.SpacesNode
import Verif.Lemmas.Box.SpacesRun
import Verif.Lemmas.Box.Sweep
import Verif.Lemmas.Box.Total
import Verif.Lemmas.Box.TreeBin
import Verif.Lemmas.Box.TreeBound
import Verif.Lemmas.Box.TreeCtx
import Verif.Lemmas.Box.TreeDominance
import Verif.Lemmas.Box.TreeFace
import Verif.Lemmas.Box.TreeInv
import Verif.Lemmas.Box.TreeLast
import Verif.Lemmas.Box.TreeRank
import Verif.Lemmas.Box.TreeRun
import Verif.Lemmas.Box.TreeSolution
import Verif.Lemmas.Box.TreeTotals
import Verif.Lemmas.Box.Unflip
import Verif.Lemmas.Bulk
import Verif.Lemmas.Consumption
import Verif.Lemmas.Describe
import Verif.Lemmas.Dff
import Verif.Lemmas.Except
import Verif.Lemmas.Grouping
import Verif.Lemmas.Guil.Append
import Verif.Lemmas.Guil.BlockComplete
import Verif.Lemmas.Guil.BlockEnds
import Verif.Lemmas.Guil.BlockSound
import Verif.Lemmas.Guil.Build
import Verif.Lemmas.Guil.Builder
import Verif.Lemmas.Guil.Counts
import Verif.Lemmas.Guil.Cuts
import Verif.Lemmas.Guil.Cutting
import Verif.Lemmas.Guil.CuttingRun
import Verif.Lemmas.Guil.Describe
import Verif.Lemmas.Guil.DpRebuild
import Verif.Lemmas.Guil.DpTable
import Verif.Lemmas.Guil.Flip
import Verif.Lemmas.Guil.Grouping
import Verif.Lemmas.Guil.Indicators
import Verif.Lemmas.Guil.InstBuild
import Verif.Lemmas.Guil.InstBuilt
import Verif.Lemmas.Guil.InstCopy
import Verif.Lemmas.Guil.InstFresh
import Verif.Lemmas.Guil.InstParams
import Verif.Lemmas.Guil.InstStacks
import Verif.Lemmas.Guil.InstTotal
import Verif.Lemmas.Guil.Minimize
import Verif.Lemmas.Guil.Mirror
import Verif.Lemmas.Guil.MirrorOk
import Verif.Lemmas.Guil.NodeLoop
import Verif.Lemmas.Guil.Nodes
import Verif.Lemmas.Guil.Path
import Verif.Lemmas.Guil.Places
import Verif.Lemmas.Guil.PostBuild
import Verif.Lemmas.Guil.PostComplete
import Verif.Lemmas.Guil.PostDepth
import Verif.Lemmas.Guil.PostGroups
import Verif.Lemmas.Guil.PostSound
import Verif.Lemmas.Guil.RdpTable
import Verif.Lemmas.Guil.Rebuild
import Verif.Lemmas.Guil.Replay
import Verif.Lemmas.Guil.Run
import Verif.Lemmas.Guil.Sequential
import Verif.Lemmas.Guil.SortCut
import Verif.Lemmas.Guil.SortLengths
import Verif.Lemmas.Guil.SortOrder
import Verif.Lemmas.Guil.SortReplay
import Verif.Lemmas.Guil.SpaceBlock
import Verif.Lemmas.Guil.SpaceBlockLoop
import Verif.Lemmas.Guil.Spaces
import Verif.Lemmas.Guil.SpacesFill
import Verif.Lemmas.Guil.SpacesInv
import Verif.Lemmas.Guil.SpacesPlace
import Verif.Lemmas.Guil.SpacesReplay
import Verif.Lemmas.Guil.SpacesSegment
import Verif.Lemmas.Guil.Sparse
import Verif.Lemmas.Guil.Stages
import Verif.Lemmas.Guil.Table
import Verif.Lemmas.Guil.Tree
import Verif.Lemmas.Guil.Unflip
import Verif.Lemmas.Guil.Wide
import Verif.Lemmas.OneDim.Bound
import Verif.Lemmas.OneDim.Build
import Verif.Lemmas.OneDim.Checks
import Verif.Lemmas.OneDim.Copy
import Verif.Lemmas.OneDim.Describe
import Verif.Lemmas.OneDim.Dff
import Verif.Lemmas.OneDim.Dominance
import Verif.Lemmas.OneDim.DynamicProgramming
import Verif.Lemmas.OneDim.Fresh
import Verif.Lemmas.OneDim.Good
import Verif.Lemmas.OneDim.Indicators
import Verif.Lemmas.OneDim.ItemLoop
import Verif.Lemmas.OneDim.Json
import Verif.Lemmas.OneDim.Order
import Verif.Lemmas.OneDim.Packing
import Verif.Lemmas.OneDim.Plain
import Verif.Lemmas.OneDim.Positions
import Verif.Lemmas.OneDim.PostProcess
import Verif.Lemmas.OneDim.Reach
import Verif.Lemmas.OneDim.Scheme
import Verif.Lemmas.OneDim.Sequential
import Verif.Lemmas.OneDim.TreeSearch
import Verif.Lemmas.OneDim.TrivialBound
import Verif.Lemmas.Pool
import Verif.Lemmas.Rect.BinBound
import Verif.Lemmas.Rect.Block
import Verif.Lemmas.Rect.BlockLoop
import Verif.Lemmas.Rect.Build
import Verif.Lemmas.Rect.Built
import Verif.Lemmas.Rect.Clautiaux
import Verif.Lemmas.Rect.Columns
import Verif.Lemmas.Rect.ColumnsRat
import Verif.Lemmas.Rect.Cut
import Verif.Lemmas.Rect.Dantzig
import Verif.Lemmas.Rect.Describe
import Verif.Lemmas.Rect.Dff
import Verif.Lemmas.Rect.Flip
import Verif.Lemmas.Rect.Fresh
import Verif.Lemmas.Rect.Indicators
import Verif.Lemmas.Rect.ItemLoop
import Verif.Lemmas.Rect.PostProcess
import Verif.Lemmas.Rect.Reach
import Verif.Lemmas.Rect.ReachLengths
import Verif.Lemmas.Rect.ReduceBoth
import Verif.Lemmas.Rect.ReduceBothCheck
import Verif.Lemmas.Rect.ReduceBuilt
import Verif.Lemmas.Rect.ReduceCapture
import Verif.Lemmas.Rect.ReduceCheck
import Verif.Lemmas.Rect.ReduceCount
import Verif.Lemmas.Rect.ReduceCountBoth
import Verif.Lemmas.Rect.ReduceCountRun
import Verif.Lemmas.Rect.ReduceExact
import Verif.Lemmas.Rect.ReduceExactBoth
import Verif.Lemmas.Rect.ReduceExactRun
import Verif.Lemmas.Rect.ReduceGeom
import Verif.Lemmas.Rect.ReduceGroup
import Verif.Lemmas.Rect.ReduceRun
import Verif.Lemmas.Rect.ReduceShrink
import Verif.Lemmas.Rect.ReduceSound
import Verif.Lemmas.Rect.ReduceSoundBoth
import Verif.Lemmas.Rect.ReduceSoundGroup
import Verif.Lemmas.Rect.ReduceSoundRun
import Verif.Lemmas.Rect.ReduceState
import Verif.Lemmas.Rect.ReduceTiles
import Verif.Lemmas.Rect.Run
import Verif.Lemmas.Rect.Scales
import Verif.Lemmas.Rect.Skyline
import Verif.Lemmas.Rect.Spaces
import Verif.Lemmas.Rect.SpacesExport
import Verif.Lemmas.Rect.SpacesFull
import Verif.Lemmas.Rect.SpacesNode
import Verif.Lemmas.Rect.SpacesRun
import Verif.Lemmas.Rect.Sweep
import Verif.Lemmas.Rect.Total
import Verif.Lemmas.Rect.TreeBin
import Verif.Lemmas.Rect.TreeBound
import Verif.Lemmas.Rect.TreeChild
import Verif.Lemmas.Rect.TreeCtx
import Verif.Lemmas.Rect.TreeDominance
import Verif.Lemmas.Rect.TreeInv
import Verif.Lemmas.Rect.TreeLast
import Verif.Lemmas.Rect.TreeOffer
import Verif.Lemmas.Rect.TreeRank
import Verif.Lemmas.Rect.TreeRun
import Verif.Lemmas.Rect.TreeSolution
import Verif.Lemmas.Rect.TreeTotals
import Verif.Lemmas.Rect.Unflip
import Verif.Lemmas.Rect.UnreduceCalls
import Verif.Lemmas.Stacks.Check
import Verif.Lemmas.Stacks.Indicators
import Verif.Lemmas.Stacks.Loop
import Verif.Lemmas.Stacks.Piles
import Verif.Lemmas.Stacks.PostProcess
import Verif.Lemmas.Stacks.Reach
import Verif.Lemmas.Stacks.Succeed
import Verif.Lemmas.Stacks.Weights
import Verif.Model.Algorithms.ColumnGeneration
import Verif.Model.Algorithms.DichotomicSearch
import Verif.Model.Algorithms.SequentialValueCorrection
import Verif.Model.Algorithms.Threads
import Verif.Model.Basic
import Verif.Model.Box.Block
import Verif.Model.Box.Builder
import Verif.Model.Box.Compare
import Verif.Model.Box.Dff
import Verif.Model.Box.Flipper
import Verif.Model.Box.Instance
import Verif.Model.Box.MaximalSpaces
import Verif.Model.Box.PostProcess
import Verif.Model.Box.Solution
import Verif.Model.Box.TreeSearch
import Verif.Model.Dff
import Verif.Model.Grouping
import Verif.Model.Guil.BlockQueue
import Verif.Model.Guil.BlockRebuild
import Verif.Model.Guil.BlockSearch
import Verif.Model.Guil.Builder
import Verif.Model.Guil.Compare
import Verif.Model.Guil.DpRebuild
import Verif.Model.Guil.Flipper
import Verif.Model.Guil.Grouping
import Verif.Model.Guil.Hypergraph
import Verif.Model.Guil.Instance
import Verif.Model.Guil.PostProcess
import Verif.Model.Guil.SequentialFeasibility
import Verif.Model.Guil.Solution
import Verif.Model.Guil.SolutionBuilder
import Verif.Model.Guil.SortSubplates
import Verif.Model.Guil.SpaceBlock
import Verif.Model.Guil.Spaces
import Verif.Model.Names
import Verif.Model.Num
import Verif.Model.OneDim.Builder
import Verif.Model.OneDim.Certificate
import Verif.Model.OneDim.Compare
import Verif.Model.OneDim.Dff
import Verif.Model.OneDim.DynamicProgramming
import Verif.Model.OneDim.Instance
import Verif.Model.OneDim.Json
import Verif.Model.OneDim.PostProcess
import Verif.Model.OneDim.Sequential
import Verif.Model.OneDim.Solution
import Verif.Model.OneDim.SvcKnapsack
import Verif.Model.OneDim.TreeSearch
import Verif.Model.OneDim.TrivialBound
import Verif.Model.Output
import Verif.Model.Pool
import Verif.Model.Rect.Block
import Verif.Model.Rect.Builder
import Verif.Model.Rect.Compare
import Verif.Model.Rect.ConservativeScales
import Verif.Model.Rect.Dff
import Verif.Model.Rect.Flipper
import Verif.Model.Rect.Instance
import Verif.Model.Rect.MaximalSpaces
import Verif.Model.Rect.PostProcess
import Verif.Model.Rect.Reduction
import Verif.Model.Rect.Solution
import Verif.Model.Rect.TreeSearch
import Verif.Model.Rect.TreeSearchRun
import Verif.Model.Stacks.Compare
import Verif.Model.Stacks.Instance
import Verif.Model.Stacks.PostProcess
import Verif.Model.Stacks.Solution
import Verif.Model.Truck
import Verif.Props.Algorithms.BinCap
import Verif.Props.Algorithms.Cuts
import Verif.Props.Algorithms.Dichotomic
import Verif.Props.Algorithms.Svc
import Verif.Props.Algorithms.Threads
import Verif.Props.Box.Block
import Verif.Props.Box.Build
import Verif.Props.Box.Bulk
import Verif.Props.Box.Compare
import Verif.Props.Box.Describe
import Verif.Props.Box.Dff
import Verif.Props.Box.Flip
import Verif.Props.Box.PostProcess
import Verif.Props.Box.Solution
import Verif.Props.Box.Spaces
import Verif.Props.Box.SpacesEx
import Verif.Props.Box.TreeBound
import Verif.Props.Box.TreeBoundEx
import Verif.Props.Box.TreeSearch
import Verif.Props.Box.TreeSearchEx
import Verif.Props.Box.Withheld
import Verif.Props.Guil.Append
import Verif.Props.Guil.BlockSearch
import Verif.Props.Guil.Bulk
import Verif.Props.Guil.Compare
import Verif.Props.Guil.Describe
import Verif.Props.Guil.DpRebuild
import Verif.Props.Guil.Flip
import Verif.Props.Guil.Grouping
import Verif.Props.Guil.Hypergraph
import Verif.Props.Guil.InstanceBuild
import Verif.Props.Guil.InstanceCopy
import Verif.Props.Guil.Minimize
import Verif.Props.Guil.MinimizeEx
import Verif.Props.Guil.Parameters
import Verif.Props.Guil.Pattern
import Verif.Props.Guil.PostProcess
import Verif.Props.Guil.PostProcessEx
import Verif.Props.Guil.Rebuild
import Verif.Props.Guil.Sequential
import Verif.Props.Guil.SequentialEx
import Verif.Props.Guil.Solution
import Verif.Props.Guil.SolutionEx
import Verif.Props.Guil.SortSubplates
import Verif.Props.Guil.SortSubplatesEx
import Verif.Props.Guil.SpaceBlock
import Verif.Props.Guil.SpaceSolution
import Verif.Props.Guil.Spaces
import Verif.Props.Guil.Trims
import Verif.Props.Names
import Verif.Props.Num
import Verif.Props.OneDim.Build
import Verif.Props.OneDim.Bulk
import Verif.Props.OneDim.Certificate
import Verif.Props.OneDim.Compare
import Verif.Props.OneDim.Copy
import Verif.Props.OneDim.Describe
import Verif.Props.OneDim.Dff
import Verif.Props.OneDim.DynamicProgramming
import Verif.Props.OneDim.Examples
import Verif.Props.OneDim.Json
import Verif.Props.OneDim.Output
import Verif.Props.OneDim.Positions
import Verif.Props.OneDim.PostProcess
import Verif.Props.OneDim.Sequential
import Verif.Props.OneDim.Solution
import Verif.Props.OneDim.TreeSearch
import Verif.Props.OneDim.TreeSearchBound
import Verif.Props.OneDim.TreeSearchDominance
import Verif.Props.OneDim.TrivialBound
import Verif.Props.Output
import Verif.Props.Pool
import Verif.Props.Rect.Block
import Verif.Props.Rect.Build
import Verif.Props.Rect.Bulk
import Verif.Props.Rect.Compare
import Verif.Props.Rect.Describe
import Verif.Props.Rect.Dff
import Verif.Props.Rect.Flip
import Verif.Props.Rect.PostProcess
import Verif.Props.Rect.Reduction
import Verif.Props.Rect.ReductionEx
import Verif.Props.Rect.Scales
import Verif.Props.Rect.Solution
import Verif.Props.Rect.Spaces
import Verif.Props.Rect.SpacesEx
import Verif.Props.Rect.TreeBound
import Verif.Props.Rect.TreeBoundEx
import Verif.Props.Rect.TreeSearch
import Verif.Props.Rect.TreeSearchEx
import Verif.Props.Rect.Unreduce
import Verif.Props.Rect.UnreduceAll
import Verif.Props.Rect.UnreduceCount
import Verif.Props.Rect.Withheld
import Verif.Props.Resource
import Verif.Props.Stacks.Check
import Verif.Props.Stacks.Compare
import Verif.Props.Stacks.Feasible
import Verif.Props.Stacks.PostProcess
import Verif.Props.Stacks.Solution
import Verif.Spec.BoxBlock
import Verif.Spec.BoxBuild
import Verif.Spec.BoxCompare
import Verif.Spec.BoxDescribe
import Verif.Spec.BoxFlip
import Verif.Spec.BoxGeometry
import Verif.Spec.BoxPacking
import Verif.Spec.BoxSolution
import Verif.Spec.BoxSpaces
import Verif.Spec.BoxTree
import Verif.Spec.Bulk
import Verif.Spec.ColumnGeneration
import Verif.Spec.Describe
import Verif.Spec.Dff
import Verif.Spec.Dichotomic
import Verif.Spec.Grouping
import Verif.Spec.GuilDescribe
import Verif.Spec.GuilSpaces
import Verif.Spec.Guillotine
import Verif.Spec.GuillotineAssembled
import Verif.Spec.GuillotineBuild
import Verif.Spec.GuillotineCompare
import Verif.Spec.GuillotineComposed
import Verif.Spec.GuillotineCopy
import Verif.Spec.GuillotineFlip
import Verif.Spec.GuillotineGrouping
import Verif.Spec.GuillotineParameters
import Verif.Spec.GuillotinePattern
import Verif.Spec.GuillotinePlaces
import Verif.Spec.GuillotineSequential
import Verif.Spec.GuillotineSort
import Verif.Spec.GuillotineStages
import Verif.Spec.GuillotineTotals
import Verif.Spec.Knapsack
import Verif.Spec.OneDim
import Verif.Spec.OneDimBuild
import Verif.Spec.OneDimCompare
import Verif.Spec.OneDimCopy
import Verif.Spec.OneDimDescribe
import Verif.Spec.OneDimHistory
import Verif.Spec.OneDimJson
import Verif.Spec.OneDimOutput
import Verif.Spec.OneDimPositions
import Verif.Spec.OneDimPost
import Verif.Spec.OneDimSequential
import Verif.Spec.OneDimTreeSearch
import Verif.Spec.Output
import Verif.Spec.Pool
import Verif.Spec.RectBlock
import Verif.Spec.RectBuild
import Verif.Spec.RectCompare
import Verif.Spec.RectDescribe
import Verif.Spec.RectFlip
import Verif.Spec.RectGeometry
import Verif.Spec.RectReduction
import Verif.Spec.RectScales
import Verif.Spec.RectSolution
import Verif.Spec.RectSpaces
import Verif.Spec.RectTree
import Verif.Spec.Resource
import Verif.Spec.Sort
import Verif.Spec.StacksCheck
import Verif.Spec.StacksCompare
import Verif.Spec.StacksSolution
import Verif.Spec.Svc
import Verif.Spec.Threads
