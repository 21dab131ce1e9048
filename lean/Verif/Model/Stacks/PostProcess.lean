import Verif.Model.Grouping
import Verif.Model.Stacks.Solution

/-!
# Grouping identical bins of boxstacks solutions

`packingsolver::boxstacks::group_identical_bins`, `src/boxstacks/post_process.cpp:6–13`; the solution
returned by the template is modelled, not the pool it is added to.
-/

namespace PackingSolver.Stacks

/-- What `operator==` on stacks compares, `boxstacks/solution.cpp:591–601`: the place, the height and
the items with their types, bottoms and rotations (lines 575–582). -/
structure PileContent where
  xStart : Int
  xEnd : Int
  yStart : Int
  yEnd : Int
  zEnd : Int
  items : List SolutionItem
deriving DecidableEq, Repr

/-- The content of a stack. -/
def pileContent (p : SolutionStack) : PileContent :=
  ⟨p.xStart, p.xEnd, p.yStart, p.yEnd, p.zEnd, p.items⟩

/-- What `operator==` on bins compares, `boxstacks/solution.cpp:610–616`. -/
def binContent (b : SolutionBin) : Nat × List PileContent :=
  (b.binTypeId, b.piles.map pileContent)

/-- `group_identical_bins`, `common.hpp:558–588`. -/
def groupIdenticalBins (inst : Instance) (s : Solution) : Except Err Solution :=
  (Grouping.binGroups binContent (·.copies) s.bins).foldlM
    (fun n g => n.appendBin inst s g.1 g.2 [] []) (Solution.init inst)

end PackingSolver.Stacks
