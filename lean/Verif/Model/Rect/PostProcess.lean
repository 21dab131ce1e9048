import Verif.Model.Grouping
import Verif.Model.Rect.Solution

/-!
# Grouping identical bins of rectangle solutions

`packingsolver::rectangle::group_identical_bins`, `src/rectangle/post_process.cpp:6–13`; the solution
returned by the template is modelled, not the pool it is added to.
-/

namespace PackingSolver.Rect

/-- What `operator==` on items and bins compares, `rectangle/solution.cpp:452–475`: the bin type and
the items with their types, places and rotations. -/
def binContent (b : SolutionBin) : Nat × List PlacedItem := (b.binTypeId, b.items)

/-- `group_identical_bins`, `common.hpp:558–588`. -/
def groupIdenticalBins (inst : Instance) (s : Solution) : Except Err Solution :=
  (Grouping.binGroups binContent (·.copies) s.bins).foldlM
    (fun n g => n.appendBin inst s g.1 g.2 [] []) (Solution.init inst)

end PackingSolver.Rect
