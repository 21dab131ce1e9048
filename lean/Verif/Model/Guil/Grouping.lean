import Verif.Model.Grouping
import Verif.Model.Guil.Solution

/-!
# Grouping identical bins of guillotine solutions

`packingsolver::rectangleguillotine::group_identical_bins`,
`src/rectangleguillotine/post_process.cpp:10–17`; the solution returned by the template is modelled,
not the pool it is added to.
-/

namespace PackingSolver.Guil

/-- What `operator==` on nodes and bins compares, `rectangleguillotine/solution.cpp:799–827`: the bin
type, the orientation of the first cuts and all fields of the nodes. -/
def binContent (b : SolutionBin) : Nat × CutOrientation × List Node :=
  (b.binTypeId, b.firstCutOrientation, b.nodes)

/-- `group_identical_bins`, `common.hpp:558–588`. -/
def groupIdenticalBins (inst : Instance) (s : Solution) : Except Err Solution :=
  (Grouping.binGroups binContent (·.copies) s.bins).foldlM
    (fun n g => n.appendBin inst s g.1 g.2 [] []) (Solution.init inst)

end PackingSolver.Guil
