import Verif.Model.OneDim.Solution
import Verif.Model.Output

/-!
# One-dimensional solutions in the pool and the output
-/

namespace PackingSolver.OneDim

/-- `Solution::operator<` as a Boolean, `src/onedimensional/solution.cpp:229–262`.
(For an unsupported objective the code throws as soon as both solutions are
feasible; the property theorems are about supported objectives.) -/
def Solution.ltB (inst : Instance) (a b : Solution) : Bool :=
  match Solution.lt inst a b with
  | .ok r => r
  | .error _ => false

/-- The one-dimensional solutions of an instance, as used by the pool and the output:
`profit()`, `cost()`, `number_of_bins()`, `full()` and `feasible()`,
`include/packingsolver/onedimensional/solution.hpp:135–185`. -/
def Solution.ops (inst : Instance) : SolutionOps Solution where
  lt := Solution.ltB inst
  itemCopies := Solution.itemCopies
  profit := Solution.itemProfit
  cost := Solution.binCost
  numberOfBins := Solution.numberOfBins
  full := Solution.full inst
  feasible := Solution.feasible
  empty := .init inst

/-- `Output` for a one-dimensional instance. -/
def outputParams (inst : Instance) : OutputParams Solution where
  ops := Solution.ops inst
  objective := inst.objective
  numberOfBins := inst.numberOfBins

end PackingSolver.OneDim
