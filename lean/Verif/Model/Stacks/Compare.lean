import Verif.Model.Stacks.Solution
import Verif.Model.Output

/-!
# Boxstacks solutions in the pool and the output
-/

namespace PackingSolver.Stacks

/-- `Solution::operator<` as a Boolean, `src/boxstacks/solution.cpp:286–321`.  (For an unsupported
objective the code throws as soon as both solutions are feasible; the property theorems are about
supported objectives.) -/
def Solution.ltB (inst : Instance) (a b : Solution) : Bool :=
  match Solution.lt inst a b with
  | .ok r => r
  | .error _ => false

/-- The boxstacks solutions of an instance, as used by the pool and the output: `profit()`,
`cost()`, `number_of_bins()`, `full()` and `feasible()`,
`include/packingsolver/boxstacks/solution.hpp:160–310`. -/
def Solution.ops (inst : Instance) : SolutionOps Solution where
  lt := Solution.ltB inst
  itemCopies := Solution.itemCopies
  profit := Solution.itemProfit
  cost := Solution.binCost
  numberOfBins := Solution.numberOfBins
  full := Solution.full inst
  feasible := Solution.feasible
  empty := .init inst

end PackingSolver.Stacks
