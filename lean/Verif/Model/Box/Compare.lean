import Verif.Model.Box.Solution
import Verif.Model.Output

/-!
# Box solutions in the pool and the output
-/

namespace PackingSolver.Box

/-- `Solution::operator<` as a Boolean, `src/box/solution.cpp:158–200`.  (For an unsupported
objective the code throws as soon as both solutions are feasible; the property theorems are about
supported objectives.) -/
def Solution.ltB (inst : Instance) (a b : Solution) : Bool :=
  match Solution.lt inst a b with
  | .ok r => r
  | .error _ => false

/-- The box solutions of an instance, as used by the pool and the output: `profit()`,
`cost()`, `number_of_bins()`, `full()` and `feasible()`,
`include/packingsolver/box/solution.hpp:105–240`. -/
def Solution.ops (inst : Instance) : SolutionOps Solution where
  lt := Solution.ltB inst
  itemCopies := Solution.itemCopies
  profit := Solution.itemProfit
  cost := Solution.binCost
  numberOfBins := Solution.numberOfBins
  full := Solution.full inst
  feasible := Solution.feasible
  empty := .init inst

end PackingSolver.Box
