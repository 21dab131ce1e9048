import Verif.Model.Guil.SolutionBuilder
import Verif.Model.Output

/-!
# Guillotine solutions in the pool and the output
-/

namespace PackingSolver.Guil

/-- `Solution::operator<` as a Boolean, `src/rectangleguillotine/solution.cpp:536–577`.  (For an
unsupported objective the code throws as soon as both solutions are feasible; the property theorems
are about supported objectives.) -/
def Solution.ltB (inst : Instance) (a b : Solution) : Bool :=
  match Solution.lt inst a b with
  | .ok r => r
  | .error _ => false

/-- The guillotine solutions of an instance, as used by the pool and the output: `profit()`,
`cost()`, `number_of_bins()`, `full()` and `feasible()`,
`include/packingsolver/rectangleguillotine/solution.hpp:140–290`. -/
def Solution.ops (inst : Instance) : SolutionOps Solution where
  lt := Solution.ltB inst
  itemCopies := Solution.itemCopies
  profit := Solution.profit
  cost := Solution.cost
  numberOfBins := Solution.numberOfBins
  full := Solution.full inst
  feasible := Solution.feasible
  empty := .init inst

end PackingSolver.Guil
