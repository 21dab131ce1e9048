import Verif.Model.Guil.BlockSearch
import Mathlib.Analysis.SpecialFunctions.Log.Basic

/-!
# The bucket queue of the block search
-/

namespace PackingSolver.Guil

/-- `number_of_buckets`, `bucket_index` and `bucket_threshold`,
`tree_search_hypergraph.cpp:452–463` and `522`.  Simplification: the logarithm is the exact one, not
its double approximation.  The conversion to `int` of a non-negative value is its floor. -/
noncomputable def codeBucketing (init : ℚ) : Bucketing where
  count := 2000
  index p :=
    if init ≤ 0 ∨ p ≥ init then 0
    else if p ≤ 0 then 2000 - 1
    else min ⌊Real.log ((init : ℝ) / (p : ℝ)) / Real.log (1 / 0.99)⌋₊ (2000 - 1)
  threshold k := init * (99 / 100) ^ k

end PackingSolver.Guil
