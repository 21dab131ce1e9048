import Verif.Model.OneDim.Builder

/-!
# Knapsack sub-instance of sequential value correction, one-dimensional case
-/

namespace PackingSolver.OneDim

open InstanceBuilder

/-- The builder calls for the item types, `sequential_value_correction.hpp:249–263`; each entry
is an item type with its corrected profit and its available copies. -/
def svcItemCalls (inst : Instance) : Nat → List (Nat × ℚ × Int) → List Op
  | _, [] => []
  | k, (i, profit, copies) :: rest =>
    if copies ≤ 0 then svcItemCalls inst k rest
    else .addItemTypeFrom inst i :: .setItemTypeProfit k profit :: .setItemTypeCopies k copies
      :: svcItemCalls inst (k + 1) rest

/-- `sequential_value_correction.hpp:243–264` for one-dimensional instances.  (The parameters,
`set_parameters`, play no role in the model.) -/
def svcKnapsackInstance (inst : Instance) (t : Nat) (items : List (Nat × ℚ × Int)) :
    Except Err Instance :=
  runOps .knapsack
    (.addBinTypeFrom inst t :: .setBinTypeCopies 0 1 :: .setBinTypeCopiesMin 0 0
      :: svcItemCalls inst 0 items)

end PackingSolver.OneDim
