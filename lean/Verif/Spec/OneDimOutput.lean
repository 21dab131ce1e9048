import Verif.Spec.OneDim

/-!
# What the solver optimizes over
-/

namespace PackingSolver.OneDim.Spec

open PackingSolver.OneDim

/-- Every copy of every item type is packed. -/
def AllPacked (inst : Instance) (p : Packing) : Prop :=
  ∀ i, i < inst.numberOfItemTypes → itemCopies p i = (inst.itemType i).copies

/-- Admissible packings: feasible, within the bin limits and, for the objectives that
require all items, complete (bin packing also uses the bin types in order). -/
structure Admissible (inst : Instance) (p : Packing) : Prop where
  typed : WellTyped inst p
  feasible : Feasible inst p
  limits : BinLimitsOk inst p
  complete : inst.objective ≠ .knapsack → AllPacked inst p
  order : inst.objective = .binPacking → OrderOk inst p

end PackingSolver.OneDim.Spec
