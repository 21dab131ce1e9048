import Verif.Spec.OneDim

/-!
# Which of two packings is better
-/

namespace PackingSolver.OneDim.Spec

open PackingSolver.OneDim

/-- The objectives the one-dimensional solver compares by a single value. -/
def SingleValue : Objective → Prop
  | .binPacking | .binPackingWithLeftovers | .knapsack | .feasibility
  | .variableSizedBinPacking => True
  | _ => False

/-- Length not covered by items, up to the end of the last item. -/
def waste (inst : Instance) (p : Packing) : Int := length inst p - itemLength inst p

/-- `q` has a strictly better objective value than `p`: fewer bins, less waste, more
profit, lower cost. -/
def Better (inst : Instance) (p q : Packing) : Prop :=
  match inst.objective with
  | .binPacking => numberOfBins q < numberOfBins p
  | .binPackingWithLeftovers => waste inst q < waste inst p
  | .knapsack | .feasibility => profit inst p < profit inst q
  | .variableSizedBinPacking => cost inst q < cost inst p
  | _ => False

/-- `q` is better by more than the tolerance of one millionth (for non-negative
profits and positive costs). -/
def ClearlyBetter (inst : Instance) (p q : Packing) : Prop :=
  match inst.objective with
  | .binPacking => numberOfBins q < numberOfBins p
  | .binPackingWithLeftovers => waste inst q < waste inst p
  | .knapsack | .feasibility => profit inst p < (1 - 1 / 1000000) * profit inst q
  | .variableSizedBinPacking => (1 + 1 / 1000000) * cost inst q < cost inst p
  | _ => False

end PackingSolver.OneDim.Spec
