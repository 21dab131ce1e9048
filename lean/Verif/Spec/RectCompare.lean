import Verif.Spec.RectSolution

/-!
# Which of two rectangle packings is better
-/

namespace PackingSolver.Rect.Spec

open PackingSolver.Rect

/-- The objectives under which the comparison is an order. -/
def Ordered : Objective → Prop
  | .binPacking | .binPackingWithLeftovers | .openDimensionX | .openDimensionY | .knapsack
  | .feasibility | .variableSizedBinPacking => True
  | _ => False

/-- The objectives rectangle solutions can be compared under. -/
def Supported (o : Objective) : Prop :=
  Ordered o ∨ o = .default ∨ o = .sequentialOneDimensionalRectangleSubproblem

variable (inst : Instance)

/-- Width of the used part of the last bin. -/
def usedX (p : Packing) : Int := ((lastItems p).map (rightEnd inst)).foldl max 0

/-- Height of the used part of the last bin. -/
def usedY (p : Packing) : Int := ((lastItems p).map (upperEnd inst)).foldl max 0

/-- What remains of the last bin: the area outside the rectangle enclosing the items, or the width
or height beyond it, as the parameter asks. -/
def remaining (p : Packing) : Int :=
  match p.getLast? with
  | none => 0
  | some b =>
    match inst.parameters.leftoverMode with
    | .area => (inst.binType b.binTypeId).x * (inst.binType b.binTypeId).y
        - usedX inst p * usedY inst p
    | .x => (inst.binType b.binTypeId).x - usedX inst p
    | .y => (inst.binType b.binTypeId).y - usedY inst p

/-- `q` has a strictly better objective value than `p`. -/
def Better (p q : Packing) : Prop :=
  match inst.objective with
  | .binPacking => numberOfBins q < numberOfBins p
  | .binPackingWithLeftovers => numberOfBins q < numberOfBins p
      ∨ (numberOfBins q = numberOfBins p ∧ remaining inst p < remaining inst q)
  | .openDimensionX => usedX inst q < usedX inst p
  | .openDimensionY => usedY inst q < usedY inst p
  | .knapsack | .feasibility => reportedProfit inst p < reportedProfit inst q
  | .variableSizedBinPacking => cost inst q < cost inst p
  | _ => False

/-- `q` is better by more than the tolerance of one millionth (for non-negative profits and
positive costs). -/
def ClearlyBetter (p q : Packing) : Prop :=
  match inst.objective with
  | .knapsack | .feasibility =>
      reportedProfit inst p < (1 - 1 / 1000000) * reportedProfit inst q
  | .variableSizedBinPacking => (1 + 1 / 1000000) * cost inst q < cost inst p
  | _ => Better inst p q

end PackingSolver.Rect.Spec
