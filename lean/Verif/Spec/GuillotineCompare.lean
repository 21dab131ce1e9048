import Verif.Spec.GuillotineTotals

/-!
# Specification: which of two guillotine solutions is better
-/

namespace PackingSolver.Guil.Spec

/-- The objectives under which the comparison is an order. -/
def Ordered : Objective → Prop
  | .binPacking | .binPackingWithLeftovers | .openDimensionX | .openDimensionY | .knapsack
  | .feasibility | .variableSizedBinPacking | .binPackingCuttingCost => True
  | _ => False

/-- The objectives guillotine solutions can be compared under. -/
def Supported (o : Objective) : Prop := Ordered o ∨ o = .default

variable (inst : Instance)

/-- Area that is neither an item nor trim nor residual of the last bin. -/
def wasteOf (ps : List Plate) : Int :=
  fullArea inst ps - residualArea ps - itemArea inst ps

/-- Width of the used part of the last bin. -/
def usedWidth (ps : List Plate) : Int := ((usedNodes ps).map (·.r)).foldl max 0

/-- Height of the used part of the last bin. -/
def usedHeight (ps : List Plate) : Int := ((usedNodes ps).map (·.t)).foldl max 0

/-- `q` is strictly better than `p`; for profit and cost, by more than the tolerance of one
millionth. -/
def ClearlyBetter (p q : List Plate) : Prop :=
  match inst.objective with
  | .binPacking => numberOfBins q < numberOfBins p
  | .binPackingWithLeftovers => wasteOf inst q < wasteOf inst p
      ∨ (wasteOf inst q = wasteOf inst p ∧ secondLeftover p < secondLeftover q)
  | .openDimensionX => usedWidth q < usedWidth p
  | .openDimensionY => usedHeight q < usedHeight p
  | .binPackingCuttingCost => cutsCost inst q + inst.parameters.wasteCost * wasteOf inst q
      < cutsCost inst p + inst.parameters.wasteCost * wasteOf inst p
  | .knapsack | .feasibility =>
      reportedProfit inst p < (1 - 1 / 1000000) * reportedProfit inst q
  | .variableSizedBinPacking => (1 + 1 / 1000000) * cost inst q < cost inst p
  | _ => False

end PackingSolver.Guil.Spec
