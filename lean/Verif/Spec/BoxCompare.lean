import Verif.Spec.BoxSolution

/-!
# Which of two box packings is better
-/

namespace PackingSolver.Box.Spec

open PackingSolver.Box

/-- The objectives under which the comparison is an order. -/
def Ordered : Objective → Prop
  | .binPacking | .binPackingWithLeftovers | .openDimensionX | .openDimensionY | .openDimensionZ
  | .knapsack | .feasibility => True
  | _ => False

/-- The objectives box solutions can be compared under. -/
def Supported (o : Objective) : Prop := Ordered o ∨ o = .default

variable (inst : Instance)

/-- Used length of the last bin along x. -/
def usedX (p : Packing) : Int := ((lastItems p).map (rightEnd inst)).foldl max 0

/-- Used length of the last bin along y. -/
def usedY (p : Packing) : Int := ((lastItems p).map (rearEnd inst)).foldl max 0

/-- Used height of the last bin. -/
def usedZ (p : Packing) : Int := ((lastItems p).map (topEnd inst)).foldl max 0

/-- What remains of the last bin: the volume outside the box enclosing the items. -/
def remaining (p : Packing) : Int :=
  match p.getLast? with
  | none => 0
  | some b => volumeOf (inst.binType b.binTypeId).box
      - usedX inst p * usedY inst p * usedZ inst p

/-- `q` has a strictly better objective value than `p`. -/
def Better (p q : Packing) : Prop :=
  match inst.objective with
  | .binPacking => numberOfBins q < numberOfBins p
  | .binPackingWithLeftovers => numberOfBins q < numberOfBins p
      ∨ (numberOfBins q = numberOfBins p ∧ remaining inst p < remaining inst q)
  | .openDimensionX => usedX inst q < usedX inst p
  | .openDimensionY => usedY inst q < usedY inst p
  | .openDimensionZ => usedZ inst q < usedZ inst p
  | .knapsack | .feasibility => reportedProfit inst p < reportedProfit inst q
  | .variableSizedBinPacking => cost inst q < cost inst p
  | _ => False

/-- `q` is better by more than the tolerance of one millionth (for non-negative profits). -/
def ClearlyBetter (p q : Packing) : Prop :=
  match inst.objective with
  | .knapsack | .feasibility =>
      reportedProfit inst p < (1 - 1 / 1000000) * reportedProfit inst q
  | _ => Better inst p q

end PackingSolver.Box.Spec
