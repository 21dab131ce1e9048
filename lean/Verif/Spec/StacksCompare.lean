import Verif.Spec.StacksSolution

/-!
# Which of two boxstacks packings is better
-/

namespace PackingSolver.Stacks.Spec

open PackingSolver.Stacks

/-- The objectives under which the comparison is an order. -/
def Ordered : Objective → Prop
  | .binPacking | .binPackingWithLeftovers | .openDimensionX | .openDimensionY
  | .knapsack | .feasibility => True
  | _ => False

/-- The objectives boxstacks solutions can be compared under. -/
def Supported (o : Objective) : Prop := Ordered o ∨ o = .default

variable (inst : Instance)

/-- Used length of the last bin along x. -/
def usedX (p : Packing) : Int := ((lastPiles p).map (·.xEnd)).foldl max 0

/-- Used length of the last bin along y. -/
def usedY (p : Packing) : Int := ((lastPiles p).map (·.yEnd)).foldl max 0

/-- The volume of the bins without the largest slab left in the last one, minus that of the items. -/
def wasted (p : Packing) : Int :=
  match p.getLast? with
  | none => 0
  | some b => binVolume inst p - largestSlab (inst.binType b.binTypeId) (usedX p) (usedY p)
      - itemVolume inst p

/-- The largest slab left in the last bin, if there is one, lies beyond the end of the stacks along x,
and the last bin is not empty. -/
def SlabAlongX (p : Packing) : Prop :=
  ∃ b, p.getLast? = some b ∧ b.piles ≠ []
    ∧ 1 ≤ (inst.binType b.binTypeId).box.x ∧ 0 ≤ (inst.binType b.binTypeId).box.y
    ∧ 0 ≤ (inst.binType b.binTypeId).box.z
    ∧ ((inst.binType b.binTypeId).box.y - usedY p) * (inst.binType b.binTypeId).box.x
      ≤ ((inst.binType b.binTypeId).box.x - usedX p) * (inst.binType b.binTypeId).box.y

/-- `q` has a strictly better objective value than `p`. -/
def Better (p q : Packing) : Prop :=
  match inst.objective with
  | .binPacking => numberOfBins q < numberOfBins p
  | .binPackingWithLeftovers => wasted inst q < wasted inst p
  | .openDimensionX => usedX q < usedX p
  | .openDimensionY => usedY q < usedY p
  | .knapsack | .feasibility => itemProfit inst p < itemProfit inst q
  | .variableSizedBinPacking => cost inst q < cost inst p
  | _ => False

/-- `q` is better by more than the tolerance of one millionth (for non-negative profits). -/
def ClearlyBetter (p q : Packing) : Prop :=
  match inst.objective with
  | .knapsack | .feasibility => itemProfit inst p < (1 - 1 / 1000000) * itemProfit inst q
  | _ => Better inst p q

end PackingSolver.Stacks.Spec
