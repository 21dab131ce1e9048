import Verif.Spec.GuillotineTotals
import Verif.Spec.OneDimBuild

/-!
# Specification of a built guillotine instance

The derived data of an instance, defined from its item types and bin types.
-/

namespace PackingSolver.Guil.Spec

/-- The bin type of each bin position: every bin type repeated `copies` times. -/
def binPositions (bins : List BinType) : List Nat :=
  bins.zipIdx.flatMap fun p => List.replicate p.1.copies.toNat p.2

/-- The derived data agree with the types. -/
structure Aggregates (inst : Instance) : Prop where
  numberOfItems : inst.numberOfItems = (inst.itemTypes.map (·.copies)).sum
  itemArea : inst.itemArea = (inst.itemTypes.map fun t => t.copies * (t.w * t.h)).sum
  itemProfit : inst.itemProfit = (inst.itemTypes.map fun t => (t.copies : ℚ) * t.profit).sum
  largestItemProfit :
    OneDim.Spec.IsMaxWithZero (inst.itemTypes.map (·.profit)) inst.largestItemProfit
  largestItemCopies :
    OneDim.Spec.IsMaxWithZero (inst.itemTypes.map (·.copies)) inst.largestItemCopies
  /-- The most efficient item type (profit per area). -/
  largestEfficiency : (inst.itemTypes = [] → inst.largestEfficiencyItemTypeId = -1)
    ∧ (inst.itemTypes ≠ [] → ∃ i, i < inst.numberOfItemTypes
      ∧ inst.largestEfficiencyItemTypeId = (i : Int)
      ∧ ∀ j, j < inst.numberOfItemTypes →
        (inst.itemType j).profit / (((inst.itemType j).w * (inst.itemType j).h : Int) : ℚ)
          ≤ (inst.itemType i).profit / (((inst.itemType i).w * (inst.itemType i).h : Int) : ℚ))
  allOriented : inst.allItemTypesOriented = true ↔ ∀ t ∈ inst.itemTypes, t.oriented = true
  /-- If some bin is not empty: whether every item type could fill any bin on its own. -/
  allInfinite : (∃ t ∈ inst.binTypes, 0 < trimmedArea t) →
    (inst.allItemTypesInfiniteCopies = true ↔
      ∀ t ∈ inst.itemTypes, ∀ b ∈ inst.binTypes, trimmedArea b ≤ t.copies * (t.w * t.h))
  binArea : inst.binArea = (inst.binTypes.map fun t => t.copies * trimmedArea t).sum
  binTypeIds : inst.binTypeIds = binPositions inst.binTypes
  previousBinsArea : inst.previousBinsArea.length = inst.binTypeIds.length
    ∧ ∀ k, k < inst.binTypeIds.length → inst.previousBinsArea.getD k 0
      = ((inst.binTypeIds.take k).map fun b => trimmedArea (inst.binType b)).sum
  largestBinCost : OneDim.Spec.IsMaxWithZero (inst.binTypes.map (·.cost)) inst.largestBinCost
  numberOfDefects : inst.numberOfDefects = (inst.binTypes.map fun t => t.defects.length).sum
  resourceIds : ResourceIdsOk inst

/-- What the builder guarantees of the sizes and numbers of copies. -/
structure Sizes (inst : Instance) : Prop where
  items : ∀ t ∈ inst.itemTypes, 0 < t.w ∧ 0 < t.h ∧ t.copiesMin ≤ t.copies
  bins : ∀ t ∈ inst.binTypes, 0 ≤ t.copiesMin ∧ (0 < t.copies ∨ t.copies = inst.numberOfItems)
  noFixed : ∀ t ∈ inst.binTypes, t.fixedItems = []
  openDimension : inst.objective = .openDimensionX ∨ inst.objective = .openDimensionY →
    inst.numberOfBins = 1

/-- The items of a stack, first to last: the copies of its item types, in the order of the item
types. -/
def stackItems (inst : Instance) (s : Nat) : List Nat :=
  (List.range inst.numberOfItemTypes).flatMap fun i =>
    if (inst.itemType i).stackId = (s : Int) then
      List.replicate (inst.itemType i).copies.toNat i
    else []

/-- The stacks of an instance are those of its item types. -/
structure StackTable (inst : Instance) : Prop where
  /-- Every item type is in one of the stacks, … -/
  stackOf : ∀ i < inst.numberOfItemTypes,
    0 ≤ (inst.itemType i).stackId ∧ (inst.itemType i).stackId < inst.numberOfStacks
  /-- … after the item types before it. -/
  stackPos : ∀ i < inst.numberOfItemTypes, (inst.itemType i).stackPos
    = (((List.range i).filter fun j => (inst.itemType j).stackId = (inst.itemType i).stackId).map
        fun j => (inst.itemType j).copies).sum
  size : ∀ s : Nat, s < inst.numberOfStacks → inst.stackSize s = ((stackItems inst s).length : Int)
  item : ∀ s : Nat, s < inst.numberOfStacks → ∀ p < (stackItems inst s).length,
    inst.item s p = (stackItems inst s).getD p 0
  /-- Every access is inside the array. -/
  first : inst.stackOffsets.getD 0 0 = 0
  last : inst.stackOffsets.getD (inst.numberOfStacks).toNat 0 = inst.itemTypeIds.length
  nonneg : 0 ≤ inst.numberOfStacks

/-- What the builder does not check and `build` relies on: positive sides and non-negative numbers
of copies of the items, and no resource consumption of an item type that does not exist. -/
structure WellFormed (inst : Instance) : Prop where
  sides : ∀ t ∈ inst.itemTypes, t.w ≠ 0 ∧ t.h ≠ 0
  copies : ∀ t ∈ inst.itemTypes, 0 ≤ t.copies
  consumptions : ∀ t ∈ inst.binTypes, ∀ r ∈ t.resources,
    r.itemConsumptions.length ≤ inst.itemTypes.length

/-- What `build` requires of the instance under construction. -/
structure Buildable (inst : Instance) : Prop where
  /-- With two stages there are no 2-cuts to constrain. -/
  twoStages : inst.parameters.numberOfStages = 2 → inst.parameters.minimumDistance2Cuts = 0
    ∧ inst.parameters.maximumDistance2Cuts = -1 ∧ inst.parameters.maximumNumber2Cuts = -1
  numbers : inst.parameters.maximumNumber1Cuts ≠ 0 ∧ inst.parameters.maximumNumber2Cuts ≠ 0
  /-- Either all item types are given a stack, or none. -/
  stacksGiven : (∀ t ∈ inst.itemTypes, 0 ≤ t.stackId) ∨ (∀ t ∈ inst.itemTypes, t.stackId < 0)
  minima : ∀ t ∈ inst.itemTypes, t.copiesMin = -1 ∨ t.copiesMin ≤ t.copies
  /-- Exactly one bin for the open dimension objectives; `-1` copies are as many as items. -/
  openDimension : inst.objective = .openDimensionX ∨ inst.objective = .openDimensionY →
    (inst.binTypes.map fun t =>
      if t.copies = -1 then (inst.itemTypes.map (·.copies)).sum else t.copies).sum = 1

end PackingSolver.Guil.Spec
