import Verif.Spec.RectGeometry
import Verif.Spec.OneDimBuild

/-!
# Specification of a built rectangle instance

The derived data of an instance, defined from its item types and bin types.
-/

namespace PackingSolver.Rect.Spec

open PackingSolver.Rect
open PackingSolver.OneDim.Spec (IsMaxWithZero)

/-- The bin type of each bin position: every bin type repeated `copies` times. -/
def binPositions (bins : List BinType) : List Nat :=
  bins.zipIdx.flatMap fun p => List.replicate p.1.copies.toNat p.2

/-- `m` is the smallest of the values of `l` and the largest length. -/
def IsMinLength (l : List Int) (m : Int) : Prop :=
  (∀ x ∈ l, m ≤ x) ∧ m ≤ 2 ^ 63 - 1 ∧ (m = 2 ^ 63 - 1 ∨ m ∈ l)

/-- The widths an item may have in a bin. -/
def possibleWidths (t : ItemType) : List Int := if t.oriented then [t.x] else [t.x, t.y]

/-- The heights an item may have in a bin. -/
def possibleHeights (t : ItemType) : List Int := if t.oriented then [t.y] else [t.y, t.x]

/-- `resource_ids` of an item type lists, without repetition, the resources of the bin type for
which the item type has a schedule. -/
def ResourceIdsOk (inst : Instance) : Prop :=
  ∀ i, i < inst.numberOfItemTypes → ∀ b, b < inst.numberOfBinTypes →
    ((inst.itemType i).resourceIds.getD b []).Nodup
    ∧ ∀ r, r ∈ (inst.itemType i).resourceIds.getD b [] ↔ r < (inst.binType b).resources.length
      ∧ ((inst.binType b).resources.getD r {}).itemConsumptions.getD i [] ≠ []

/-- The derived data agree with the types. -/
structure Aggregates (inst : Instance) : Prop where
  numberOfItems : inst.numberOfItems = (inst.itemTypes.map (·.copies)).sum
  itemArea : inst.itemArea = (inst.itemTypes.map fun t => t.copies * t.area).sum
  totalItemWidth : inst.totalItemWidth = (inst.itemTypes.map fun t => t.copies * t.x).sum
  totalItemHeight : inst.totalItemHeight = (inst.itemTypes.map fun t => t.copies * t.y).sum
  itemProfit : inst.itemProfit = (inst.itemTypes.map fun t => (t.copies : ℚ) * t.profit).sum
  itemWeight : inst.itemWeight = (inst.itemTypes.map fun t => (t.copies : ℚ) * t.weight).sum
  largestItemProfit : IsMaxWithZero (inst.itemTypes.map (·.profit)) inst.largestItemProfit
  largestItemCopies : IsMaxWithZero (inst.itemTypes.map (·.copies)) inst.largestItemCopies
  smallestItemWidth : IsMinLength (inst.itemTypes.flatMap possibleWidths) inst.smallestItemWidth
  smallestItemHeight :
    IsMinLength (inst.itemTypes.flatMap possibleHeights) inst.smallestItemHeight
  /-- The most efficient item type (profit per area). -/
  largestEfficiency : (inst.itemTypes = [] → inst.largestEfficiencyItemTypeId = -1)
    ∧ (inst.itemTypes ≠ [] → ∃ i, i < inst.numberOfItemTypes
      ∧ inst.largestEfficiencyItemTypeId = (i : Int)
      ∧ ∀ j, j < inst.numberOfItemTypes →
        (inst.itemType j).profit / ((inst.itemType j).area : ℚ)
          ≤ (inst.itemType i).profit / ((inst.itemType i).area : ℚ))
  binArea : inst.binArea = (inst.binTypes.map fun t => t.copies * t.area).sum
  binTypeIds : inst.binTypeIds = binPositions inst.binTypes
  previousBinsArea : inst.previousBinsArea.length = inst.binTypeIds.length
    ∧ ∀ k, k < inst.binTypeIds.length → inst.previousBinsArea.getD k 0
      = ((inst.binTypeIds.take k).map fun b => (inst.binType b).area).sum
  largestBinCost : IsMaxWithZero (inst.binTypes.map (·.cost)) inst.largestBinCost
  numberOfDefects : inst.numberOfDefects = (inst.binTypes.map fun t => t.defects.length).sum
  numberOfGroups : (∀ t ∈ inst.itemTypes, t.groupId < inst.numberOfGroups)
    ∧ (inst.numberOfGroups = 0 ∨ ∃ t ∈ inst.itemTypes, t.groupId + 1 = inst.numberOfGroups)
  itemTypeIds : ∀ b, b < inst.numberOfBinTypes → ((inst.binType b).itemTypeIds).Nodup
    ∧ ∀ i, i ∈ (inst.binType b).itemTypeIds ↔ i < inst.numberOfItemTypes ∧ EligibleIn inst i b
  resourceIds : ResourceIdsOk inst

/-- What the builder guarantees of the sizes and numbers of copies. -/
structure Sizes (inst : Instance) : Prop where
  items : ∀ t ∈ inst.itemTypes, 0 < t.x ∧ 0 < t.y ∧ t.copiesMin ≤ t.copies
  bins : ∀ t ∈ inst.binTypes, 0 ≤ t.copiesMin ∧ (0 < t.copies ∨ t.copies = inst.numberOfItems)
  noFixed : ∀ t ∈ inst.binTypes, t.fixedItems = []
  openDimension : inst.objective = .openDimensionX ∨ inst.objective = .openDimensionY →
    inst.numberOfBins = 1

/-- What the builder does not check and `build` relies on: positive sides and non-negative numbers
of copies of the items, and no resource consumption of an item type that does not exist. -/
structure WellFormed (inst : Instance) : Prop where
  sides : ∀ t ∈ inst.itemTypes, t.x ≠ 0 ∧ t.y ≠ 0
  copies : ∀ t ∈ inst.itemTypes, 0 ≤ t.copies
  consumptions : ∀ t ∈ inst.binTypes, ∀ r ∈ t.resources,
    r.itemConsumptions.length ≤ inst.itemTypes.length

/-- What `build` requires of the instance under construction. -/
structure Buildable (inst : Instance) : Prop where
  minima : ∀ t ∈ inst.itemTypes, t.copiesMin = -1 ∨ t.copiesMin ≤ t.copies
  /-- Exactly one bin for the open dimension objectives; `-1` copies are as many as items. -/
  openDimension : inst.objective = .openDimensionX ∨ inst.objective = .openDimensionY →
    (inst.binTypes.map fun t =>
      if t.copies = -1 then (inst.itemTypes.map (·.copies)).sum else t.copies).sum = 1

end PackingSolver.Rect.Spec
