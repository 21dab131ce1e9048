import Verif.Spec.BoxGeometry
import Verif.Spec.BoxSolution
import Verif.Spec.OneDimBuild

/-!
# Specification of a built box instance

The derived data of an instance, defined from its item types and bin types.
-/

namespace PackingSolver.Box.Spec

open PackingSolver.OneDim.Spec (IsMaxWithZero)

/-- The bin type of each bin position: every bin type repeated `copies` times. -/
def binPositions (bins : List BinType) : List Nat :=
  bins.zipIdx.flatMap fun p => List.replicate p.1.copies.toNat p.2

/-- `m` is the smallest of the values of `l` and the largest length. -/
def IsMinLength (l : List Int) (m : Int) : Prop :=
  (∀ x ∈ l, m ≤ x) ∧ m ≤ 2 ^ 63 - 1 ∧ (m = 2 ^ 63 - 1 ∨ m ∈ l)

/-- The dimensions an item may have in a bin. -/
def orientations (t : ItemType) : List Dims := t.rotations.map (rotated t.box)

/-- `m` is the smallest value of `f` among the orientations of the items; 0 without items. -/
def IsSmallest (its : List ItemType) (f : Dims → Int) (m : Int) : Prop :=
  if its = [] then m = 0 else IsMinLength ((its.flatMap orientations).map f) m

/-- The derived data agree with the types. -/
structure Aggregates (inst : Instance) : Prop where
  numberOfItems : inst.numberOfItems = (inst.itemTypes.map (·.copies)).sum
  itemVolume : inst.itemVolume = (inst.itemTypes.map fun t => t.copies * volumeOf t.box).sum
  itemProfit : inst.itemProfit = (inst.itemTypes.map fun t => (t.copies : ℚ) * t.profit).sum
  itemWeight : inst.itemWeight = (inst.itemTypes.map fun t => (t.copies : ℚ) * t.weight).sum
  largestItemProfit : IsMaxWithZero (inst.itemTypes.map (·.profit)) inst.largestItemProfit
  largestItemCopies : IsMaxWithZero (inst.itemTypes.map (·.copies)) inst.largestItemCopies
  smallestItemX : IsSmallest inst.itemTypes (·.x) inst.smallestItemX
  smallestItemY : IsSmallest inst.itemTypes (·.y) inst.smallestItemY
  smallestItemZ : IsSmallest inst.itemTypes (·.z) inst.smallestItemZ
  /-- The most efficient item type (profit per volume). -/
  largestEfficiency : (inst.itemTypes = [] → inst.largestEfficiencyItemTypeId = -1)
    ∧ (inst.itemTypes ≠ [] → ∃ i, i < inst.numberOfItemTypes
      ∧ inst.largestEfficiencyItemTypeId = (i : Int)
      ∧ ∀ j, j < inst.numberOfItemTypes →
        (inst.itemType j).profit / (volumeOf (inst.itemType j).box : ℚ)
          ≤ (inst.itemType i).profit / (volumeOf (inst.itemType i).box : ℚ))
  /-- If some bin is not empty: whether every item type could fill any bin on its own. -/
  allInfinite : (∃ t ∈ inst.binTypes, 0 < volumeOf t.box) →
    (inst.allItemTypesInfiniteCopies = true ↔
      ∀ t ∈ inst.itemTypes, ∀ b ∈ inst.binTypes, volumeOf b.box ≤ t.copies * volumeOf t.box)
  binVolume : inst.binVolume = (inst.binTypes.map fun t => t.copies * volumeOf t.box).sum
  binArea : inst.binArea = (inst.binTypes.map fun t => t.copies * (t.box.x * t.box.y)).sum
  binTypeIds : inst.binTypeIds = binPositions inst.binTypes
  previousBinsVolume : inst.previousBinsVolume.length = inst.binTypeIds.length
    ∧ ∀ k, k < inst.binTypeIds.length → inst.previousBinsVolume.getD k 0
      = ((inst.binTypeIds.take k).map fun b => volumeOf (inst.binType b).box).sum
  largestBinCost : IsMaxWithZero (inst.binTypes.map (·.cost)) inst.largestBinCost
  resourceIds : ResourceIdsOk inst

/-- What the builder guarantees of the sizes and numbers of copies. -/
structure Sizes (inst : Instance) : Prop where
  items : ∀ t ∈ inst.itemTypes, 0 < t.box.x ∧ 0 < t.box.y ∧ 0 < t.box.z ∧ t.copiesMin ≤ t.copies
    ∧ t.rotations ≠ []
  bins : ∀ t ∈ inst.binTypes, 0 ≤ t.copiesMin ∧ (0 < t.copies ∨ t.copies = inst.numberOfItems)
  noFixed : ∀ t ∈ inst.binTypes, t.fixedItems = []
  openDimension : inst.objective = .openDimensionX ∨ inst.objective = .openDimensionY →
    inst.numberOfBins = 1

/-- What the builder does not check and `build` relies on: positive sides and non-negative numbers
of copies of the items, and no resource consumption of an item type that does not exist. -/
structure WellFormed (inst : Instance) : Prop where
  sides : ∀ t ∈ inst.itemTypes, t.box.x ≠ 0 ∧ t.box.y ≠ 0 ∧ t.box.z ≠ 0
  copies : ∀ t ∈ inst.itemTypes, 0 ≤ t.copies
  consumptions : ∀ t ∈ inst.binTypes, ∀ r ∈ t.resources,
    r.itemConsumptions.length ≤ inst.itemTypes.length

/-- What `build` requires of the instance under construction. -/
structure Buildable (inst : Instance) : Prop where
  minima : ∀ t ∈ inst.itemTypes, t.copiesMin = -1 ∨ t.copiesMin ≤ t.copies
  /-- Exactly one bin for the open dimension objectives; `-1` copies are as many as items. -/
  openDimension : inst.objective = .openDimensionX ∨ inst.objective = .openDimensionY →
    (inst.binTypes.map fun t =>
      if t.copies = -1 then (inst.itemTypes.map (·.copies)).sum else t.copies).sum = 1

end PackingSolver.Box.Spec
