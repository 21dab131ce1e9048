import Verif.Spec.OneDim

/-!
# Specification of a built instance

The derived data of an instance, defined from its item types and bin types.
-/

namespace PackingSolver.OneDim.Spec

open PackingSolver.OneDim

/-- `m` is the largest of the values of `l` and 0. -/
def IsMaxWithZero {α : Type} [LE α] [OfNat α 0] (l : List α) (m : α) : Prop :=
  (∀ x ∈ l, x ≤ m) ∧ 0 ≤ m ∧ (m = 0 ∨ m ∈ l)

/-- The bin type of each bin position: every bin type repeated `copies` times. -/
def binPositions (bins : List BinType) : List Nat :=
  bins.zipIdx.flatMap fun p => List.replicate p.1.copies.toNat p.2

/-- The derived data agree with the types. -/
structure Aggregates (inst : Instance) : Prop where
  numberOfItems : inst.numberOfItems = (inst.itemTypes.map (·.copies)).sum
  itemLength : inst.itemLength = (inst.itemTypes.map fun t => t.copies * t.length).sum
  itemProfit : inst.itemProfit = (inst.itemTypes.map fun t => (t.copies : ℚ) * t.profit).sum
  largestItemProfit : IsMaxWithZero (inst.itemTypes.map (·.profit)) inst.largestItemProfit
  largestItemCopies : IsMaxWithZero (inst.itemTypes.map (·.copies)) inst.largestItemCopies
  /-- The most efficient item type (profit per length). -/
  largestEfficiency : (inst.itemTypes = [] → inst.largestEfficiencyItemTypeId = -1)
    ∧ (inst.itemTypes ≠ [] → ∃ i, i < inst.numberOfItemTypes
      ∧ inst.largestEfficiencyItemTypeId = (i : Int)
      ∧ ∀ j, j < inst.numberOfItemTypes →
        (inst.itemType j).profit / ((inst.itemType j).length : ℚ)
          ≤ (inst.itemType i).profit / ((inst.itemType i).length : ℚ))
  binLength : inst.binLength = (inst.binTypes.map fun t => t.copies * t.length).sum
  binTypeIds : inst.binTypeIds = binPositions inst.binTypes
  previousBinsLength : inst.previousBinsLength.length = inst.binTypeIds.length
    ∧ ∀ k, k < inst.binTypeIds.length → inst.previousBinsLength.getD k 0
      = ((inst.binTypeIds.take k).map fun b => (inst.binType b).length).sum
  largestBinCost : IsMaxWithZero (inst.binTypes.map (·.cost)) inst.largestBinCost
  itemTypeIds : ∀ b, b < inst.numberOfBinTypes → ((inst.binType b).itemTypeIds).Nodup
    ∧ ∀ i, i ∈ (inst.binType b).itemTypeIds ↔ i < inst.numberOfItemTypes ∧ EligibleIn inst i b
  resourceIds : ResourceIdsOk inst

/-- All item types have enough copies to fill the longest bin end to end. -/
def EnoughCopies (inst : Instance) : Prop :=
  ∀ t ∈ inst.itemTypes, ∀ b ∈ inst.binTypes, b.length ≤ t.copies * t.length

end PackingSolver.OneDim.Spec
