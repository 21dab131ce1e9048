import Verif.Spec.BoxGeometry

/-!
# Packings of boxes in bins of one type
-/

namespace PackingSolver.Box.Spec

/-- Items placed in a bin of type `b`: they exist, have an allowed rotation, lie in the bin and do
not overlap. -/
structure BinPacking (inst : Instance) (b : Nat) (items : List PlacedItem) : Prop where
  exist : ∀ p ∈ items, p.itemTypeId < inst.numberOfItemTypes
  rotation : ∀ p ∈ items, p.rotation ∈ (inst.itemType p.itemTypeId).rotations
  inside : ∀ p ∈ items, Inside (inst.binType b).box (occupies inst p)
  separated : items.Pairwise fun p q => Separated (occupies inst p) (occupies inst q)

/-- A packing lists the content of each used bin; all bins have type 0.  It packs all copies of
all items. -/
structure FullPacking (inst : Instance) (bins : List (List PlacedItem)) : Prop where
  each : ∀ items ∈ bins, BinPacking inst 0 items
  all : ∀ i, i < inst.numberOfItemTypes → count bins.flatten i = (inst.itemType i).copies

/-- No item type is used more often than it has copies. -/
def WithinCopies (inst : Instance) (items : List PlacedItem) : Prop :=
  ∀ i, i < inst.numberOfItemTypes → count items i ≤ (inst.itemType i).copies

/-- The instance has only boxes with positive sides, nonnegative numbers of copies and at least one
rotation each. -/
structure Positive (inst : Instance) : Prop where
  items : ∀ it ∈ inst.itemTypes, (0 < it.box.x ∧ 0 < it.box.y ∧ 0 < it.box.z) ∧ 0 ≤ it.copies
    ∧ it.rotations ≠ []
  bins : ∀ b ∈ inst.binTypes, 0 < b.box.x ∧ 0 < b.box.y ∧ 0 < b.box.z

/-- A selection of items packed in at most as many bins of type 0 as there are. -/
structure KnapsackPacking (inst : Instance) (bins : List (List PlacedItem)) : Prop where
  each : ∀ items ∈ bins, BinPacking inst 0 items
  copies : WithinCopies inst bins.flatten
  limit : (bins.length : Int) ≤ (inst.binType 0).copies

/-- The profit of a packing: profits of the items minus the penalties of the bins. -/
def profit (inst : Instance) (bins : List (List PlacedItem)) : ℚ :=
  (bins.map fun items => itemsProfit inst items - penalties inst 0 items).sum

end PackingSolver.Box.Spec
