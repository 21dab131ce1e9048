import Verif.Spec.GuillotineBuild

/-!
# Specification: sub-instances of guillotine instances
-/

namespace PackingSolver.Guil.Spec

/-- Everything a user can set on a bin type except its resources and fixed items. -/
structure SameBinData (t u : BinType) : Prop where
  sides : u.w = t.w ∧ u.h = t.h
  cost : u.cost = t.cost
  copies : u.copies = t.copies
  copiesMin : u.copiesMin = t.copiesMin
  defects : u.defects = t.defects
  trims : u.leftTrim = t.leftTrim ∧ u.rightTrim = t.rightTrim
    ∧ u.bottomTrim = t.bottomTrim ∧ u.topTrim = t.topTrim
  trimTypes : u.leftTrimType = t.leftTrimType ∧ u.rightTrimType = t.rightTrimType
    ∧ u.bottomTrimType = t.bottomTrimType ∧ u.topTrimType = t.topTrimType

/-- Everything a user can set on an item type except its minimum number of copies. -/
structure SameItemData (t u : ItemType) : Prop where
  sides : u.w = t.w ∧ u.h = t.h
  profit : u.profit = t.profit
  copies : u.copies = t.copies
  oriented : u.oriented = t.oriented

/-- `sub` is the restriction of `orig` to the listed bin types and item types. -/
structure IsSubInstance (orig : Instance) (binIds itemIds : List Nat) (sub : Instance) : Prop where
  numberOfBinTypes : sub.numberOfBinTypes = binIds.length
  numberOfItemTypes : sub.numberOfItemTypes = itemIds.length
  bins : ∀ k, k < binIds.length →
    SameBinData (orig.binType (binIds.getD k 0)) (sub.binType k)
  items : ∀ j, j < itemIds.length →
    SameItemData (orig.itemType (itemIds.getD j 0)) (sub.itemType j)
  /-- Resources: same capacities and penalties, … -/
  resources : ∀ k, k < binIds.length →
    (sub.binType k).resources.map (fun r => (r.capacity, r.penalize, r.penalty))
      = (orig.binType (binIds.getD k 0)).resources.map
          (fun r => (r.capacity, r.penalize, r.penalty))
  /-- … same consumption of every copy of every item type. -/
  consumptions : ∀ k, k < binIds.length → ∀ j, j < itemIds.length → ∀ r c,
    ((sub.binType k).resources.getD r {}).itemConsumption j c
      = ((orig.binType (binIds.getD k 0)).resources.getD r {}).itemConsumption
          (itemIds.getD j 0) c

/-- The item types of the sub-instance are in the same stacks. -/
def SameStacks (orig : Instance) (itemIds : List Nat) (sub : Instance) : Prop :=
  ∀ j, j < itemIds.length → (sub.itemType j).stackId = (orig.itemType (itemIds.getD j 0)).stackId

/-- The bin type can be given to the builder. -/
structure CopyableBin (t : BinType) : Prop where
  sides : 0 < t.w ∧ 0 < t.h
  cost : 0 < t.cost
  copies : 0 < t.copies
  copiesMin : 0 ≤ t.copiesMin ∧ t.copiesMin ≤ t.copies
  trims : 0 ≤ t.leftTrim ∧ 0 ≤ t.rightTrim ∧ 0 ≤ t.bottomTrim ∧ 0 ≤ t.topTrim
  room : t.leftTrim + t.rightTrim < t.w ∧ t.bottomTrim + t.topTrim < t.h

/-- The item type can be given to the builder. -/
structure CopyableItem (t : ItemType) : Prop where
  sides : 0 ≤ t.w ∧ 0 ≤ t.h
  copies : 0 < t.copies

end PackingSolver.Guil.Spec
