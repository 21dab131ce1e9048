import Verif.Spec.OneDim

/-!
# Specification of copied types and sub-instances

What it means for a bin type or an item type of a sub-instance to be the same as
the one it was copied from.
-/

namespace PackingSolver.OneDim.Spec

open PackingSolver.OneDim

/-- The precedence ids stored in the item types point to the precedences
(dominated, dominating) of the instance. -/
def PrecedenceIdsOk (inst : Instance) : Prop :=
  ∀ i, i < inst.numberOfItemTypes → ∀ p,
    (p ∈ (inst.itemType i).dominatedPrecedenceIds
      ↔ ∃ g, inst.precedences[p]? = some (i, g))
    ∧ (p ∈ (inst.itemType i).dominatingPrecedenceIds
      ↔ ∃ d, inst.precedences[p]? = some (d, i))

/-- Everything a user can set on a bin type except its resources. -/
structure SameBinData (t u : BinType) : Prop where
  length : u.length = t.length
  cost : u.cost = t.cost
  copies : u.copies = t.copies
  copiesMin : u.copiesMin = t.copiesMin
  maximumWeight : u.maximumWeight = t.maximumWeight
  eligibilityIds : u.eligibilityIds = t.eligibilityIds

/-- Everything a user can set on an item type except its minimum number of copies
and precedences. -/
structure SameItemData (t u : ItemType) : Prop where
  length : u.length = t.length
  profit : u.profit = t.profit
  copies : u.copies = t.copies
  weight : u.weight = t.weight
  nestingLength : u.nestingLength = t.nestingLength
  maximumStackability : u.maximumStackability = t.maximumStackability
  maximumWeightAfter : u.maximumWeightAfter = t.maximumWeightAfter
  eligibilityId : u.eligibilityId = t.eligibilityId

/-- `sub` is the restriction of `orig` to the listed bin types and item types. -/
structure IsSubInstance (orig : Instance) (binIds itemIds : List Nat) (sub : Instance) : Prop where
  numberOfBinTypes : sub.numberOfBinTypes = binIds.length
  numberOfItemTypes : sub.numberOfItemTypes = itemIds.length
  bins : ∀ k, k < binIds.length →
    SameBinData (orig.binType (binIds.getD k 0)) (sub.binType k)
  items : ∀ j, j < itemIds.length →
    SameItemData (orig.itemType (itemIds.getD j 0)) (sub.itemType j)
  /-- Resources: same capacities and penalties, … -/
  resources : ∀ k, k < binIds.length →
    (sub.binType k).resources.map (fun r => (r.capacity, r.penalize, r.penalty))
      = (orig.binType (binIds.getD k 0)).resources.map
          (fun r => (r.capacity, r.penalize, r.penalty))
  /-- … same consumption of every copy of every item type. -/
  consumptions : ∀ k, k < binIds.length → ∀ j, j < itemIds.length → ∀ r c,
    ((sub.binType k).resources.getD r {}).itemConsumption j c
      = ((orig.binType (binIds.getD k 0)).resources.getD r {}).itemConsumption
          (itemIds.getD j 0) c
  /-- Exactly the precedences between copied item types. -/
  precedences : ∀ d g, (d, g) ∈ sub.precedences ↔
    d < itemIds.length ∧ g < itemIds.length
      ∧ (itemIds.getD d 0, itemIds.getD g 0) ∈ orig.precedences

end PackingSolver.OneDim.Spec
