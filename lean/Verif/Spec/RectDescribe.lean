import Verif.Model.Rect.Builder
import Verif.Spec.Describe

/-!
# What a history of calls of the builder of rectangle instances describes
-/

namespace PackingSolver.Rect.Spec

open PackingSolver.Rect InstanceBuilder
open PackingSolver.Spec (lastGiven allGiven consumptionOf)

/-- Calls that add a type or concern a single type (and not all types at once, nor a type of another
instance). -/
def Plain : Op → Prop
  | .setBinTypesInfiniteX
  | .setBinTypesInfiniteY
  | .setBinTypesInfiniteCopies
  | .setBinTypesUnweighted
  | .setItemTypesUnweighted
  | .setItemTypesOriented
  | .setItemTypesInfiniteCopies
  | .multiplyItemTypesCopies _
  | .addBinTypeFrom _ _
  | .addItemTypeFrom _ _ => False
  | _ => True

def objectiveGiven : Op → Option Objective
  | .setObjective o => some o
  | _ => none

def callbackGiven : Op → Option (List PackedBin → Bool)
  | .setCallback f => some f
  | _ => none

/-! ## Bin types -/

def binAdded : Op → Option (Int × Int)
  | .addBinType x y => some (x, y)
  | _ => none

/-- The cost given for bin type `i` of size `d`; -1 stands for its area. -/
def binCostGiven (i : Nat) (d : Int × Int) : Op → Option (ℚ)
  | .setBinTypeCost k c => if i = k then some (if c = -1 then d.1 * d.2 else c) else none
  | _ => none

def binMaximumWeightGiven (i : Nat) : Op → Option (ExtQ)
  | .setBinTypeMaximumWeight k w => if i = k then some w else none
  | _ => none

def binTruckGiven (i : Nat) : Op → Option (TruckData)
  | .setBinTypeTruck k q => if i = k then some q else none
  | _ => none

def binEligibilityIdsGiven (i : Nat) : Op → Option (Int)
  | .addBinTypeEligibility k e => if i = k then some e else none
  | _ => none

def binDefectsGiven (i : Nat) : Op → Option (Defect)
  | .addDefect k px py x y => if i = k then some { posX := px, posY := py, x := x, y := y } else none
  | _ => none

/-- Capacity, whether an excess is penalised, and penalty. -/
def binResourcesGiven (i : Nat) : Op → Option (ℚ × Bool × ℚ)
  | .addBinTypeResource k c p q => if i = k then some (c, p, q) else none
  | _ => none

def binCopiesGiven (i : Nat) : Op → Option (Int)
  | .setBinTypeCopies k c => if i = k then some c else none
  | _ => none

def binCopiesMinGiven (i : Nat) : Op → Option (Int)
  | .setBinTypeCopiesMin k c => if i = k then some c else none
  | _ => none

/-- Bin type `i`, added with size `d`, has the attributes given last, and the lists of those given, in
order. -/
structure BinAsGiven (ops : List Op) (i : Nat) (d : Int × Int) (t : BinType) : Prop where
  size : (t.x, t.y) = d
  cost : t.cost = (lastGiven (binCostGiven i d) ops).getD (d.1 * d.2)
  maximumWeight : t.maximumWeight = (lastGiven (binMaximumWeightGiven i) ops).getD .inf
  truck : t.truck = (lastGiven (binTruckGiven i) ops).getD {}
  eligibilityIds : t.eligibilityIds
    = allGiven (binEligibilityIdsGiven i) ops
  defects : t.defects
    = allGiven (binDefectsGiven i) ops
  resources : (t.resources.map fun r => (r.capacity, r.penalize, r.penalty))
    = allGiven (binResourcesGiven i) ops
  copies : t.copies = (lastGiven (binCopiesGiven i) ops).getD 1
  copiesMin : t.copiesMin = (lastGiven (binCopiesMinGiven i) ops).getD 0

/-- The consumption given for item type `j` of resource `r` of bin type `i`: (copy, amount). -/
def consumptionGiven (i r j : Nat) : Op → Option (Nat × ℚ)
  | .addResourceConsumption i' r' j' c q =>
      if i = i' ∧ r = r' ∧ j = j' then some (c.toNat, q) else none
  | _ => none

/-! ## Item types -/

def itemAdded : Op → Option (Int × Int × Bool)
  | .addItemType x y o => some (x, y, o)
  | _ => none

def itemGroupIdGiven (i : Nat) : Op → Option Nat
  | .setItemTypeGroup k g => if i = k then some g.toNat else none
  | _ => none

def itemWeightGiven (i : Nat) : Op → Option ℚ
  | .setItemTypeWeight k w => if i = k then some w else none
  | _ => none

def itemEligibilityIdGiven (i : Nat) : Op → Option Int
  | .setItemTypeEligibility k e => if i = k then some e else none
  | _ => none

def itemProfitGiven (i : Nat) : Op → Option ℚ
  | .setItemTypeProfit k p => if i = k then some p else none
  | _ => none

def itemCopiesGiven (i : Nat) : Op → Option Int
  | .setItemTypeCopies k c => if i = k then some c else none
  | _ => none

def itemCopiesMinGiven (i : Nat) : Op → Option Int
  | .setItemTypeCopiesMin k c => if i = k then some c else none
  | _ => none

/-- Item type `i`, added with size `d`, has the attributes given last. -/
structure ItemAsGiven (ops : List Op) (i : Nat) (d : Int × Int × Bool) (t : ItemType) : Prop where
  size : (t.x, t.y, t.oriented) = d
  groupId : t.groupId = (lastGiven (itemGroupIdGiven i) ops).getD 0
  weight : t.weight = (lastGiven (itemWeightGiven i) ops).getD 0
  eligibilityId : t.eligibilityId = (lastGiven (itemEligibilityIdGiven i) ops).getD (-1)
  profit : t.profit = (lastGiven (itemProfitGiven i) ops).getD (d.1 * d.2.1)
  copies : t.copies = (lastGiven (itemCopiesGiven i) ops).getD 1
  copiesMin : t.copiesMin = (lastGiven (itemCopiesMinGiven i) ops).getD (-1)

/-! ## Accepted calls -/

/-- The calls a builder accepts: sides of bins are positive, those of items non-negative, ids exist,
costs and numbers of copies are positive or -1, and minima are consistent. -/
def Acceptable (inst : Instance) : Op → Prop
  | .addBinType x y => 0 < x ∧ 0 < y
  | .setBinTypeCost i c => i < inst.binTypes.length ∧ (0 < c ∨ c = -1)
  | .setBinTypeMaximumWeight i _ => i < inst.binTypes.length
  | .setBinTypeTruck i _ => i < inst.binTypes.length
  | .addBinTypeEligibility i _ => i < inst.binTypes.length
  | .addDefect i _ _ _ _ => i < inst.binTypes.length
  | .addBinTypeResource i _ _ _ => i < inst.binTypes.length
  | .addResourceConsumption i r _ c _ => i < inst.binTypes.length ∧ r < (inst.binType i).resources.length ∧ 0 ≤ c
  | .setBinTypeCopies i c => i < inst.binTypes.length ∧ (c = -1 ∨ (0 < c ∧ (inst.binType i).copiesMin ≤ c))
  | .setBinTypeCopiesMin i c => i < inst.binTypes.length ∧ 0 ≤ c
      ∧ ((inst.binType i).copies = -1 ∨ c ≤ (inst.binType i).copies)
  | .addItemType x y _ => 0 ≤ x ∧ 0 ≤ y
  | .setItemTypeGroup i g => i < inst.itemTypes.length ∧ 0 ≤ g
  | .setItemTypeWeight i _ => i < inst.itemTypes.length
  | .setItemTypeEligibility i _ => i < inst.itemTypes.length
  | .setItemTypeProfit i _ => i < inst.itemTypes.length
  | .setItemTypeCopies i c => i < inst.itemTypes.length ∧ (c = -1 ∨ 0 < c)
  | .setItemTypeCopiesMin i c => i < inst.itemTypes.length ∧ -1 ≤ c
  | _ => True

/-! ## Parameters -/

def parametersGiven : Op → Option Parameters
  | .setParameters p => some p
  | _ => none

/-- Whether the weight constraints of group `g` are checked. -/
def groupCheckGiven (g : Nat) : Op → Option Bool
  | .setGroupWeightConstraints k c => if g = k then some c else none
  | .setParameters p => some (p.checkWeightConstraints.getD g true)
  | _ => none

end PackingSolver.Rect.Spec
