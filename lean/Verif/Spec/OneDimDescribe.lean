import Verif.Model.OneDim.Builder
import Verif.Spec.Describe

/-!
# What a history of calls of the builder of one-dimensional instances describes
-/

namespace PackingSolver.OneDim.Spec

open PackingSolver.OneDim InstanceBuilder
open PackingSolver.Spec (lastGiven allGiven consumptionOf)

/-- Calls that add a type or concern a single type (and not all types at once, nor a type of another
instance). -/
def Plain : Op → Prop
  | .setBinTypesInfiniteCopies
  | .setBinTypesUnweighted
  | .setItemTypesUnweighted
  | .setItemTypesInfiniteCopies
  | .addBinTypeFrom _ _
  | .addItemTypeFrom _ _ => False
  | _ => True

def objectiveGiven : Op → Option Objective
  | .setObjective o => some o
  | _ => none

def callbackGiven : Op → Option (BinsView → Bool)
  | .setCallback f => some f
  | _ => none

/-! ## Bin types -/

def binAdded : Op → Option (Int)
  | .addBinType l => some l
  | _ => none

/-- The cost given for bin type `i` of size `d`; -1 stands for its length. -/
def binCostGiven (i : Nat) (d : Int) : Op → Option (ℚ)
  | .setBinTypeCost k c => if i = k then some (if c = -1 then d else c) else none
  | _ => none

def binMaximumWeightGiven (i : Nat) : Op → Option (ExtQ)
  | .setBinTypeMaximumWeight k w => if i = k then some w else none
  | _ => none

def binEligibilityIdsGiven (i : Nat) : Op → Option (Int)
  | .addBinTypeEligibility k e => if i = k then some e else none
  | _ => none

/-- Capacity, whether an excess is penalised, and penalty. -/
def binResourcesGiven (i : Nat) : Op → Option (ℚ × Bool × ℚ)
  | .addBinTypeResource k c p q => if i = k then some (c, p, q) else none
  | _ => none

def binCopiesGiven (i : Nat) : Op → Option (Int)
  | .setBinTypeCopies k c => if i = k then some c else none
  | _ => none

def binCopiesMinGiven (i : Nat) : Op → Option (Int)
  | .setBinTypeCopiesMin k c => if i = k then some c else none
  | _ => none

/-- Bin type `i`, added with size `d`, has the attributes given last, and the lists of those given, in
order. -/
structure BinAsGiven (ops : List Op) (i : Nat) (d : Int) (t : BinType) : Prop where
  size : t.length = d
  cost : t.cost = (lastGiven (binCostGiven i d) ops).getD d
  maximumWeight : t.maximumWeight = (lastGiven (binMaximumWeightGiven i) ops).getD .inf
  eligibilityIds : t.eligibilityIds
    = allGiven (binEligibilityIdsGiven i) ops
  resources : (t.resources.map fun r => (r.capacity, r.penalize, r.penalty))
    = allGiven (binResourcesGiven i) ops
  copies : t.copies = (lastGiven (binCopiesGiven i) ops).getD 1
  copiesMin : t.copiesMin = (lastGiven (binCopiesMinGiven i) ops).getD 0

/-- The consumption given for item type `j` of resource `r` of bin type `i`: (copy, amount). -/
def consumptionGiven (i r j : Nat) : Op → Option (Nat × ℚ)
  | .addResourceConsumption i' r' j' c q =>
      if i = i' ∧ r = r' ∧ j = j' then some (c.toNat, q) else none
  | _ => none

/-! ## Item types -/

def itemAdded : Op → Option (Int)
  | .addItemType l => some l
  | _ => none

def itemWeightGiven (i : Nat) : Op → Option ℚ
  | .setItemTypeWeight k w => if i = k then some w else none
  | _ => none

def itemNestingLengthGiven (i : Nat) : Op → Option Int
  | .setItemTypeNestingLength k l => if i = k then some l else none
  | _ => none

def itemMaximumStackabilityGiven (i : Nat) : Op → Option Int
  | .setItemTypeMaximumStackability k m => if i = k then some m else none
  | _ => none

def itemMaximumWeightAfterGiven (i : Nat) : Op → Option ExtQ
  | .setItemTypeMaximumWeightAfter k w => if i = k then some w else none
  | _ => none

def itemEligibilityIdGiven (i : Nat) : Op → Option Int
  | .setItemTypeEligibility k e => if i = k then some e else none
  | _ => none

def itemProfitGiven (i : Nat) : Op → Option ℚ
  | .setItemTypeProfit k p => if i = k then some p else none
  | _ => none

def itemCopiesGiven (i : Nat) : Op → Option Int
  | .setItemTypeCopies k c => if i = k then some c else none
  | _ => none

def itemCopiesMinGiven (i : Nat) : Op → Option Int
  | .setItemTypeCopiesMin k c => if i = k then some c else none
  | _ => none

/-- Item type `i`, added with size `d`, has the attributes given last. -/
structure ItemAsGiven (ops : List Op) (i : Nat) (d : Int) (t : ItemType) : Prop where
  size : t.length = d
  weight : t.weight = (lastGiven (itemWeightGiven i) ops).getD 0
  nestingLength : t.nestingLength = (lastGiven (itemNestingLengthGiven i) ops).getD 0
  maximumStackability : t.maximumStackability = (lastGiven (itemMaximumStackabilityGiven i) ops).getD 2147483647
  maximumWeightAfter : t.maximumWeightAfter = (lastGiven (itemMaximumWeightAfterGiven i) ops).getD .inf
  eligibilityId : t.eligibilityId = (lastGiven (itemEligibilityIdGiven i) ops).getD (-1)
  profit : t.profit = (lastGiven (itemProfitGiven i) ops).getD d
  copies : t.copies = (lastGiven (itemCopiesGiven i) ops).getD 1
  copiesMin : t.copiesMin = (lastGiven (itemCopiesMinGiven i) ops).getD (-1)

/-- The precedence given: (dominated, dominating). -/
def precedenceGiven : Op → Option (Nat × Nat)
  | .addItemTypePrecedence d g => some (d, g)
  | _ => none

/-! ## Accepted calls -/

/-- The calls a builder accepts: sides of bins are positive, ids exist,
costs and numbers of copies are positive or -1, and minima are consistent. -/
def Acceptable (inst : Instance) : Op → Prop
  | .addBinType l => 0 < l
  | .setBinTypeCost i c => i < inst.binTypes.length ∧ (0 < c ∨ c = -1)
  | .setBinTypeMaximumWeight i _ => i < inst.binTypes.length
  | .addBinTypeEligibility i _ => i < inst.binTypes.length
  | .addBinTypeResource i _ _ _ => i < inst.binTypes.length
  | .addResourceConsumption i r _ c _ => i < inst.binTypes.length ∧ r < (inst.binType i).resources.length ∧ 0 ≤ c
  | .setBinTypeCopies i c => i < inst.binTypes.length ∧ (c = -1 ∨ (0 < c ∧ (inst.binType i).copiesMin ≤ c))
  | .setBinTypeCopiesMin i c => i < inst.binTypes.length ∧ 0 ≤ c
      ∧ ((inst.binType i).copies = -1 ∨ c ≤ (inst.binType i).copies)
  | .setItemTypeWeight i _ => i < inst.itemTypes.length
  | .setItemTypeNestingLength i _ => i < inst.itemTypes.length
  | .setItemTypeMaximumStackability i _ => i < inst.itemTypes.length
  | .setItemTypeMaximumWeightAfter i _ => i < inst.itemTypes.length
  | .setItemTypeEligibility i _ => i < inst.itemTypes.length
  | .setItemTypeProfit i _ => i < inst.itemTypes.length
  | .setItemTypeCopies i c => i < inst.itemTypes.length ∧ (c = -1 ∨ 0 < c)
  | .setItemTypeCopiesMin i c => i < inst.itemTypes.length ∧ -1 ≤ c
  | .addItemTypePrecedence d g => d < inst.itemTypes.length ∧ g < inst.itemTypes.length
  | _ => True

end PackingSolver.OneDim.Spec
