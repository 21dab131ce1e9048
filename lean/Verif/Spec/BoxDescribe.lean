import Verif.Model.Box.Builder
import Verif.Spec.Describe

/-!
# What a history of calls of the builder of box instances describes
-/

namespace PackingSolver.Box.Spec

open PackingSolver.Box InstanceBuilder
open PackingSolver.Spec (lastGiven allGiven)

/-- Calls that add a type or concern a single type (and not all types at once, nor a type of another
instance). -/
def Plain : Op → Prop
  | .setBinTypesInfiniteX | .setBinTypesInfiniteY | .setBinTypesInfiniteCopies
  | .setBinTypesUnweighted | .setItemTypesUnweighted | .setItemTypesOriented
  | .setItemTypesProfitsAuto | .setItemTypesInfiniteCopies | .addBinTypeFrom _ _
  | .addItemTypeFrom _ _ => False
  | _ => True

def objectiveGiven : Op → Option Objective
  | .setObjective o => some o
  | _ => none

def callbackGiven : Op → Option (List PackedBin → Bool)
  | .setCallback f => some f
  | _ => none

/-! ## Bin types -/

def binAdded : Op → Option Dims
  | .addBinType x y z => some ⟨x, y, z⟩
  | _ => none

/-- The cost given for bin type `i` of dimensions `d`; -1 stands for its floor area. -/
def binCostGiven (i : Nat) (d : Dims) : Op → Option ℚ
  | .setBinTypeCost k c => if i = k then some (if c = -1 then d.x * d.y else c) else none
  | _ => none

def binMaximumWeightGiven (i : Nat) : Op → Option ExtQ
  | .setBinTypeMaximumWeight k w => if i = k then some w else none
  | _ => none

def binCopiesGiven (i : Nat) : Op → Option Int
  | .setBinTypeCopies k c => if i = k then some c else none
  | _ => none

def binCopiesMinGiven (i : Nat) : Op → Option Int
  | .setBinTypeCopiesMin k c => if i = k then some c else none
  | _ => none

/-- Capacity, whether an excess is penalised, and penalty. -/
def resourceGiven (i : Nat) : Op → Option (ℚ × Bool × ℚ)
  | .addBinTypeResource k c p q => if i = k then some (c, p, q) else none
  | _ => none

/-- Bin type `i`, added with dimensions `d`, has the attributes given last, and the resources given, in
order. -/
structure BinAsGiven (ops : List Op) (i : Nat) (d : Dims) (t : BinType) : Prop where
  box : t.box = d
  cost : t.cost = (lastGiven (binCostGiven i d) ops).getD (d.x * d.y)
  maximumWeight : t.maximumWeight = (lastGiven (binMaximumWeightGiven i) ops).getD .inf
  copies : t.copies = (lastGiven (binCopiesGiven i) ops).getD 1
  copiesMin : t.copiesMin = (lastGiven (binCopiesMinGiven i) ops).getD 0
  resources : (t.resources.map fun r => (r.capacity, r.penalize, r.penalty))
    = allGiven (resourceGiven i) ops

/-- The consumption given for item type `j` of resource `r` of bin type `i`: (copy, amount). -/
def consumptionGiven (i r j : Nat) : Op → Option (Nat × ℚ)
  | .addResourceConsumption i' r' j' c q =>
      if i = i' ∧ r = r' ∧ j = j' then some (c.toNat, q) else none
  | _ => none

/-! ## Item types -/

def itemAdded : Op → Option Dims
  | .addItemType x y z => some ⟨x, y, z⟩
  | _ => none

def itemRotationGiven (i : Nat) : Op → Option Rotation
  | .addItemTypeRotation k r => if i = k then some r else none
  | _ => none

def itemWeightGiven (i : Nat) : Op → Option ℚ
  | .setItemTypeWeight k w => if i = k then some w else none
  | _ => none

def itemProfitGiven (i : Nat) : Op → Option ℚ
  | .setItemTypeProfit k p => if i = k then some p else none
  | _ => none

def itemCopiesGiven (i : Nat) : Op → Option Int
  | .setItemTypeCopies k c => if i = k then some c else none
  | _ => none

def itemCopiesMinGiven (i : Nat) : Op → Option Int
  | .setItemTypeCopiesMin k c => if i = k then some c else none
  | _ => none

/-- Item type `i`, added with dimensions `d`, has the attributes given last, and the rotations given, in
order. -/
structure ItemAsGiven (ops : List Op) (i : Nat) (d : Dims) (t : ItemType) : Prop where
  box : t.box = d
  rotations : t.rotations = allGiven (itemRotationGiven i) ops
  weight : t.weight = (lastGiven (itemWeightGiven i) ops).getD 0
  profit : t.profit = (lastGiven (itemProfitGiven i) ops).getD (d.x * d.y * d.z)
  copies : t.copies = (lastGiven (itemCopiesGiven i) ops).getD 1
  copiesMin : t.copiesMin = (lastGiven (itemCopiesMinGiven i) ops).getD (-1)

/-! ## Accepted calls -/

/-- The calls a builder accepts: sides of bins are positive, those of items non-negative, ids exist,
costs and numbers of copies are positive or -1, and minima are consistent. -/
def Acceptable (inst : Instance) : Op → Prop
  | .addBinType x y z => 0 < x ∧ 0 < y ∧ 0 < z
  | .setBinTypeCost i c => i < inst.binTypes.length ∧ (0 < c ∨ c = -1)
  | .setBinTypeMaximumWeight i _ => i < inst.binTypes.length
  | .addBinTypeResource i _ _ _ => i < inst.binTypes.length
  | .addResourceConsumption i r _ c _ =>
      i < inst.binTypes.length ∧ r < (inst.binType i).resources.length ∧ 0 ≤ c
  | .setBinTypeCopies i c =>
      i < inst.binTypes.length ∧ (c = -1 ∨ (0 < c ∧ (inst.binType i).copiesMin ≤ c))
  | .setBinTypeCopiesMin i c => i < inst.binTypes.length ∧ 0 ≤ c
      ∧ ((inst.binType i).copies = -1 ∨ c ≤ (inst.binType i).copies)
  | .addItemType x y z => 0 ≤ x ∧ 0 ≤ y ∧ 0 ≤ z
  | .addItemTypeRotation i _ => i < inst.itemTypes.length
  | .setItemTypeWeight i _ => i < inst.itemTypes.length
  | .setItemTypeProfit i _ => i < inst.itemTypes.length
  | .setItemTypeCopies i c => i < inst.itemTypes.length ∧ (c = -1 ∨ 0 < c)
  | .setItemTypeCopiesMin i c => i < inst.itemTypes.length ∧ -1 ≤ c
  | _ => True

end PackingSolver.Box.Spec
