import Verif.Model.OneDim.Builder
import Verif.Model.Names

/-!
# One-dimensional instance files (JSON)

Models `Instance::write_json` (`src/onedimensional/instance.cpp:317–417`) and
`InstanceBuilder::read` (`src/onedimensional/instance_builder.cpp:717–833`).  A
document is the tree of its fields; an `Option` is a field that may be absent.  The
text syntax (nlohmann JSON) and missing or ill-typed mandatory fields are not
modelled.
-/

namespace PackingSolver.OneDim

open InstanceBuilder

/-- `"consumption"` or `"consumption_schedule"`. -/
inductive JsonAmount where
  | uniform (q : ℚ)
  | schedule (l : List ℚ)
deriving DecidableEq, Repr

/-- An entry of `"consumptions"`. -/
structure JsonConsumption where
  itemTypeId : Nat
  amount : JsonAmount
deriving DecidableEq, Repr

/-- An entry of `"resources"`. -/
structure JsonResource where
  capacity : ℚ
  penalize : Option Bool := none
  penalty : Option ℚ := none
  consumptions : Option (List JsonConsumption) := none
deriving DecidableEq, Repr

/-- An entry of `"bin_types"` (a `null` maximum weight is the same as none,
`instance_builder.cpp:753–756`). -/
structure JsonBinType where
  length : Int
  cost : Option ℚ := none
  copies : Option Int := none
  copiesMin : Option Int := none
  maximumWeight : Option ℚ := none
  eligibilityIds : Option (List Int) := none
  resources : Option (List JsonResource) := none
deriving DecidableEq, Repr

/-- An entry of `"item_types"`. -/
structure JsonItemType where
  length : Int
  profit : Option ℚ := none
  weight : Option ℚ := none
  copies : Option Int := none
  copiesMin : Option Int := none
  nestingLength : Option Int := none
  maximumStackability : Option Int := none
  maximumWeightAfter : Option ℚ := none
  eligibilityId : Option Int := none
deriving DecidableEq, Repr

/-- An instance file. -/
structure JsonInstance where
  objective : Option String
  binTypes : List JsonBinType
  itemTypes : List JsonItemType
  precedences : Option (List (Nat × Nat)) := none
deriving DecidableEq, Repr

/-! ## Writing -/

/-- A finite value, or nothing for `+∞`. -/
def finite : ExtQ → Option ℚ
  | .fin q => some q
  | .inf => none

/-- The entry of one item type, none for an empty schedule,
`instance.cpp:366–378`. -/
def writeConsumption (p : List ℚ × Nat) : Option JsonConsumption :=
  match p.1 with
  | [] => none
  | [q] => some ⟨p.2, .uniform q⟩
  | s => some ⟨p.2, .schedule s⟩

/-- Consumptions of a resource, `instance.cpp:361–380`. -/
def writeConsumptions (r : Resource) : List JsonConsumption :=
  r.itemConsumptions.zipIdx.filterMap writeConsumption

/-- A resource, `instance.cpp:350–383`. -/
def writeResource (r : Resource) : JsonResource :=
  { capacity := r.capacity
    penalize := if r.penalize then some true else none
    penalty := if r.penalize then some r.penalty else none
    consumptions := some (writeConsumptions r) }

/-- A bin type, `instance.cpp:334–387`. -/
def writeBinType (t : BinType) : JsonBinType :=
  { length := t.length
    cost := some t.cost
    copies := some t.copies
    copiesMin := some t.copiesMin
    maximumWeight := finite t.maximumWeight
    eligibilityIds := if t.eligibilityIds.isEmpty then none else some t.eligibilityIds
    resources := if t.resources.isEmpty then none else some (t.resources.map writeResource) }

/-- An item type, `instance.cpp:390–407`. -/
def writeItemType (t : ItemType) : JsonItemType :=
  { length := t.length
    profit := some t.profit
    weight := some t.weight
    copies := some t.copies
    copiesMin := some t.copiesMin
    nestingLength := some t.nestingLength
    maximumStackability :=
      if t.maximumStackability ≠ 2147483647 then some t.maximumStackability else none
    maximumWeightAfter := finite t.maximumWeightAfter
    eligibilityId := if t.eligibilityId ≠ -1 then some t.eligibilityId else none }

/-- `Instance::write_json`, `instance.cpp:317–417`. -/
def writeJson (inst : Instance) : JsonInstance :=
  { objective := some (showObjective inst.objective)
    binTypes := inst.binTypes.map writeBinType
    itemTypes := inst.itemTypes.map writeItemType
    precedences := if inst.precedences.isEmpty then none else some inst.precedences }

/-! ## Reading -/

/-- Calls made for one consumption entry, `instance_builder.cpp:770–797`. -/
def readConsumption (bin res : Nat) (j : JsonConsumption) : List Op :=
  match j.amount with
  | .schedule s => (List.range s.length).map fun (c : Nat) =>
      .addResourceConsumption bin res j.itemTypeId c (s.getD c 0)
  | .uniform q => [.addResourceConsumption bin res j.itemTypeId 0 q]

/-- Calls made for one resource, `instance_builder.cpp:763–799`. -/
def readResource (bin res : Nat) (j : JsonResource) : List Op :=
  .addBinTypeResource bin j.capacity (j.penalize.getD false) (j.penalty.getD 0)
  :: (j.consumptions.getD []).flatMap (readConsumption bin res)

/-- Calls made for the bin type numbered `bin`, `instance_builder.cpp:743–803`. -/
def readBinType (bin : Nat) (j : JsonBinType) : List Op :=
  [.addBinType j.length]
  ++ (j.cost.map (.setBinTypeCost bin)).toList
  ++ (j.copies.map (.setBinTypeCopies bin)).toList
  ++ (j.copiesMin.map (.setBinTypeCopiesMin bin)).toList
  ++ (j.maximumWeight.map fun w => .setBinTypeMaximumWeight bin (.fin w)).toList
  ++ (j.eligibilityIds.getD []).map (.addBinTypeEligibility bin)
  ++ (j.resources.getD []).zipIdx.flatMap fun p => readResource bin p.2 p.1

/-- Calls made for the item type numbered `id`, `instance_builder.cpp:806–831`. -/
def readItemType (id : Nat) (j : JsonItemType) : List Op :=
  [.addItemType j.length]
  ++ (j.profit.map (.setItemTypeProfit id)).toList
  ++ (j.weight.map (.setItemTypeWeight id)).toList
  ++ (j.copies.map (.setItemTypeCopies id)).toList
  ++ (j.copiesMin.map (.setItemTypeCopiesMin id)).toList
  ++ (j.nestingLength.map (.setItemTypeNestingLength id)).toList
  ++ (j.maximumStackability.map (.setItemTypeMaximumStackability id)).toList
  ++ (j.maximumWeightAfter.map fun w => .setItemTypeMaximumWeightAfter id (.fin w)).toList
  ++ (j.eligibilityId.map (.setItemTypeEligibility id)).toList

/-- The builder calls made by `InstanceBuilder::read` on a new builder,
`instance_builder.cpp:717–833`: the precedences are not read. -/
def readCalls (j : JsonInstance) : Except Err (List Op) :=
  match j.objective with
  | none => .error .invalidArgument
  | some s =>
    match parseObjective s.toList with
    | none => .error .invalidArgument
    | some o => .ok ([.setObjective o]
        ++ (j.binTypes.zipIdx.flatMap fun p => readBinType p.2 p.1)
        ++ (j.itemTypes.zipIdx.flatMap fun p => readItemType p.2 p.1))

/-- Reading an instance file with a new builder and building the instance. `o` is
the content of the uninitialised objective of the new builder. -/
def readJson (o : Objective) (j : JsonInstance) : Except Err Instance := do
  let ops ← readCalls j
  runOps o ops

end PackingSolver.OneDim
