import Verif.Model.Box.Instance

/-!
# Builder of box instances

Models `src/box/instance_builder.cpp`.  Bin type, item type and resource ids are natural numbers:
the code rejects negative ids exactly as it rejects too large ones, except in
`add_resource_consumption`, whose item type id is not checked (a negative one is undefined behaviour
and not representable here).  Reading files and `bin_weight_` (beyond `set_item_types_profits_auto`)
are not modelled; the structure of parameters is empty.
-/

namespace PackingSolver.Box

/-- `class InstanceBuilder`, `box/instance_builder.hpp`: the instance under construction and
the bookkeeping of the copying overloads. -/
structure InstanceBuilder where
  inst : Instance
  /-- `orig_to_sub_bin_type_ids_` (`none` for `-1`). -/
  origToSubBin : List (Option Nat) := []
  /-- `orig_to_sub_item_type_ids_`. -/
  origToSubItem : List (Option Nat) := []

namespace InstanceBuilder

/-- A new builder; `objective_` is not initialised (`box/instance.hpp:438`): `o` is its arbitrary
value. -/
def new (o : Objective) : InstanceBuilder :=
  { inst := { objective := o, itemTypes := [], binTypes := [] } }

/-- `set_objective`, `instance_builder.hpp:19`. -/
def setObjective (b : InstanceBuilder) (o : Objective) : InstanceBuilder :=
  { b with inst := { b.inst with objective := o } }

/-- `set_feasibility_callback`, `instance_builder.hpp`. -/
def setCallback (b : InstanceBuilder) (f : List PackedBin → Bool) : InstanceBuilder :=
  { b with inst := { b.inst with callback := f } }

/-- Update a bin type after checking its id. -/
def modifyBin (b : InstanceBuilder) (id : Nat) (f : BinType → Except Err BinType) :
    Except Err InstanceBuilder :=
  if id ≥ b.inst.binTypes.length then .error .invalidArgument
  else match f (b.inst.binType id) with
    | .error e => .error e
    | .ok t => .ok { b with inst := { b.inst with binTypes := b.inst.binTypes.set id t } }

/-- Update an item type after checking its id. -/
def modifyItem (b : InstanceBuilder) (id : Nat) (f : ItemType → Except Err ItemType) :
    Except Err InstanceBuilder :=
  if id ≥ b.inst.itemTypes.length then .error .invalidArgument
  else match f (b.inst.itemType id) with
    | .error e => .error e
    | .ok t => .ok { b with inst := { b.inst with itemTypes := b.inst.itemTypes.set id t } }

/-- `add_bin_type(x, y, z)`, `instance_builder.cpp:16–49`; the new id is the previous number of bin
types; the cost is the floor area. -/
def addBinType (b : InstanceBuilder) (x y z : Int) : Except Err InstanceBuilder :=
  if x ≤ 0 then .error .invalidArgument
  else if y ≤ 0 then .error .invalidArgument
  else if z ≤ 0 then .error .invalidArgument
  else .ok { b with inst := { b.inst with
    binTypes := b.inst.binTypes ++ [
      { box := ⟨x, y, z⟩, cost := ((x * y : Int) : ℚ), copies := 1, copiesMin := 0 }] } }

/-- `set_bin_type_cost`, `instance_builder.cpp:51–71`. -/
def setBinTypeCost (b : InstanceBuilder) (id : Nat) (cost : ℚ) : Except Err InstanceBuilder :=
  b.modifyBin id fun t =>
    if cost ≤ 0 ∧ cost ≠ -1 then .error .invalidArgument
    else .ok { t with cost := if cost = -1 then ((t.box.x * t.box.y : Int) : ℚ) else cost }

/-- `set_bin_type_maximum_weight`, `instance_builder.cpp:73–86`. -/
def setBinTypeMaximumWeight (b : InstanceBuilder) (id : Nat) (w : ExtQ) :
    Except Err InstanceBuilder :=
  b.modifyBin id fun t => .ok { t with maximumWeight := w }

/-- `add_bin_type_resource`, `instance_builder.cpp:88–110`. -/
def addBinTypeResource (b : InstanceBuilder) (id : Nat) (capacity : ℚ) (penalize : Bool)
    (penalty : ℚ) : Except Err InstanceBuilder :=
  b.modifyBin id fun t => .ok { t with
    resources := t.resources ++ [
      { capacity := capacity, penalize := penalize, penalty := penalty }] }

/-- `add_resource_consumption`, `instance_builder.cpp:112–149`. -/
def addResourceConsumption (b : InstanceBuilder) (binTypeId resourceId itemTypeId : Nat)
    (itemCopy : Int) (consumption : ℚ) : Except Err InstanceBuilder :=
  b.modifyBin binTypeId fun t =>
    if resourceId ≥ t.resources.length then .error .invalidArgument
    else if itemCopy < 0 then .error .invalidArgument
    else .ok { t with
      resources := t.resources.modify resourceId
        (fun r => r.addConsumption itemTypeId itemCopy.toNat consumption) }

/-- `set_bin_type_copies`, `instance_builder.cpp:184–212`. -/
def setBinTypeCopies (b : InstanceBuilder) (id : Nat) (copies : Int) :
    Except Err InstanceBuilder :=
  b.modifyBin id fun t =>
    if copies ≠ -1 ∧ (copies ≤ 0 ∨ t.copiesMin > copies) then .error .invalidArgument
    else .ok { t with copies := copies }

/-- `set_bin_type_copies_min`, `instance_builder.cpp:214–241`. -/
def setBinTypeCopiesMin (b : InstanceBuilder) (id : Nat) (copiesMin : Int) :
    Except Err InstanceBuilder :=
  b.modifyBin id fun t =>
    if copiesMin < 0 ∨ (t.copies ≠ -1 ∧ copiesMin > t.copies) then .error .invalidArgument
    else .ok { t with copiesMin := copiesMin }

/-- `compute_item_types_max_length_sum`, `instance_builder.cpp:243–253`. -/
def itemTypesMaxLengthSum (inst : Instance) : Int :=
  inst.itemTypes.foldl (fun l t => l + t.copies * t.box.max) 0

/-- `set_bin_types_infinite_x`, `instance_builder.cpp:255–263`. -/
def setBinTypesInfiniteX (b : InstanceBuilder) : InstanceBuilder :=
  { b with inst := { b.inst with
    binTypes := b.inst.binTypes.map fun t => { t with box := { t.box with x := itemTypesMaxLengthSum b.inst } } } }

/-- `set_bin_types_infinite_y`, `instance_builder.cpp:265–273`. -/
def setBinTypesInfiniteY (b : InstanceBuilder) : InstanceBuilder :=
  { b with inst := { b.inst with
    binTypes := b.inst.binTypes.map fun t => { t with box := { t.box with y := itemTypesMaxLengthSum b.inst } } } }

/-- `set_bin_types_infinite_copies`, `instance_builder.cpp:275–282`. -/
def setBinTypesInfiniteCopies (b : InstanceBuilder) : InstanceBuilder :=
  { b with inst := { b.inst with
    binTypes := b.inst.binTypes.map fun t => { t with copies := -1 } } }

/-- `set_bin_types_unweighted`, `instance_builder.cpp:284–291`. -/
def setBinTypesUnweighted (b : InstanceBuilder) : InstanceBuilder :=
  { b with inst := { b.inst with
    binTypes := b.inst.binTypes.map fun t => { t with cost := (t.volume : ℚ) } } }

/-- `add_item_type(x, y, z)`, `instance_builder.cpp:297–330`: zero sides are accepted. -/
def addItemType (b : InstanceBuilder) (x y z : Int) : Except Err InstanceBuilder :=
  if x < 0 then .error .invalidArgument
  else if y < 0 then .error .invalidArgument
  else if z < 0 then .error .invalidArgument
  else .ok { b with inst := { b.inst with
    itemTypes := b.inst.itemTypes ++ [
      { box := ⟨x, y, z⟩, profit := ((x * y * z : Int) : ℚ), copies := 1, copiesMin := -1 }] } }

/-- `add_item_type_rotation`, `instance_builder.cpp:332–343`. -/
def addItemTypeRotation (b : InstanceBuilder) (id : Nat) (r : Rotation) :
    Except Err InstanceBuilder :=
  b.modifyItem id fun t => .ok { t with rotations := t.rotations ++ [r] }

/-- `set_item_type_weight`, `instance_builder.cpp:345–358`. -/
def setItemTypeWeight (b : InstanceBuilder) (id : Nat) (w : ℚ) : Except Err InstanceBuilder :=
  b.modifyItem id fun t => .ok { t with weight := w }

/-- `set_item_type_profit`, `instance_builder.cpp:412–425`. -/
def setItemTypeProfit (b : InstanceBuilder) (id : Nat) (p : ℚ) : Except Err InstanceBuilder :=
  b.modifyItem id fun t => .ok { t with profit := p }

/-- `set_item_type_copies`, `instance_builder.cpp:427–446`. -/
def setItemTypeCopies (b : InstanceBuilder) (id : Nat) (copies : Int) :
    Except Err InstanceBuilder :=
  b.modifyItem id fun t =>
    if copies ≠ -1 ∧ copies ≤ 0 then .error .invalidArgument
    else .ok { t with copies := copies }

/-- `set_item_type_copies_min`, `instance_builder.cpp:448–467`. -/
def setItemTypeCopiesMin (b : InstanceBuilder) (id : Nat) (copiesMin : Int) :
    Except Err InstanceBuilder :=
  b.modifyItem id fun t =>
    if copiesMin < -1 then .error .invalidArgument
    else .ok { t with copiesMin := copiesMin }

/-- `bin_volume_` in `compute_bin_attributes`, `instance_builder.cpp:469–480`. -/
def totalBinVolume (inst : Instance) : Int :=
  inst.binTypes.foldl (fun v t => v + t.copies * t.volume) 0

/-- `bin_weight_` in `compute_bin_attributes`, `instance_builder.cpp:469–480`: the sum of the finite
products, if all maximum weights are finite. -/
def totalBinWeight (inst : Instance) : ExtQ :=
  inst.binTypes.foldl
    (fun w t => match w, t.maximumWeight with
      | .fin w, .fin m => .fin (w + (t.copies : ℚ) * m)
      | _, _ => .inf) (.fin 0)

/-- `set_item_types_profits_auto`, `instance_builder.cpp:482–496`.  A quotient by an infinite bin
weight is 0.  Simplification: where the code divides by a zero volume or weight, and so stores a
profit that is not a number, the model reports undefined behaviour; sums of infinite weights of both
signs (possible with -1 copies) are taken as infinite. -/
def setItemTypesProfitsAuto (b : InstanceBuilder) : Except Err InstanceBuilder :=
  let inst := { b.inst with binVolume := totalBinVolume b.inst }
  let v : ℚ := inst.binVolume
  if inst.itemTypes ≠ [] ∧ (v = 0 ∨ totalBinWeight inst = .fin 0) then .error .ub
  else .ok { b with inst := { inst with
    itemTypes := inst.itemTypes.map fun t => { t with
      profit := (inst.itemVolume : ℚ) / v * (t.volume : ℚ) / v
        + (match totalBinWeight inst with
          | .fin w => inst.itemWeight / w * t.weight / w
          | .inf => 0) } } }

/-- `set_item_types_unweighted`, `instance_builder.cpp:498–505`. -/
def setItemTypesUnweighted (b : InstanceBuilder) : InstanceBuilder :=
  { b with inst := { b.inst with
    itemTypes := b.inst.itemTypes.map fun t => { t with profit := (t.volume : ℚ) } } }

/-- `set_item_types_oriented`, `instance_builder.cpp:507–514`. -/
def setItemTypesOriented (b : InstanceBuilder) : InstanceBuilder :=
  { b with inst := { b.inst with
    itemTypes := b.inst.itemTypes.map fun t => { t with rotations := [.xyz] } } }

/-- `compute_bin_types_volume_max`, `instance_builder.cpp:516–527`. -/
def binTypesVolumeMax (inst : Instance) : Int :=
  inst.binTypes.foldl (fun m t => max m t.volume) 0

/-- `set_item_types_infinite_copies`, `instance_builder.cpp:529–539`; dividing by a zero volume is
undefined behaviour. -/
def setItemTypesInfiniteCopies (b : InstanceBuilder) : Except Err InstanceBuilder :=
  if b.inst.itemTypes.any fun t => decide (t.volume = 0) then .error .ub
  else .ok { b with inst := { b.inst with
    itemTypes := b.inst.itemTypes.map fun t =>
      { t with copies := (binTypesVolumeMax b.inst - 1).tdiv t.volume + 1 } } }

/-- Append every resource in turn, without its consumptions, `instance_builder.cpp:171–180`. -/
def addResources (b : InstanceBuilder) (id : Nat) (rs : List Resource) :
    Except Err InstanceBuilder :=
  rs.foldlM (fun b r => b.addBinTypeResource id r.capacity r.penalize r.penalty) b

/-- `add_bin_type(original_instance, original_bin_type_id)`, `instance_builder.cpp:151–182`. -/
def addBinTypeFrom (b : InstanceBuilder) (orig : Instance) (origId : Nat) :
    Except Err InstanceBuilder := do
  if origId ≥ orig.binTypes.length then .error .ub
  else
    let t := orig.binType origId
    let id := b.inst.binTypes.length
    let b ← b.addBinType t.box.x t.box.y t.box.z
    let b := { b with
      origToSubBin := (growTo none (origId + 1) b.origToSubBin).set origId (some id) }
    let b ← b.setBinTypeCost id t.cost
    let b ← b.setBinTypeCopies id t.copies
    let b ← b.setBinTypeCopiesMin id t.copiesMin
    let b ← b.setBinTypeMaximumWeight id t.maximumWeight
    b.addResources id t.resources

/-- The innermost loop of `add_item_type(original_instance, …)`, `instance_builder.cpp:396–405`:
write a schedule copy by copy. -/
def writeSchedule (b : InstanceBuilder) (binTypeId resourceId itemTypeId : Nat)
    (schedule : List ℚ) : Except Err InstanceBuilder :=
  (List.range schedule.length).foldlM
    (fun b (c : Nat) => b.addResourceConsumption binTypeId resourceId itemTypeId c
      (schedule.getD c 0)) b

/-- The consumption-copying loops, `instance_builder.cpp:383–408`. -/
def copyConsumptions (b : InstanceBuilder) (orig : Instance) (origItemId itemId : Nat) :
    Except Err InstanceBuilder :=
  (List.range b.origToSubBin.length).foldlM
    (fun b origBinId =>
      match b.origToSubBin.getD origBinId none with
      | none => .ok b
      | some subBinId =>
        if origBinId ≥ orig.binTypes.length then .error .ub
        else
          let t := orig.binType origBinId
          (List.range t.resources.length).foldlM
            (fun b r =>
              let ic := (t.resources.getD r {}).itemConsumptions
              if origItemId ≥ ic.length then .ok b
              else b.writeSchedule subBinId r itemId (ic.getD origItemId []))
            b)
    b

/-- Append every rotation in turn, `instance_builder.cpp:369–370`. -/
def addRotations (b : InstanceBuilder) (id : Nat) (rs : List Rotation) :
    Except Err InstanceBuilder :=
  rs.foldlM (fun b r => b.addItemTypeRotation id r) b

/-- `add_item_type(original_instance, original_item_type_id)`, `instance_builder.cpp:360–410`. -/
def addItemTypeFrom (b : InstanceBuilder) (orig : Instance) (origId : Nat) :
    Except Err InstanceBuilder := do
  if origId ≥ orig.itemTypes.length then .error .ub
  else
    let t := orig.itemType origId
    let id := b.inst.itemTypes.length
    let b ← b.addItemType t.box.x t.box.y t.box.z
    let b ← b.addRotations id t.rotations
    let b := { b with
      origToSubItem := (growTo none (origId + 1) b.origToSubItem).set origId (some id) }
    let b ← b.setItemTypeProfit id t.profit
    let b ← b.setItemTypeCopies id t.copies
    let b ← b.setItemTypeWeight id t.weight
    b.copyConsumptions orig origId id

/-! ## `build` -/

/-- `std::numeric_limits<Length>::max()`. -/
def lengthMax : Int := 2 ^ 63 - 1

/-- Whether item type `t` is less efficient than `u`; the code divides doubles.  Division by zero
gives an infinity or NaN in C++; the model of `build` stops with undefined behaviour on a zero
volume (the integer division at line 923 is reached in the same iteration). -/
def lessEfficient (t u : ItemType) : Bool :=
  decide (t.profit / (t.volume : ℚ) < u.profit / (u.volume : ℚ))

/-- Resolution of an item type's `copies_min`, `instance_builder.cpp:893–896`. -/
def resolveItem (o : Objective) (t : ItemType) : ItemType :=
  if t.copiesMin = -1 then { t with copiesMin := if o = .knapsack then 0 else t.copies } else t

/-- One iteration of the item loop, `instance_builder.cpp:888–936`. -/
def buildItem (volumeMax : Int) (inst : Instance) (id : Nat) : Except Err Instance :=
  let t := resolveItem inst.objective (inst.itemType id)
  if t.copiesMin > t.copies then .error .invalidArgument
  else if t.volume = 0 then .error .ub
  else
    let c := (volumeMax - 1).tdiv t.volume + 1
    .ok { inst with
      itemTypes := inst.itemTypes.set id t
      numberOfItems := inst.numberOfItems + t.copies
      itemProfit := inst.itemProfit + (t.copies : ℚ) * t.profit
      largestItemProfit := max inst.largestItemProfit t.profit
      itemVolume := inst.itemVolume + t.copies * t.volume
      smallestItemX := t.rotations.foldl (fun m r => min m (t.box.rotate r).x) inst.smallestItemX
      smallestItemY := t.rotations.foldl (fun m r => min m (t.box.rotate r).y) inst.smallestItemY
      smallestItemZ := t.rotations.foldl (fun m r => min m (t.box.rotate r).z) inst.smallestItemZ
      largestEfficiencyItemTypeId :=
        if inst.largestEfficiencyItemTypeId = -1
            ∨ lessEfficient (inst.itemType inst.largestEfficiencyItemTypeId.toNat) t then (id : Int)
        else inst.largestEfficiencyItemTypeId
      allItemTypesInfiniteCopies :=
        inst.allItemTypesInfiniteCopies && !decide (t.copies < c)
      largestItemCopies :=
        if inst.largestItemCopies < t.copies then t.copies else inst.largestItemCopies
      itemWeight := inst.itemWeight + (t.copies : ℚ) * t.weight }

/-- Resolution of a bin type's `copies`, `instance_builder.cpp:953–954`. -/
def resolveBin (numberOfItems : Int) (t : BinType) : BinType :=
  if t.copies = -1 then { t with copies := numberOfItems } else t

/-- One iteration of the bin loop, `instance_builder.cpp:948–970`; the second component is
`previous_bins_volume`.  A negative number of copies runs the inner loop zero times. -/
def buildBin (st : Instance × Int) (id : Nat) : Instance × Int :=
  let inst := st.1
  let t := resolveBin inst.numberOfItems (inst.binType id)
  let n := t.copies.toNat
  ({ inst with
    binTypes := inst.binTypes.set id t
    binVolume := inst.binVolume + t.copies * t.volume
    binArea := inst.binArea + t.copies * t.area
    binTypeIds := inst.binTypeIds ++ List.replicate n id
    previousBinsVolume := inst.previousBinsVolume
      ++ (List.range n).map (fun (k : Nat) => st.2 + (k : Int) * t.volume)
    largestBinCost :=
      if inst.largestBinCost < t.cost then t.cost else inst.largestBinCost },
    st.2 + (n : Int) * t.volume)

/-- One `push_back` of `instance_builder.cpp:1023–1026`: item types are addressed without a bound
check. -/
def pushResourceId (binTypeId resourceId : Nat) (its : List ItemType) (itemTypeId : Nat) :
    Except Err (List ItemType) :=
  if itemTypeId < its.length then
    .ok (its.modify itemTypeId
      (fun t => { t with resourceIds := t.resourceIds.modify binTypeId (· ++ [resourceId]) }))
  else .error .ub

/-- `item_type.resource_ids`, `instance_builder.cpp:1005–1028`. -/
def computeResourceIds (inst : Instance) : Except Err Instance := do
  let its := inst.itemTypes.map fun t =>
    { t with resourceIds := growTo [] inst.binTypes.length t.resourceIds }
  let its ← (List.range inst.binTypes.length).foldlM
    (fun its b => (List.range (inst.binType b).resources.length).foldlM
      (fun its r =>
        let ic := ((inst.binType b).resources.getD r {}).itemConsumptions
        (List.range ic.length).foldlM
          (fun its i => if ic.getD i [] = [] then .ok its else pushResourceId b r its i) its)
      its) its
  .ok { inst with itemTypes := its }

/-- The checks of the open dimension objectives, `instance_builder.cpp:972–985`. -/
def checkOpenDimension (inst : Instance) : Except Err Unit :=
  if inst.objective = .openDimensionX ∧ inst.numberOfBins ≠ 1 then .error .invalidArgument
  else if inst.objective = .openDimensionY ∧ inst.numberOfBins ≠ 1 then .error .invalidArgument
  else .ok ()

/-- `copies_fixed`, `instance_builder.cpp:987–1003`. -/
def computeCopiesFixed (inst : Instance) : Except Err Instance := do
  let its ← inst.binTypes.foldlM
    (fun its t =>
      if t.fixedItems ≠ [] ∧ t.copiesMin ≠ t.copies then .error Err.invalidArgument
      else t.fixedItems.foldlM
        (fun its f =>
          if f.itemTypeId < its.length then
            .ok (its.modify f.itemTypeId
              (fun it : ItemType => { it with copiesFixed := it.copiesFixed + t.copies }))
          else .error .ub) its)
    inst.itemTypes
  .ok { inst with itemTypes := its }

/-- The default rotation, `instance_builder.cpp:874–880`. -/
def defaultRotation (t : ItemType) : ItemType :=
  if t.rotations = [] then { t with rotations := [.xyz] } else t

/-- Without item types there is no smallest item, `instance_builder.cpp:937–941`. -/
def noSmallest (inst : Instance) : Instance :=
  if inst.itemTypes = [] then { inst with smallestItemX := 0, smallestItemY := 0, smallestItemZ := 0 }
  else inst

/-- `InstanceBuilder::build`, `instance_builder.cpp:872–1031`. -/
def build (b : InstanceBuilder) : Except Err Instance := do
  let inst := { b.inst with
    itemTypes := b.inst.itemTypes.map defaultRotation
    allItemTypesInfiniteCopies := true
    smallestItemX := lengthMax
    smallestItemY := lengthMax
    smallestItemZ := lengthMax }
  let inst ← (List.range inst.itemTypes.length).foldlM (buildItem (binTypesVolumeMax inst)) inst
  let inst := { noSmallest inst with binVolume := 0, binArea := 0 }
  let inst := ((List.range inst.binTypes.length).foldl buildBin (inst, 0)).1
  checkOpenDimension inst
  let inst ← computeCopiesFixed inst
  computeResourceIds inst

/-! ## Histories of calls -/

/-- The public operations of the builder. -/
inductive Op where
  | setObjective (o : Objective)
  | setCallback (f : List PackedBin → Bool)
  | addBinType (x y z : Int)
  | setBinTypeCost (id : Nat) (cost : ℚ)
  | setBinTypeMaximumWeight (id : Nat) (w : ExtQ)
  | addBinTypeResource (id : Nat) (capacity : ℚ) (penalize : Bool) (penalty : ℚ)
  | addResourceConsumption (binTypeId resourceId itemTypeId : Nat) (copy : Int) (q : ℚ)
  | setBinTypeCopies (id : Nat) (copies : Int)
  | setBinTypeCopiesMin (id : Nat) (copiesMin : Int)
  | setBinTypesInfiniteX
  | setBinTypesInfiniteY
  | setBinTypesInfiniteCopies
  | setBinTypesUnweighted
  | addItemType (x y z : Int)
  | addItemTypeRotation (id : Nat) (r : Rotation)
  | setItemTypeWeight (id : Nat) (w : ℚ)
  | setItemTypeProfit (id : Nat) (p : ℚ)
  | setItemTypeCopies (id : Nat) (copies : Int)
  | setItemTypeCopiesMin (id : Nat) (copiesMin : Int)
  | setItemTypesUnweighted
  | setItemTypesOriented
  | setItemTypesProfitsAuto
  | setItemTypesInfiniteCopies
  | addBinTypeFrom (orig : Instance) (id : Nat)
  | addItemTypeFrom (orig : Instance) (id : Nat)

/-- Run one operation. -/
def step (b : InstanceBuilder) : Op → Except Err InstanceBuilder
  | .setObjective o => .ok (b.setObjective o)
  | .setCallback f => .ok (b.setCallback f)
  | .addBinType x y z => b.addBinType x y z
  | .setBinTypeCost i c => b.setBinTypeCost i c
  | .setBinTypeMaximumWeight i w => b.setBinTypeMaximumWeight i w
  | .addBinTypeResource i c p q => b.addBinTypeResource i c p q
  | .addResourceConsumption t r i c q => b.addResourceConsumption t r i c q
  | .setBinTypeCopies i c => b.setBinTypeCopies i c
  | .setBinTypeCopiesMin i c => b.setBinTypeCopiesMin i c
  | .setBinTypesInfiniteX => .ok b.setBinTypesInfiniteX
  | .setBinTypesInfiniteY => .ok b.setBinTypesInfiniteY
  | .setBinTypesInfiniteCopies => .ok b.setBinTypesInfiniteCopies
  | .setBinTypesUnweighted => .ok b.setBinTypesUnweighted
  | .addItemType x y z => b.addItemType x y z
  | .addItemTypeRotation i r => b.addItemTypeRotation i r
  | .setItemTypeWeight i w => b.setItemTypeWeight i w
  | .setItemTypeProfit i p => b.setItemTypeProfit i p
  | .setItemTypeCopies i c => b.setItemTypeCopies i c
  | .setItemTypeCopiesMin i c => b.setItemTypeCopiesMin i c
  | .setItemTypesUnweighted => .ok b.setItemTypesUnweighted
  | .setItemTypesProfitsAuto => b.setItemTypesProfitsAuto
  | .setItemTypesOriented => .ok b.setItemTypesOriented
  | .setItemTypesInfiniteCopies => b.setItemTypesInfiniteCopies
  | .addBinTypeFrom o i => b.addBinTypeFrom o i
  | .addItemTypeFrom o i => b.addItemTypeFrom o i

/-- A caller's whole use of the builder; `o` is the uninitialised objective. -/
def runOps (o : Objective) (ops : List Op) : Except Err Instance := do
  let b ← ops.foldlM step (new o)
  b.build

end InstanceBuilder

end PackingSolver.Box
