import Verif.Model.Rect.Instance

/-!
# Builder of rectangle instances

Models `src/rectangle/instance_builder.cpp`.  Bin type, item type, group and resource ids are
natural numbers: the code rejects negative ids exactly as it rejects too large ones, except in
`set_item_type_group` and `add_resource_consumption`, whose item type id is not checked (a
negative one is undefined behaviour and not representable here).  Reading files, `bin_weight_`
and the members of the groups are not modelled.
-/

namespace PackingSolver.Rect

/-- `class InstanceBuilder`, `rectangle/instance_builder.hpp`: the instance under construction and
the bookkeeping of the copying overloads. -/
structure InstanceBuilder where
  inst : Instance
  /-- `orig_to_sub_bin_type_ids_` (`none` for `-1`). -/
  origToSubBin : List (Option Nat) := []
  /-- `orig_to_sub_item_type_ids_`. -/
  origToSubItem : List (Option Nat) := []

/-- The eligibility test of `build`, `instance_builder.cpp:1128–1135`, and of
`item_type_fits_bin_type`, `instance.cpp:236–241`. -/
def eligible (itemType : ItemType) (binType : BinType) : Bool :=
  !(decide (itemType.eligibilityId ≠ -1)
    && !(binType.eligibilityIds.contains itemType.eligibilityId))

namespace InstanceBuilder

/-- A new builder; `objective_` is `BinPacking` (`rectangle/instance.hpp:517`). -/
def new : InstanceBuilder :=
  { inst := { objective := .binPacking, itemTypes := [], binTypes := [], numberOfGroups := 0 } }

/-- `set_objective`, `instance_builder.hpp:19`. -/
def setObjective (b : InstanceBuilder) (o : Objective) : InstanceBuilder :=
  { b with inst := { b.inst with objective := o } }

/-- `set_parameters`, `instance_builder.hpp:51`. -/
def setParameters (b : InstanceBuilder) (p : Parameters) : InstanceBuilder :=
  { b with inst := { b.inst with parameters := p } }

/-- `set_feasibility_callback`, `instance_builder.hpp`. -/
def setCallback (b : InstanceBuilder) (f : List PackedBin → Bool) : InstanceBuilder :=
  { b with inst := { b.inst with callback := f } }

/-- `set_group_weight_constraints`, `instance_builder.cpp:12–19`. -/
def setGroupWeightConstraints (b : InstanceBuilder) (g : Nat) (c : Bool) : InstanceBuilder :=
  { b with inst := { b.inst with parameters := { b.inst.parameters with
    checkWeightConstraints :=
      (growTo true (g + 1) b.inst.parameters.checkWeightConstraints).set g c } } }

/-- Update a bin type after checking its id. -/
def modifyBin (b : InstanceBuilder) (id : Nat) (f : BinType → Except Err BinType) :
    Except Err InstanceBuilder :=
  if id ≥ b.inst.binTypes.length then .error .invalidArgument
  else match f (b.inst.binType id) with
    | .error e => .error e
    | .ok t => .ok { b with inst := { b.inst with binTypes := b.inst.binTypes.set id t } }

/-- Update an item type after checking its id. -/
def modifyItem (b : InstanceBuilder) (id : Nat) (f : ItemType → Except Err ItemType) :
    Except Err InstanceBuilder :=
  if id ≥ b.inst.itemTypes.length then .error .invalidArgument
  else match f (b.inst.itemType id) with
    | .error e => .error e
    | .ok t => .ok { b with inst := { b.inst with itemTypes := b.inst.itemTypes.set id t } }

/-- `add_bin_type(x, y)`, `instance_builder.cpp:25–50`; the new id is the previous number of bin
types. -/
def addBinType (b : InstanceBuilder) (x y : Int) : Except Err InstanceBuilder :=
  if x ≤ 0 then .error .invalidArgument
  else if y ≤ 0 then .error .invalidArgument
  else .ok { b with inst := { b.inst with
    binTypes := b.inst.binTypes ++ [
      { x := x, y := y, cost := ((x * y : Int) : ℚ), copies := 1, copiesMin := 0 }] } }

/-- `set_bin_type_cost`, `instance_builder.cpp:52–72`. -/
def setBinTypeCost (b : InstanceBuilder) (id : Nat) (cost : ℚ) : Except Err InstanceBuilder :=
  b.modifyBin id fun t =>
    if cost ≤ 0 ∧ cost ≠ -1 then .error .invalidArgument
    else .ok { t with cost := if cost = -1 then ((t.x * t.y : Int) : ℚ) else cost }

/-- `set_bin_type_maximum_weight`, `instance_builder.cpp:74–87`. -/
def setBinTypeMaximumWeight (b : InstanceBuilder) (id : Nat) (w : ExtQ) :
    Except Err InstanceBuilder :=
  b.modifyBin id fun t => .ok { t with maximumWeight := w }

/-- `set_bin_type_semi_trailer_truck_parameters`, `instance_builder.cpp:89–102`. -/
def setBinTypeTruck (b : InstanceBuilder) (id : Nat) (d : TruckData) :
    Except Err InstanceBuilder :=
  b.modifyBin id fun t => .ok { t with truck := d }

/-- `add_bin_type_eligibility`, `instance_builder.cpp:104–117`. -/
def addBinTypeEligibility (b : InstanceBuilder) (id : Nat) (e : Int) :
    Except Err InstanceBuilder :=
  b.modifyBin id fun t => .ok { t with eligibilityIds := t.eligibilityIds ++ [e] }

/-- `add_defect`, `instance_builder.cpp:119–145` (the rectangle is not checked). -/
def addDefect (b : InstanceBuilder) (id : Nat) (posX posY x y : Int) :
    Except Err InstanceBuilder :=
  b.modifyBin id fun t => .ok { t with
    defects := t.defects ++ [{ posX := posX, posY := posY, x := x, y := y }] }

/-- `add_bin_type_resource`, `instance_builder.cpp:147–169`. -/
def addBinTypeResource (b : InstanceBuilder) (id : Nat) (capacity : ℚ) (penalize : Bool)
    (penalty : ℚ) : Except Err InstanceBuilder :=
  b.modifyBin id fun t => .ok { t with
    resources := t.resources ++ [
      { capacity := capacity, penalize := penalize, penalty := penalty }] }

/-- `add_resource_consumption`, `instance_builder.cpp:171–209`. -/
def addResourceConsumption (b : InstanceBuilder) (binTypeId resourceId itemTypeId : Nat)
    (itemCopy : Int) (consumption : ℚ) : Except Err InstanceBuilder :=
  b.modifyBin binTypeId fun t =>
    if resourceId ≥ t.resources.length then .error .invalidArgument
    else if itemCopy < 0 then .error .invalidArgument
    else .ok { t with
      resources := t.resources.modify resourceId
        (fun r => r.addConsumption itemTypeId itemCopy.toNat consumption) }

/-- `set_bin_type_copies`, `instance_builder.cpp:257–285`. -/
def setBinTypeCopies (b : InstanceBuilder) (id : Nat) (copies : Int) :
    Except Err InstanceBuilder :=
  b.modifyBin id fun t =>
    if copies ≠ -1 ∧ (copies ≤ 0 ∨ t.copiesMin > copies) then .error .invalidArgument
    else .ok { t with copies := copies }

/-- `set_bin_type_copies_min`, `instance_builder.cpp:287–314`. -/
def setBinTypeCopiesMin (b : InstanceBuilder) (id : Nat) (copiesMin : Int) :
    Except Err InstanceBuilder :=
  b.modifyBin id fun t =>
    if copiesMin < 0 ∨ (t.copies ≠ -1 ∧ copiesMin > t.copies) then .error .invalidArgument
    else .ok { t with copiesMin := copiesMin }

/-- `compute_item_types_max_length_sum`, `instance_builder.cpp:316–326`. -/
def itemTypesMaxLengthSum (inst : Instance) : Int :=
  inst.itemTypes.foldl (fun l t => l + t.copies * max t.x t.y) 0

/-- `set_bin_types_infinite_x`, `instance_builder.cpp:328–336`. -/
def setBinTypesInfiniteX (b : InstanceBuilder) : InstanceBuilder :=
  { b with inst := { b.inst with
    binTypes := b.inst.binTypes.map fun t => { t with x := itemTypesMaxLengthSum b.inst } } }

/-- `set_bin_types_infinite_y`, `instance_builder.cpp:338–346`. -/
def setBinTypesInfiniteY (b : InstanceBuilder) : InstanceBuilder :=
  { b with inst := { b.inst with
    binTypes := b.inst.binTypes.map fun t => { t with y := itemTypesMaxLengthSum b.inst } } }

/-- `set_bin_types_infinite_copies`, `instance_builder.cpp:348–355`. -/
def setBinTypesInfiniteCopies (b : InstanceBuilder) : InstanceBuilder :=
  { b with inst := { b.inst with
    binTypes := b.inst.binTypes.map fun t => { t with copies := -1 } } }

/-- `set_bin_types_unweighted`, `instance_builder.cpp:357–364`. -/
def setBinTypesUnweighted (b : InstanceBuilder) : InstanceBuilder :=
  { b with inst := { b.inst with
    binTypes := b.inst.binTypes.map fun t => { t with cost := (t.area : ℚ) } } }

/-- `add_item_type(x, y, oriented)`, `instance_builder.cpp:370–398`: zero sides are accepted. -/
def addItemType (b : InstanceBuilder) (x y : Int) (oriented : Bool) :
    Except Err InstanceBuilder :=
  if x < 0 then .error .invalidArgument
  else if y < 0 then .error .invalidArgument
  else .ok { b with inst := { b.inst with
    itemTypes := b.inst.itemTypes ++ [
      { x := x, y := y, profit := ((x * y : Int) : ℚ), copies := 1, copiesMin := -1, groupId := 0,
        oriented := oriented }] } }

/-- `set_item_type_group`, `instance_builder.cpp:400–412`: the item type id is not checked. -/
def setItemTypeGroup (b : InstanceBuilder) (id : Nat) (g : Int) : Except Err InstanceBuilder :=
  if g < 0 then .error .invalidArgument
  else if id ≥ b.inst.itemTypes.length then .error .ub
  else b.modifyItem id fun t => .ok { t with groupId := g.toNat }

/-- `set_item_type_weight`, `instance_builder.cpp:414–426`. -/
def setItemTypeWeight (b : InstanceBuilder) (id : Nat) (w : ℚ) : Except Err InstanceBuilder :=
  b.modifyItem id fun t => .ok { t with weight := w }

/-- `set_item_type_eligibility`, `instance_builder.cpp:428–440`. -/
def setItemTypeEligibility (b : InstanceBuilder) (id : Nat) (e : Int) :
    Except Err InstanceBuilder :=
  b.modifyItem id fun t => .ok { t with eligibilityId := e }

/-- `set_item_type_profit`, `instance_builder.cpp:499–511`. -/
def setItemTypeProfit (b : InstanceBuilder) (id : Nat) (p : ℚ) : Except Err InstanceBuilder :=
  b.modifyItem id fun t => .ok { t with profit := p }

/-- `set_item_type_copies`, `instance_builder.cpp:513–532`. -/
def setItemTypeCopies (b : InstanceBuilder) (id : Nat) (copies : Int) :
    Except Err InstanceBuilder :=
  b.modifyItem id fun t =>
    if copies ≠ -1 ∧ copies ≤ 0 then .error .invalidArgument
    else .ok { t with copies := copies }

/-- `set_item_type_copies_min`, `instance_builder.cpp:534–553`. -/
def setItemTypeCopiesMin (b : InstanceBuilder) (id : Nat) (copiesMin : Int) :
    Except Err InstanceBuilder :=
  b.modifyItem id fun t =>
    if copiesMin < -1 then .error .invalidArgument
    else .ok { t with copiesMin := copiesMin }

/-- `set_item_types_unweighted`, `instance_builder.cpp:555–562`. -/
def setItemTypesUnweighted (b : InstanceBuilder) : InstanceBuilder :=
  { b with inst := { b.inst with
    itemTypes := b.inst.itemTypes.map fun t => { t with profit := (t.area : ℚ) } } }

/-- `set_item_types_oriented`, `instance_builder.cpp:564–571`. -/
def setItemTypesOriented (b : InstanceBuilder) : InstanceBuilder :=
  { b with inst := { b.inst with
    itemTypes := b.inst.itemTypes.map fun t => { t with oriented := true } } }

/-- `compute_bin_types_area_max`, `instance_builder.cpp:573–584`. -/
def binTypesAreaMax (inst : Instance) : Int :=
  inst.binTypes.foldl (fun m t => max m t.area) 0

/-- `set_item_types_infinite_copies`, `instance_builder.cpp:586–596`; dividing by a zero area is
undefined behaviour. -/
def setItemTypesInfiniteCopies (b : InstanceBuilder) : Except Err InstanceBuilder :=
  if b.inst.itemTypes.any fun t => decide (t.area = 0) then .error .ub
  else .ok { b with inst := { b.inst with
    itemTypes := b.inst.itemTypes.map fun t =>
      { t with copies := (binTypesAreaMax b.inst - 1).tdiv t.area + 1 } } }

/-- `multiply_item_types_copies`, `instance_builder.cpp:598–606`. -/
def multiplyItemTypesCopies (b : InstanceBuilder) (factor : Int) : InstanceBuilder :=
  { b with inst := { b.inst with
    itemTypes := b.inst.itemTypes.map fun t => { t with copies := t.copies * factor } } }

/-- Append every eligibility id in turn, `instance_builder.cpp:229–233`. -/
def addEligibilities (b : InstanceBuilder) (id : Nat) (es : List Int) :
    Except Err InstanceBuilder :=
  es.foldlM (fun b e => b.addBinTypeEligibility id e) b

/-- Append every defect in turn, `instance_builder.cpp:234–241`. -/
def addDefects (b : InstanceBuilder) (id : Nat) (ds : List Defect) : Except Err InstanceBuilder :=
  ds.foldlM (fun b d => b.addDefect id d.posX d.posY d.x d.y) b

/-- Append every resource in turn, without its consumptions, `instance_builder.cpp:244–253`. -/
def addResources (b : InstanceBuilder) (id : Nat) (rs : List Resource) :
    Except Err InstanceBuilder :=
  rs.foldlM (fun b r => b.addBinTypeResource id r.capacity r.penalize r.penalty) b

/-- `add_bin_type(original_instance, original_bin_type_id)`, `instance_builder.cpp:211–255`. -/
def addBinTypeFrom (b : InstanceBuilder) (orig : Instance) (origId : Nat) :
    Except Err InstanceBuilder := do
  if origId ≥ orig.binTypes.length then .error .ub
  else
    let t := orig.binType origId
    let id := b.inst.binTypes.length
    let b ← b.addBinType t.x t.y
    let b := { b with
      origToSubBin := (growTo none (origId + 1) b.origToSubBin).set origId (some id) }
    let b ← b.setBinTypeCost id t.cost
    let b ← b.setBinTypeCopies id t.copies
    let b ← b.setBinTypeCopiesMin id t.copiesMin
    let b ← b.setBinTypeMaximumWeight id t.maximumWeight
    let b ← b.setBinTypeTruck id t.truck
    let b ← b.addEligibilities id t.eligibilityIds
    let b ← b.addDefects id t.defects
    b.addResources id t.resources

/-- The innermost loop of `add_item_type(original_instance, …)`, `instance_builder.cpp:486–495`:
write a schedule copy by copy. -/
def writeSchedule (b : InstanceBuilder) (binTypeId resourceId itemTypeId : Nat)
    (schedule : List ℚ) : Except Err InstanceBuilder :=
  (List.range schedule.length).foldlM
    (fun b (c : Nat) => b.addResourceConsumption binTypeId resourceId itemTypeId c
      (schedule.getD c 0)) b

/-- The consumption-copying loops, `instance_builder.cpp:470–496`. -/
def copyConsumptions (b : InstanceBuilder) (orig : Instance) (origItemId itemId : Nat) :
    Except Err InstanceBuilder :=
  (List.range b.origToSubBin.length).foldlM
    (fun b origBinId =>
      match b.origToSubBin.getD origBinId none with
      | none => .ok b
      | some subBinId =>
        if origBinId ≥ orig.binTypes.length then .error .ub
        else
          let t := orig.binType origBinId
          (List.range t.resources.length).foldlM
            (fun b r =>
              let ic := (t.resources.getD r {}).itemConsumptions
              if origItemId ≥ ic.length then .ok b
              else b.writeSchedule subBinId r itemId (ic.getD origItemId []))
            b)
    b

/-- `add_item_type(original_instance, original_item_type_id)`, `instance_builder.cpp:442–498`. -/
def addItemTypeFrom (b : InstanceBuilder) (orig : Instance) (origId : Nat) :
    Except Err InstanceBuilder := do
  if origId ≥ orig.itemTypes.length then .error .ub
  else
    let t := orig.itemType origId
    let id := b.inst.itemTypes.length
    let b ← b.addItemType t.x t.y t.oriented
    let b := { b with
      origToSubItem := (growTo none (origId + 1) b.origToSubItem).set origId (some id) }
    let b ← b.setItemTypeProfit id t.profit
    let b ← b.setItemTypeCopies id t.copies
    let b ← b.setItemTypeGroup id t.groupId
    let b ← b.setItemTypeWeight id t.weight
    let b ← b.setItemTypeEligibility id t.eligibilityId
    b.copyConsumptions orig origId id

/-! ## `build` -/

/-- `std::numeric_limits<Length>::max()`. -/
def lengthMax : Int := 2 ^ 63 - 1

/-- Whether item type `t` is less efficient than `u`; the code divides doubles.  Division by zero
gives an infinity or NaN in C++; the model of `build` stops with undefined behaviour on a zero
area (the integer division at line 1083 is reached in the same iteration). -/
def lessEfficient (t u : ItemType) : Bool :=
  decide (t.profit / (t.area : ℚ) < u.profit / (u.area : ℚ))

/-- Resolution of an item type's `copies_min`, `instance_builder.cpp:1046–1049`. -/
def resolveItem (o : Objective) (t : ItemType) : ItemType :=
  if t.copiesMin = -1 then { t with copiesMin := if o = .knapsack then 0 else t.copies } else t

/-- One iteration of the item loop, `instance_builder.cpp:1041–1091`. -/
def buildItem (areaMax : Int) (inst : Instance) (id : Nat) : Except Err Instance :=
  let t := resolveItem inst.objective (inst.itemType id)
  if t.copiesMin > t.copies then .error .invalidArgument
  else if t.area = 0 then .error .ub
  else
    let c := (areaMax - 1).tdiv t.area + 1
    let width := min inst.smallestItemWidth t.x
    let height := min inst.smallestItemHeight t.y
    .ok { inst with
      itemTypes := inst.itemTypes.set id t
      numberOfItems := inst.numberOfItems + t.copies
      itemProfit := inst.itemProfit + (t.copies : ℚ) * t.profit
      largestItemProfit := max inst.largestItemProfit t.profit
      itemArea := inst.itemArea + t.copies * t.area
      totalItemWidth := inst.totalItemWidth + t.copies * t.x
      totalItemHeight := inst.totalItemHeight + t.copies * t.y
      smallestItemWidth := if t.oriented then width else min width t.y
      smallestItemHeight := if t.oriented then height else min height t.x
      largestEfficiencyItemTypeId :=
        if inst.largestEfficiencyItemTypeId = -1
            ∨ lessEfficient (inst.itemType inst.largestEfficiencyItemTypeId.toNat) t then (id : Int)
        else inst.largestEfficiencyItemTypeId
      allItemTypesInfiniteCopies :=
        inst.allItemTypesInfiniteCopies && !decide (t.copies < c)
      largestItemCopies :=
        if inst.largestItemCopies < t.copies then t.copies else inst.largestItemCopies
      itemWeight := inst.itemWeight + (t.copies : ℚ) * t.weight }

/-- Resolution of a bin type's `copies`, `instance_builder.cpp:1102–1103`. -/
def resolveBin (numberOfItems : Int) (t : BinType) : BinType :=
  if t.copies = -1 then { t with copies := numberOfItems } else t

/-- One iteration of the bin loop, `instance_builder.cpp:1097–1119`; the second component is
`previous_bins_area`.  A negative number of copies runs the inner loop zero times. -/
def buildBin (st : Instance × Int) (id : Nat) : Instance × Int :=
  let inst := st.1
  let t := resolveBin inst.numberOfItems (inst.binType id)
  let n := t.copies.toNat
  ({ inst with
    binTypes := inst.binTypes.set id t
    binArea := inst.binArea + t.copies * t.area
    binTypeIds := inst.binTypeIds ++ List.replicate n id
    previousBinsArea := inst.previousBinsArea
      ++ (List.range n).map (fun (k : Nat) => st.2 + (k : Int) * t.area)
    largestBinCost :=
      if inst.largestBinCost < t.cost then t.cost else inst.largestBinCost
    numberOfDefects := inst.numberOfDefects + t.defects.length },
    st.2 + (n : Int) * t.area)

/-- `bin_type.item_type_ids`, `instance_builder.cpp:1121–1138`. -/
def computeItemTypeIds (inst : Instance) : Instance :=
  { inst with
    binTypes := inst.binTypes.map fun t =>
      { t with itemTypeIds := t.itemTypeIds
          ++ (List.range inst.itemTypes.length).filter (fun i => eligible (inst.itemType i) t) } }

/-- One `push_back` of `instance_builder.cpp:1157–1160`: item types are addressed without a bound
check. -/
def pushResourceId (binTypeId resourceId : Nat) (its : List ItemType) (itemTypeId : Nat) :
    Except Err (List ItemType) :=
  if itemTypeId < its.length then
    .ok (its.modify itemTypeId
      (fun t => { t with resourceIds := t.resourceIds.modify binTypeId (· ++ [resourceId]) }))
  else .error .ub

/-- `item_type.resource_ids`, `instance_builder.cpp:1140–1163`. -/
def computeResourceIds (inst : Instance) : Except Err Instance := do
  let its := inst.itemTypes.map fun t =>
    { t with resourceIds := growTo [] inst.binTypes.length t.resourceIds }
  let its ← (List.range inst.binTypes.length).foldlM
    (fun its b => (List.range (inst.binType b).resources.length).foldlM
      (fun its r =>
        let ic := ((inst.binType b).resources.getD r {}).itemConsumptions
        (List.range ic.length).foldlM
          (fun its i => if ic.getD i [] = [] then .ok its else pushResourceId b r its i) its)
      its) its
  .ok { inst with itemTypes := its }

/-- `number_of_groups()`, the size of `groups_`, `instance_builder.cpp:1165–1177`. -/
def computeGroups (inst : Instance) : Instance :=
  { inst with
    numberOfGroups := inst.itemTypes.foldl (fun n t => max n (t.groupId + 1)) inst.numberOfGroups }

/-- The checks of the open dimension objectives, `instance_builder.cpp:1179–1192`. -/
def checkOpenDimension (inst : Instance) : Except Err Unit :=
  if inst.objective = .openDimensionX ∧ inst.numberOfBins ≠ 1 then .error .invalidArgument
  else if inst.objective = .openDimensionY ∧ inst.numberOfBins ≠ 1 then .error .invalidArgument
  else .ok ()

/-- `copies_fixed`, `instance_builder.cpp:1194–1212`. -/
def computeCopiesFixed (inst : Instance) : Except Err Instance := do
  let its ← inst.binTypes.foldlM
    (fun its t =>
      if t.fixedItems ≠ [] ∧ t.copiesMin ≠ t.copies then .error Err.invalidArgument
      else t.fixedItems.foldlM
        (fun its f =>
          if f.itemTypeId < its.length then
            .ok (its.modify f.itemTypeId
              (fun it : ItemType => { it with copiesFixed := it.copiesFixed + t.copies }))
          else .error .ub) its)
    inst.itemTypes
  .ok { inst with itemTypes := its }

/-- `InstanceBuilder::build`, `instance_builder.cpp:1035–1215`. -/
def build (b : InstanceBuilder) : Except Err Instance := do
  let inst := { b.inst with
    allItemTypesInfiniteCopies := true
    smallestItemWidth := lengthMax
    smallestItemHeight := lengthMax }
  let inst ← (List.range inst.itemTypes.length).foldlM (buildItem (binTypesAreaMax inst)) inst
  let inst := { inst with binArea := 0 }
  let inst := ((List.range inst.binTypes.length).foldl buildBin (inst, 0)).1
  let inst := computeItemTypeIds inst
  let inst ← computeResourceIds inst
  let inst := computeGroups inst
  checkOpenDimension inst
  computeCopiesFixed inst

/-! ## Histories of calls -/

/-- The public operations of the builder. -/
inductive Op where
  | setObjective (o : Objective)
  | setParameters (p : Parameters)
  | setCallback (f : List PackedBin → Bool)
  | setGroupWeightConstraints (g : Nat) (c : Bool)
  | addBinType (x y : Int)
  | setBinTypeCost (id : Nat) (cost : ℚ)
  | setBinTypeMaximumWeight (id : Nat) (w : ExtQ)
  | setBinTypeTruck (id : Nat) (d : TruckData)
  | addBinTypeEligibility (id : Nat) (e : Int)
  | addDefect (id : Nat) (posX posY x y : Int)
  | addBinTypeResource (id : Nat) (capacity : ℚ) (penalize : Bool) (penalty : ℚ)
  | addResourceConsumption (binTypeId resourceId itemTypeId : Nat) (copy : Int) (q : ℚ)
  | setBinTypeCopies (id : Nat) (copies : Int)
  | setBinTypeCopiesMin (id : Nat) (copiesMin : Int)
  | setBinTypesInfiniteX
  | setBinTypesInfiniteY
  | setBinTypesInfiniteCopies
  | setBinTypesUnweighted
  | addItemType (x y : Int) (oriented : Bool)
  | setItemTypeGroup (id : Nat) (g : Int)
  | setItemTypeWeight (id : Nat) (w : ℚ)
  | setItemTypeEligibility (id : Nat) (e : Int)
  | setItemTypeProfit (id : Nat) (p : ℚ)
  | setItemTypeCopies (id : Nat) (copies : Int)
  | setItemTypeCopiesMin (id : Nat) (copiesMin : Int)
  | setItemTypesUnweighted
  | setItemTypesOriented
  | setItemTypesInfiniteCopies
  | multiplyItemTypesCopies (factor : Int)
  | addBinTypeFrom (orig : Instance) (id : Nat)
  | addItemTypeFrom (orig : Instance) (id : Nat)

/-- Run one operation. -/
def step (b : InstanceBuilder) : Op → Except Err InstanceBuilder
  | .setObjective o => .ok (b.setObjective o)
  | .setParameters p => .ok (b.setParameters p)
  | .setCallback f => .ok (b.setCallback f)
  | .setGroupWeightConstraints g c => .ok (b.setGroupWeightConstraints g c)
  | .addBinType x y => b.addBinType x y
  | .setBinTypeCost i c => b.setBinTypeCost i c
  | .setBinTypeMaximumWeight i w => b.setBinTypeMaximumWeight i w
  | .setBinTypeTruck i d => b.setBinTypeTruck i d
  | .addBinTypeEligibility i e => b.addBinTypeEligibility i e
  | .addDefect i px py x y => b.addDefect i px py x y
  | .addBinTypeResource i c p q => b.addBinTypeResource i c p q
  | .addResourceConsumption t r i c q => b.addResourceConsumption t r i c q
  | .setBinTypeCopies i c => b.setBinTypeCopies i c
  | .setBinTypeCopiesMin i c => b.setBinTypeCopiesMin i c
  | .setBinTypesInfiniteX => .ok b.setBinTypesInfiniteX
  | .setBinTypesInfiniteY => .ok b.setBinTypesInfiniteY
  | .setBinTypesInfiniteCopies => .ok b.setBinTypesInfiniteCopies
  | .setBinTypesUnweighted => .ok b.setBinTypesUnweighted
  | .addItemType x y o => b.addItemType x y o
  | .setItemTypeGroup i g => b.setItemTypeGroup i g
  | .setItemTypeWeight i w => b.setItemTypeWeight i w
  | .setItemTypeEligibility i e => b.setItemTypeEligibility i e
  | .setItemTypeProfit i p => b.setItemTypeProfit i p
  | .setItemTypeCopies i c => b.setItemTypeCopies i c
  | .setItemTypeCopiesMin i c => b.setItemTypeCopiesMin i c
  | .setItemTypesUnweighted => .ok b.setItemTypesUnweighted
  | .setItemTypesOriented => .ok b.setItemTypesOriented
  | .setItemTypesInfiniteCopies => b.setItemTypesInfiniteCopies
  | .multiplyItemTypesCopies f => .ok (b.multiplyItemTypesCopies f)
  | .addBinTypeFrom o i => b.addBinTypeFrom o i
  | .addItemTypeFrom o i => b.addItemTypeFrom o i

/-- A caller's whole use of the builder. -/
def runOps (ops : List Op) : Except Err Instance := do
  let b ← ops.foldlM step new
  b.build

end InstanceBuilder

end PackingSolver.Rect
