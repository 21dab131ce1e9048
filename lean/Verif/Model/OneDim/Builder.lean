import Verif.Model.OneDim.Instance

/-!
# One-dimensional instance builder

Models `src/onedimensional/instance_builder.cpp`.  Bin type, item type and
resource ids are natural numbers: the code rejects negative ids exactly as it
rejects too large ones, except in `add_resource_consumption`, whose item type id
is not checked (a negative one is undefined behaviour and not representable
here).  Reading CSV files is not modelled.
-/

namespace PackingSolver.OneDim

/-- `class InstanceBuilder` (`onedimensional/instance_builder.hpp:10–330`): the
instance under construction and the bookkeeping of the copying overloads. -/
structure InstanceBuilder where
  inst : Instance := { objective := .default, itemTypes := [], binTypes := [] }
  /-- `orig_to_sub_bin_type_ids_` (`none` for `-1`). -/
  origToSubBin : List (Option Nat) := []
  /-- `orig_to_sub_item_type_ids_`. -/
  origToSubItem : List (Option Nat) := []
  /-- `pending_precedences_by_original_id_`: (dominated, dominating). -/
  pending : List (Option Nat × Option Nat) := []

namespace InstanceBuilder

/-- A new builder.  `objective_` is not initialised by the C++ constructor
(`instance.hpp:351`); the model starts with a given value `o`, the objective set
by the last `set_objective` call or whatever was in memory. -/
def new (o : Objective) : InstanceBuilder :=
  { inst := { objective := o, itemTypes := [], binTypes := [] } }

/-- `set_objective`, `instance_builder.hpp:19`. -/
def setObjective (b : InstanceBuilder) (o : Objective) : InstanceBuilder :=
  { b with inst := { b.inst with objective := o } }

/-- `set_feasibility_callback`, `instance_builder.hpp:51`. -/
def setCallback (b : InstanceBuilder) (f : BinsView → Bool) : InstanceBuilder :=
  { b with inst := { b.inst with callback := f } }

/-- Update a bin type after checking its id. -/
def modifyBin (b : InstanceBuilder) (id : Nat) (f : BinType → Except Err BinType) :
    Except Err InstanceBuilder :=
  if id ≥ b.inst.binTypes.length then .error .invalidArgument
  else match f (b.inst.binType id) with
    | .error e => .error e
    | .ok t => .ok { b with inst := { b.inst with binTypes := b.inst.binTypes.set id t } }

/-- Update an item type after checking its id. -/
def modifyItem (b : InstanceBuilder) (id : Nat) (f : ItemType → Except Err ItemType) :
    Except Err InstanceBuilder :=
  if id ≥ b.inst.itemTypes.length then .error .invalidArgument
  else match f (b.inst.itemType id) with
    | .error e => .error e
    | .ok t => .ok { b with inst := { b.inst with itemTypes := b.inst.itemTypes.set id t } }

/-- `add_bin_type(length)`, `instance_builder.cpp:16–33`; the new id is the
previous number of bin types. -/
def addBinType (b : InstanceBuilder) (length : Int) : Except Err InstanceBuilder :=
  if length ≤ 0 then .error .invalidArgument
  else .ok { b with inst := { b.inst with
    binTypes := b.inst.binTypes ++ [
      { length := length, cost := length, copies := 1, copiesMin := 0 }] } }

/-- `set_bin_type_cost`, `instance_builder.cpp:35–55`. -/
def setBinTypeCost (b : InstanceBuilder) (id : Nat) (cost : ℚ) : Except Err InstanceBuilder :=
  b.modifyBin id fun t =>
    if cost ≤ 0 ∧ cost ≠ -1 then .error .invalidArgument
    else .ok { t with cost := if cost = -1 then (t.length : ℚ) else cost }

/-- `set_bin_type_maximum_weight`, `instance_builder.cpp:57–70`. -/
def setBinTypeMaximumWeight (b : InstanceBuilder) (id : Nat) (w : ExtQ) :
    Except Err InstanceBuilder :=
  b.modifyBin id fun t => .ok { t with maximumWeight := w }

/-- `add_bin_type_eligibility`, `instance_builder.cpp:72–85`. -/
def addBinTypeEligibility (b : InstanceBuilder) (id : Nat) (e : Int) :
    Except Err InstanceBuilder :=
  b.modifyBin id fun t => .ok { t with eligibilityIds := t.eligibilityIds ++ [e] }

/-- `add_bin_type_resource`, `instance_builder.cpp:87–109`. -/
def addBinTypeResource (b : InstanceBuilder) (id : Nat) (capacity : ℚ) (penalize : Bool)
    (penalty : ℚ) : Except Err InstanceBuilder :=
  b.modifyBin id fun t => .ok { t with
    resources := t.resources ++ [
      { capacity := capacity, penalize := penalize, penalty := penalty }] }

/-- `add_resource_consumption`, `instance_builder.cpp:111–148`. -/
def addResourceConsumption (b : InstanceBuilder) (binTypeId resourceId itemTypeId : Nat)
    (itemCopy : Int) (consumption : ℚ) : Except Err InstanceBuilder :=
  b.modifyBin binTypeId fun t =>
    if resourceId ≥ t.resources.length then .error .invalidArgument
    else if itemCopy < 0 then .error .invalidArgument
    else .ok { t with
      resources := t.resources.modify resourceId
        (fun r => r.addConsumption itemTypeId itemCopy.toNat consumption) }

/-- `set_bin_type_copies`, `instance_builder.cpp:185–213`. -/
def setBinTypeCopies (b : InstanceBuilder) (id : Nat) (copies : Int) :
    Except Err InstanceBuilder :=
  b.modifyBin id fun t =>
    if copies ≠ -1 ∧ (copies ≤ 0 ∨ t.copiesMin > copies) then .error .invalidArgument
    else .ok { t with copies := copies }

/-- `set_bin_type_copies_min`, `instance_builder.cpp:215–242`. -/
def setBinTypeCopiesMin (b : InstanceBuilder) (id : Nat) (copiesMin : Int) :
    Except Err InstanceBuilder :=
  b.modifyBin id fun t =>
    if copiesMin < 0 ∨ (t.copies ≠ -1 ∧ copiesMin > t.copies) then .error .invalidArgument
    else .ok { t with copiesMin := copiesMin }

/-- `set_bin_types_infinite_copies`, `instance_builder.cpp:244–251`. -/
def setBinTypesInfiniteCopies (b : InstanceBuilder) : InstanceBuilder :=
  { b with inst := { b.inst with
    binTypes := b.inst.binTypes.map fun t => { t with copies := -1 } } }

/-- `set_bin_types_unweighted`, `instance_builder.cpp:253–260`. -/
def setBinTypesUnweighted (b : InstanceBuilder) : InstanceBuilder :=
  { b with inst := { b.inst with
    binTypes := b.inst.binTypes.map fun t => { t with cost := t.length } } }

/-- `add_item_type(length)`, `instance_builder.cpp:266–276` (the length is not
checked). -/
def addItemType (b : InstanceBuilder) (length : Int) : InstanceBuilder :=
  { b with inst := { b.inst with
    itemTypes := b.inst.itemTypes ++ [
      { length := length, profit := length, copies := 1, copiesMin := -1 }] } }

/-- `set_item_type_weight`, `instance_builder.cpp:278–291`. -/
def setItemTypeWeight (b : InstanceBuilder) (id : Nat) (w : ℚ) : Except Err InstanceBuilder :=
  b.modifyItem id fun t => .ok { t with weight := w }

/-- `set_item_type_nesting_length`, `instance_builder.cpp:293–306`. -/
def setItemTypeNestingLength (b : InstanceBuilder) (id : Nat) (l : Int) :
    Except Err InstanceBuilder :=
  b.modifyItem id fun t => .ok { t with nestingLength := l }

/-- `set_item_type_maximum_stackability`, `instance_builder.cpp:308–321`. -/
def setItemTypeMaximumStackability (b : InstanceBuilder) (id : Nat) (m : Int) :
    Except Err InstanceBuilder :=
  b.modifyItem id fun t => .ok { t with maximumStackability := m }

/-- `set_item_type_maximum_weight_after`, `instance_builder.cpp:323–336`. -/
def setItemTypeMaximumWeightAfter (b : InstanceBuilder) (id : Nat) (w : ExtQ) :
    Except Err InstanceBuilder :=
  b.modifyItem id fun t => .ok { t with maximumWeightAfter := w }

/-- `set_item_type_eligibility`, `instance_builder.cpp:338–351`. -/
def setItemTypeEligibility (b : InstanceBuilder) (id : Nat) (e : Int) :
    Except Err InstanceBuilder :=
  b.modifyItem id fun t => .ok { t with eligibilityId := e }

/-- `add_item_type_precedence`, `instance_builder.cpp:353–376`. -/
def addItemTypePrecedence (b : InstanceBuilder) (dominated dominating : Nat) :
    Except Err InstanceBuilder :=
  if dominated ≥ b.inst.itemTypes.length then .error .invalidArgument
  else if dominating ≥ b.inst.itemTypes.length then .error .invalidArgument
  else
    let p := b.inst.precedences.length
    let its := b.inst.itemTypes.modify dominated
      (fun t => { t with dominatedPrecedenceIds := t.dominatedPrecedenceIds ++ [p] })
    let its := its.modify dominating
      (fun t => { t with dominatingPrecedenceIds := t.dominatingPrecedenceIds ++ [p] })
    .ok { b with inst := { b.inst with
      itemTypes := its
      precedences := b.inst.precedences ++ [(dominated, dominating)] } }

/-- `set_item_type_profit`, `instance_builder.cpp:451–464`. -/
def setItemTypeProfit (b : InstanceBuilder) (id : Nat) (p : ℚ) : Except Err InstanceBuilder :=
  b.modifyItem id fun t => .ok { t with profit := p }

/-- `set_item_type_copies`, `instance_builder.cpp:466–485`. -/
def setItemTypeCopies (b : InstanceBuilder) (id : Nat) (copies : Int) :
    Except Err InstanceBuilder :=
  b.modifyItem id fun t =>
    if copies ≠ -1 ∧ copies ≤ 0 then .error .invalidArgument
    else .ok { t with copies := copies }

/-- `set_item_type_copies_min`, `instance_builder.cpp:487–506`. -/
def setItemTypeCopiesMin (b : InstanceBuilder) (id : Nat) (copiesMin : Int) :
    Except Err InstanceBuilder :=
  b.modifyItem id fun t =>
    if copiesMin < -1 then .error .invalidArgument
    else .ok { t with copiesMin := copiesMin }

/-- `set_item_types_unweighted`, `instance_builder.cpp:508–515`. -/
def setItemTypesUnweighted (b : InstanceBuilder) : InstanceBuilder :=
  { b with inst := { b.inst with
    itemTypes := b.inst.itemTypes.map fun t => { t with profit := t.length } } }

/-- `compute_bin_types_length_max`, `instance_builder.cpp:517–528`. -/
def binTypesLengthMax (inst : Instance) : Int :=
  inst.binTypes.foldl (fun m t => max m t.length) 0

/-- `set_item_types_infinite_copies`, `instance_builder.cpp:530–540`; dividing by a
zero length is undefined behaviour. -/
def setItemTypesInfiniteCopies (b : InstanceBuilder) : Except Err InstanceBuilder :=
  if b.inst.itemTypes.any fun t => decide (t.length = 0) then .error .ub
  else .ok { b with inst := { b.inst with
    itemTypes := b.inst.itemTypes.map fun t =>
      { t with copies := (binTypesLengthMax b.inst - 1).tdiv t.length + 1 } } }

/-- Append every eligibility id in turn. -/
def addEligibilities (b : InstanceBuilder) (id : Nat) (es : List Int) :
    Except Err InstanceBuilder :=
  es.foldlM (fun b e => b.addBinTypeEligibility id e) b

/-- `add_bin_type(original_instance, original_bin_type_id)`,
`instance_builder.cpp:150–183`. -/
def addBinTypeFrom (b : InstanceBuilder) (orig : Instance) (origId : Nat) :
    Except Err InstanceBuilder := do
  if origId ≥ orig.binTypes.length then .error .ub
  else
    let t := orig.binType origId
    let id := b.inst.binTypes.length
    let b ← b.addBinType t.length
    let b := { b with
      origToSubBin := (growTo none (origId + 1) b.origToSubBin).set origId (some id) }
    let b ← b.setBinTypeCost id t.cost
    let b ← b.setBinTypeCopies id t.copies
    let b ← b.setBinTypeCopiesMin id t.copiesMin
    let b ← b.setBinTypeMaximumWeight id t.maximumWeight
    let b ← b.addEligibilities id t.eligibilityIds
    t.resources.foldlM
      (fun b r => b.addBinTypeResource id r.capacity r.penalize r.penalty) b

/-- The innermost loop of `add_item_type(original_instance, …)`,
`instance_builder.cpp:421–431` (also `read`, lines 782–792): write a schedule copy
by copy. -/
def writeSchedule (b : InstanceBuilder) (binTypeId resourceId itemTypeId : Nat)
    (schedule : List ℚ) : Except Err InstanceBuilder :=
  (List.range schedule.length).foldlM
    (fun b (c : Nat) => b.addResourceConsumption binTypeId resourceId itemTypeId c
      (schedule.getD c 0)) b

/-- The consumption-copying loops, `instance_builder.cpp:407–433`. -/
def copyConsumptions (b : InstanceBuilder) (orig : Instance) (origItemId itemId : Nat) :
    Except Err InstanceBuilder :=
  (List.range b.origToSubBin.length).foldlM
    (fun b origBinId =>
      match b.origToSubBin.getD origBinId none with
      | none => .ok b
      | some subBinId =>
        if origBinId ≥ orig.binTypes.length then .error .ub
        else
          let t := orig.binType origBinId
          (List.range t.resources.length).foldlM
            (fun b r =>
              let ic := (t.resources.getD r {}).itemConsumptions
              if origItemId ≥ ic.length then .ok b
              else b.writeSchedule subBinId r itemId (ic.getD origItemId []))
            b)
    b

/-- The pending precedence updates, `instance_builder.cpp:438–447`. -/
def recordPending (b : InstanceBuilder) (t : ItemType) (itemId : Nat) : InstanceBuilder :=
  let p := t.dominatedPrecedenceIds.foldl
    (fun p k => (growTo (none, none) (k + 1) p).modify k (fun x => (some itemId, x.2))) b.pending
  let p := t.dominatingPrecedenceIds.foldl
    (fun p k => (growTo (none, none) (k + 1) p).modify k (fun x => (x.1, some itemId))) p
  { b with pending := p }

/-- `add_item_type(original_instance, original_item_type_id)`,
`instance_builder.cpp:378–449`. -/
def addItemTypeFrom (b : InstanceBuilder) (orig : Instance) (origId : Nat) :
    Except Err InstanceBuilder := do
  if origId ≥ orig.itemTypes.length then .error .ub
  else
    let t := orig.itemType origId
    let id := b.inst.itemTypes.length
    let b := b.addItemType t.length
    let b := { b with
      origToSubItem := (growTo none (origId + 1) b.origToSubItem).set origId (some id) }
    let b ← b.setItemTypeProfit id t.profit
    let b ← b.setItemTypeCopies id t.copies
    let b ← b.setItemTypeWeight id t.weight
    let b ← b.setItemTypeNestingLength id t.nestingLength
    let b ← b.setItemTypeMaximumStackability id t.maximumStackability
    let b ← b.setItemTypeMaximumWeightAfter id t.maximumWeightAfter
    let b ← b.setItemTypeEligibility id t.eligibilityId
    let b ← b.copyConsumptions orig origId id
    .ok (b.recordPending t id)

/-! ## `build` -/

/-- Finalisation of pending precedences, `instance_builder.cpp:847–853`. -/
def finalizePrecedences (b : InstanceBuilder) : Except Err InstanceBuilder :=
  b.pending.foldlM
    (fun b p => match p with
      | (some d, some g) => b.addItemTypePrecedence d g
      | _ => .ok b) b

/-- Whether the running item type (efficiency `p/l`) is less efficient than the
current one; the code divides doubles.  Division by zero gives an infinity or NaN in
C++; the model of `build` stops with undefined behaviour on a zero length (the
integer division at line 891 is reached in the same iteration). -/
def lessEfficient (t u : ItemType) : Bool :=
  decide (t.profit / (t.length : ℚ) < u.profit / (u.length : ℚ))

/-- Resolution of an item type's `copies_min`, `instance_builder.cpp:863–866`. -/
def resolveItem (o : Objective) (t : ItemType) : ItemType :=
  if t.copiesMin = -1 then { t with copiesMin := if o = .knapsack then 0 else t.copies } else t

/-- One iteration of the item loop, `instance_builder.cpp:858–897`. -/
def buildItem (lengthMax : Int) (inst : Instance) (id : Nat) : Except Err Instance :=
  let t := resolveItem inst.objective (inst.itemType id)
  if t.copiesMin > t.copies then .error .invalidArgument
  else if t.length = 0 then .error .ub
  else
    let c := (lengthMax - 1).tdiv t.length + 1
    .ok { inst with
      itemTypes := inst.itemTypes.set id t
      numberOfItems := inst.numberOfItems + t.copies
      itemProfit := inst.itemProfit + (t.copies : ℚ) * t.profit
      largestItemProfit := max inst.largestItemProfit t.profit
      itemLength := inst.itemLength + t.copies * t.length
      largestEfficiencyItemTypeId :=
        if inst.largestEfficiencyItemTypeId = -1
            ∨ lessEfficient (inst.itemType inst.largestEfficiencyItemTypeId.toNat) t then (id : Int)
        else inst.largestEfficiencyItemTypeId
      allItemTypesInfiniteCopies :=
        inst.allItemTypesInfiniteCopies && !decide (t.copies < c)
      largestItemCopies :=
        if inst.largestItemCopies < t.copies then t.copies else inst.largestItemCopies }

/-- Resolution of a bin type's `copies`, `instance_builder.cpp:919–920`. -/
def resolveBin (numberOfItems : Int) (t : BinType) : BinType :=
  if t.copies = -1 then { t with copies := numberOfItems } else t

/-- One iteration of the bin loop, `instance_builder.cpp:902–932`; the second
component is `previous_bins_length`.  A negative number of copies runs the inner
loop zero times. -/
def buildBin (st : Instance × Int) (id : Nat) : Except Err (Instance × Int) :=
  let inst := st.1
  if inst.objective = .binPacking ∧ (inst.binType id).copiesMin > 0 then .error .invalidArgument
  else
    let t := resolveBin inst.numberOfItems (inst.binType id)
    let n := t.copies.toNat
    .ok ({ inst with
      binTypes := inst.binTypes.set id t
      binLength := inst.binLength + t.copies * t.length
      binTypeIds := inst.binTypeIds ++ List.replicate n id
      previousBinsLength := inst.previousBinsLength
        ++ (List.range n).map (fun (k : Nat) => st.2 + (k : Int) * t.length)
      largestBinCost :=
        if inst.largestBinCost < t.cost then t.cost else inst.largestBinCost },
      st.2 + (n : Int) * t.length)

/-- `bin_type.item_type_ids`, `instance_builder.cpp:934–951`. -/
def computeItemTypeIds (inst : Instance) : Instance :=
  { inst with
    binTypes := inst.binTypes.map fun t =>
      { t with itemTypeIds := t.itemTypeIds
          ++ (List.range inst.itemTypes.length).filter (fun i => eligible (inst.itemType i) t) } }

/-- One `push_back` of `instance_builder.cpp:970–973`: item types are addressed
without a bound check. -/
def pushResourceId (binTypeId resourceId : Nat) (its : List ItemType) (itemTypeId : Nat) :
    Except Err (List ItemType) :=
  if itemTypeId < its.length then
    .ok (its.modify itemTypeId
      (fun t => { t with resourceIds := t.resourceIds.modify binTypeId (· ++ [resourceId]) }))
  else .error .ub

/-- `item_type.resource_ids`, `instance_builder.cpp:953–976`. -/
def computeResourceIds (inst : Instance) : Except Err Instance := do
  let its := inst.itemTypes.map fun t =>
    { t with resourceIds := growTo [] inst.binTypes.length t.resourceIds }
  let its ← (List.range inst.binTypes.length).foldlM
    (fun its b => (List.range (inst.binType b).resources.length).foldlM
      (fun its r =>
        let ic := ((inst.binType b).resources.getD r {}).itemConsumptions
        (List.range ic.length).foldlM
          (fun its i => if ic.getD i [] = [] then .ok its else pushResourceId b r its i) its)
      its) its
  .ok { inst with itemTypes := its }

/-- `copies_fixed`, `instance_builder.cpp:978–994`. -/
def computeCopiesFixed (inst : Instance) : Except Err Instance := do
  let its ← inst.binTypes.foldlM
    (fun its t =>
      if t.fixedItems ≠ [] ∧ t.copiesMin ≠ t.copies then .error Err.invalidArgument
      else t.fixedItems.foldlM
        (fun its f =>
          if f.itemTypeId < its.length then
            .ok (its.modify f.itemTypeId
              (fun it : ItemType => { it with copiesFixed := it.copiesFixed + t.copies }))
          else .error .ub) its)
    inst.itemTypes
  .ok { inst with itemTypes := its }

/-- `InstanceBuilder::build`, `instance_builder.cpp:839–997`. -/
def build (b : InstanceBuilder) : Except Err Instance := do
  let b ← b.finalizePrecedences
  let inst := { b.inst with allItemTypesInfiniteCopies := true }
  let inst ← (List.range inst.itemTypes.length).foldlM (buildItem (binTypesLengthMax inst)) inst
  let inst := { inst with binLength := 0 }
  let st ← (List.range inst.binTypes.length).foldlM buildBin (inst, 0)
  let inst := computeItemTypeIds st.1
  let inst ← computeResourceIds inst
  computeCopiesFixed inst

/-! ## Histories of calls -/

/-- The public operations of the builder. -/
inductive Op where
  | setObjective (o : Objective)
  | setCallback (f : BinsView → Bool)
  | addBinType (length : Int)
  | setBinTypeCost (id : Nat) (cost : ℚ)
  | setBinTypeMaximumWeight (id : Nat) (w : ExtQ)
  | addBinTypeEligibility (id : Nat) (e : Int)
  | addBinTypeResource (id : Nat) (capacity : ℚ) (penalize : Bool) (penalty : ℚ)
  | addResourceConsumption (binTypeId resourceId itemTypeId : Nat) (copy : Int) (q : ℚ)
  | setBinTypeCopies (id : Nat) (copies : Int)
  | setBinTypeCopiesMin (id : Nat) (copiesMin : Int)
  | setBinTypesInfiniteCopies
  | setBinTypesUnweighted
  | addItemType (length : Int)
  | setItemTypeWeight (id : Nat) (w : ℚ)
  | setItemTypeNestingLength (id : Nat) (l : Int)
  | setItemTypeMaximumStackability (id : Nat) (m : Int)
  | setItemTypeMaximumWeightAfter (id : Nat) (w : ExtQ)
  | setItemTypeEligibility (id : Nat) (e : Int)
  | addItemTypePrecedence (dominated dominating : Nat)
  | setItemTypeProfit (id : Nat) (p : ℚ)
  | setItemTypeCopies (id : Nat) (copies : Int)
  | setItemTypeCopiesMin (id : Nat) (copiesMin : Int)
  | setItemTypesUnweighted
  | setItemTypesInfiniteCopies
  | addBinTypeFrom (orig : Instance) (id : Nat)
  | addItemTypeFrom (orig : Instance) (id : Nat)

/-- Run one operation. -/
def step (b : InstanceBuilder) : Op → Except Err InstanceBuilder
  | .setObjective o => .ok (b.setObjective o)
  | .setCallback f => .ok (b.setCallback f)
  | .addBinType l => b.addBinType l
  | .setBinTypeCost i c => b.setBinTypeCost i c
  | .setBinTypeMaximumWeight i w => b.setBinTypeMaximumWeight i w
  | .addBinTypeEligibility i e => b.addBinTypeEligibility i e
  | .addBinTypeResource i c p q => b.addBinTypeResource i c p q
  | .addResourceConsumption t r i c q => b.addResourceConsumption t r i c q
  | .setBinTypeCopies i c => b.setBinTypeCopies i c
  | .setBinTypeCopiesMin i c => b.setBinTypeCopiesMin i c
  | .setBinTypesInfiniteCopies => .ok b.setBinTypesInfiniteCopies
  | .setBinTypesUnweighted => .ok b.setBinTypesUnweighted
  | .addItemType l => .ok (b.addItemType l)
  | .setItemTypeWeight i w => b.setItemTypeWeight i w
  | .setItemTypeNestingLength i l => b.setItemTypeNestingLength i l
  | .setItemTypeMaximumStackability i m => b.setItemTypeMaximumStackability i m
  | .setItemTypeMaximumWeightAfter i w => b.setItemTypeMaximumWeightAfter i w
  | .setItemTypeEligibility i e => b.setItemTypeEligibility i e
  | .addItemTypePrecedence d g => b.addItemTypePrecedence d g
  | .setItemTypeProfit i p => b.setItemTypeProfit i p
  | .setItemTypeCopies i c => b.setItemTypeCopies i c
  | .setItemTypeCopiesMin i c => b.setItemTypeCopiesMin i c
  | .setItemTypesUnweighted => .ok b.setItemTypesUnweighted
  | .setItemTypesInfiniteCopies => b.setItemTypesInfiniteCopies
  | .addBinTypeFrom o i => b.addBinTypeFrom o i
  | .addItemTypeFrom o i => b.addItemTypeFrom o i

/-- A caller's whole use of the builder. -/
def runOps (o : Objective) (ops : List Op) : Except Err Instance := do
  let b ← ops.foldlM step (new o)
  b.build

end InstanceBuilder

end PackingSolver.OneDim
