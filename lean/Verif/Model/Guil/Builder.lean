import Verif.Model.Guil.Instance

/-!
# Builder of guillotine instances

Models `src/rectangleguillotine/instance_builder.cpp`.  Bin type, item type and resource ids are
natural numbers: the code rejects negative ids exactly as it rejects too large ones, except in
`add_resource_consumption`, whose item type id is not checked (a negative one is undefined
behaviour and not representable here).  Reading files is not modelled.
-/

namespace PackingSolver.Guil

/-- `class InstanceBuilder`, `rectangleguillotine/instance_builder.hpp`: the instance under
construction and the bookkeeping of the copying overloads. -/
structure InstanceBuilder where
  inst : Instance
  /-- `orig_to_sub_bin_type_ids_` (`none` for `-1`). -/
  origToSubBin : List (Option Nat) := []
  /-- `orig_to_sub_item_type_ids_`. -/
  origToSubItem : List (Option Nat) := []

namespace InstanceBuilder

/-- A new builder.  `objective_` has no initializer (`rectangleguillotine/instance.hpp:585`): `o`
is whatever the memory holds. -/
def new (o : Objective) : InstanceBuilder :=
  { inst := { objective := o, itemTypes := [], binTypes := [] } }

/-- `set_objective`, `instance_builder.hpp:19`. -/
def setObjective (b : InstanceBuilder) (o : Objective) : InstanceBuilder :=
  { b with inst := { b.inst with objective := o } }

/-- Update of the parameters. -/
def modifyParameters (b : InstanceBuilder) (f : Parameters → Parameters) : InstanceBuilder :=
  { b with inst := { b.inst with parameters := f b.inst.parameters } }

/-- `set_feasibility_callback`, `instance_builder.hpp:54`. -/
def setCallback (b : InstanceBuilder) (f : List SolutionBin → Bool) : InstanceBuilder :=
  { b with inst := { b.inst with callback := f } }

/-! ## Parameters -/

/-- `resize_cutting_costs`, `instance_builder.cpp:119–126`. -/
def resizeCuttingCosts (p : Parameters) : Parameters :=
  let required := 1 + p.numberOfStages
    + (if p.cutType = .nonExact ∨ p.cutType = .roadef2018 then 1 else 0)
  if (p.cuttingCosts.length : Int) < required then
    { p with cuttingCosts := growTo {} required.toNat p.cuttingCosts }
  else p

/-- `set_number_of_stages`, `instance_builder.cpp:107–111`. -/
def setNumberOfStages (b : InstanceBuilder) (n : Int) : InstanceBuilder :=
  b.modifyParameters fun p => resizeCuttingCosts { p with numberOfStages := n }

/-- `set_cut_type`, `instance_builder.cpp:113–117`. -/
def setCutType (b : InstanceBuilder) (c : CutType) : InstanceBuilder :=
  b.modifyParameters fun p => resizeCuttingCosts { p with cutType := c }

/-- `set_first_stage_orientation`, `instance_builder.hpp:71`. -/
def setFirstStageOrientation (b : InstanceBuilder) (o : CutOrientation) : InstanceBuilder :=
  b.modifyParameters fun p => { p with firstStageOrientation := o }

/-- `set_parameters`, `instance_builder.hpp:51`. -/
def setParameters (b : InstanceBuilder) (p : Parameters) : InstanceBuilder :=
  b.modifyParameters fun _ => p

/-- `set_minimum_distance_1_cuts`, `instance_builder.hpp:73`. -/
def setMinimumDistance1Cuts (b : InstanceBuilder) (n : Int) : InstanceBuilder :=
  b.modifyParameters fun p => { p with minimumDistance1Cuts := n }

/-- `set_maximum_distance_1_cuts`, `instance_builder.hpp:75`. -/
def setMaximumDistance1Cuts (b : InstanceBuilder) (n : Int) : InstanceBuilder :=
  b.modifyParameters fun p => { p with maximumDistance1Cuts := n }

/-- `set_minimum_distance_2_cuts`, `instance_builder.hpp:77`. -/
def setMinimumDistance2Cuts (b : InstanceBuilder) (n : Int) : InstanceBuilder :=
  b.modifyParameters fun p => { p with minimumDistance2Cuts := n }

/-- `set_maximum_distance_2_cuts`, `instance_builder.hpp:79`. -/
def setMaximumDistance2Cuts (b : InstanceBuilder) (n : Int) : InstanceBuilder :=
  b.modifyParameters fun p => { p with maximumDistance2Cuts := n }

/-- `set_minimum_waste_length`, `instance_builder.hpp:81`. -/
def setMinimumWasteLength (b : InstanceBuilder) (n : Int) : InstanceBuilder :=
  b.modifyParameters fun p => { p with minimumWasteLength := n }

/-- `set_maximum_number_1_cuts`, `instance_builder.hpp:83`. -/
def setMaximumNumber1Cuts (b : InstanceBuilder) (n : Int) : InstanceBuilder :=
  b.modifyParameters fun p => { p with maximumNumber1Cuts := n }

/-- `set_maximum_number_2_cuts`, `instance_builder.hpp:85`. -/
def setMaximumNumber2Cuts (b : InstanceBuilder) (n : Int) : InstanceBuilder :=
  b.modifyParameters fun p => { p with maximumNumber2Cuts := n }

/-- `set_cut_thickness`, `instance_builder.hpp:90`. -/
def setCutThickness (b : InstanceBuilder) (n : Int) : InstanceBuilder :=
  b.modifyParameters fun p => { p with cutThickness := n }

/-- `set_waste_cost`, `instance_builder.hpp:114`. -/
def setWasteCost (b : InstanceBuilder) (n : Int) : InstanceBuilder :=
  b.modifyParameters fun p => { p with wasteCost := n }

/-- `set_cut_through_defects`, `instance_builder.hpp:87`. -/
def setCutThroughDefects (b : InstanceBuilder) (c : Bool) : InstanceBuilder :=
  b.modifyParameters fun p => { p with cutThroughDefects := c }

/-- `set_fixed_cutting_cost`, `instance_builder.cpp:128–140`. -/
def setFixedCuttingCost (b : InstanceBuilder) (stage : Int) (c : Int) :
    Except Err InstanceBuilder :=
  if stage < 0 ∨ stage ≥ b.inst.parameters.cuttingCosts.length then .error .invalidArgument
  else .ok (b.modifyParameters fun p => { p with
    cuttingCosts := p.cuttingCosts.modify stage.toNat fun q => { q with fixed := c } })

/-- `set_variable_cutting_cost`, `instance_builder.cpp:142–154`. -/
def setVariableCuttingCost (b : InstanceBuilder) (stage : Int) (c : Int) :
    Except Err InstanceBuilder :=
  if stage < 0 ∨ stage ≥ b.inst.parameters.cuttingCosts.length then .error .invalidArgument
  else .ok (b.modifyParameters fun p => { p with
    cuttingCosts := p.cuttingCosts.modify stage.toNat fun q => { q with perUnit := c } })

/-- `set_number_of_stages_unlimited`, `instance_builder.cpp:156–169`. -/
def setNumberOfStagesUnlimited (b : InstanceBuilder) : InstanceBuilder :=
  let maxStages := b.inst.binTypes.foldl (fun m t => max m (t.w + t.h)) 0
  b.modifyParameters fun p => resizeCuttingCosts { p with
    numberOfStages := maxStages
    cutType := .exact
    firstStageOrientation := .any }

/-- `set_roadef2018`, `instance_builder.cpp:171–182`. -/
def setRoadef2018 (b : InstanceBuilder) : InstanceBuilder :=
  b.modifyParameters fun p => resizeCuttingCosts { p with
    numberOfStages := 3
    cutType := .roadef2018
    firstStageOrientation := .vertical
    minimumDistance1Cuts := 100
    maximumDistance1Cuts := 3500
    minimumDistance2Cuts := 100
    minimumWasteLength := 20
    cutThroughDefects := false }

/-- `set_item_types_oriented`, `instance_builder.cpp:747–754`. -/
def setItemTypesOriented (b : InstanceBuilder) (oriented : Bool) : InstanceBuilder :=
  { b with inst := { b.inst with
    itemTypes := b.inst.itemTypes.map fun t => { t with oriented := oriented } } }

/-- The last character of a predefined set of parameters, `instance_builder.cpp:22–34,91–104`. -/
def setPredefinedOriented (b : InstanceBuilder) (c : Char) : Except Err InstanceBuilder :=
  match c with
  | 'R' => .ok (b.setItemTypesOriented false)
  | 'O' => .ok (b.setItemTypesOriented true)
  | _ => .error .invalidArgument

/-- The second character, `instance_builder.cpp:53–72`. -/
def predefinedCutType (c : Char) : Option CutType :=
  match c with
  | 'R' => some .roadef2018
  | 'N' => some .nonExact
  | 'E' => some .exact
  | 'H' => some .homogenous
  | _ => none

/-- The third character, `instance_builder.cpp:74–90`. -/
def predefinedOrientation (c : Char) : Option CutOrientation :=
  match c with
  | 'V' => some .vertical
  | 'H' => some .horizontal
  | 'A' => some .any
  | _ => none

/-- `set_predefined`, `instance_builder.cpp:12–105`, on a string of ASCII characters; the character
one past the end of a `std::string` is the null character. -/
def setPredefined (b : InstanceBuilder) (str : List Char) : Except Err InstanceBuilder :=
  if str = ['r', 'o', 'a', 'd', 'e', 'f', '2', '0', '1', '8'] then .ok b.setRoadef2018
  else if str.getD 0 '\x00' = 'U' then
    b.setNumberOfStagesUnlimited.setPredefinedOriented (str.getD 1 '\x00')
  else match str with
    | [c0, c1, c2, c3] =>
      let stages := (c0.toNat : Int) - 48
      if stages ≤ 1 then .error .invalidArgument
      else match predefinedCutType c1 with
        | none => .error .invalidArgument
        | some cutType => match predefinedOrientation c2 with
          | none => .error .invalidArgument
          | some o => (((b.setNumberOfStages stages).setCutType cutType).setFirstStageOrientation
              o).setPredefinedOriented c3
    | _ => .error .invalidArgument

/-! ## Bin types -/

/-- Update a bin type after checking its id. -/
def modifyBin (b : InstanceBuilder) (id : Nat) (f : BinType → Except Err BinType) :
    Except Err InstanceBuilder :=
  if id ≥ b.inst.binTypes.length then .error .invalidArgument
  else match f (b.inst.binType id) with
    | .error e => .error e
    | .ok t => .ok { b with inst := { b.inst with binTypes := b.inst.binTypes.set id t } }

/-- Update an item type after checking its id. -/
def modifyItem (b : InstanceBuilder) (id : Nat) (f : ItemType → Except Err ItemType) :
    Except Err InstanceBuilder :=
  if id ≥ b.inst.itemTypes.length then .error .invalidArgument
  else match f (b.inst.itemType id) with
    | .error e => .error e
    | .ok t => .ok { b with inst := { b.inst with itemTypes := b.inst.itemTypes.set id t } }

/-- `add_bin_type(width, height)`, `instance_builder.cpp:188–213`; the new id is the previous
number of bin types. -/
def addBinType (b : InstanceBuilder) (w h : Int) : Except Err InstanceBuilder :=
  if w ≤ 0 then .error .invalidArgument
  else if h ≤ 0 then .error .invalidArgument
  else .ok { b with inst := { b.inst with
    binTypes := b.inst.binTypes ++ [
      { w := w, h := h, cost := ((w * h : Int) : ℚ), copies := 1, copiesMin := 0 }] } }

/-- `set_bin_type_cost`, `instance_builder.cpp:215–235`. -/
def setBinTypeCost (b : InstanceBuilder) (id : Nat) (cost : ℚ) : Except Err InstanceBuilder :=
  b.modifyBin id fun t =>
    if cost ≤ 0 ∧ cost ≠ -1 then .error .invalidArgument
    else .ok { t with cost := if cost = -1 then ((t.w * t.h : Int) : ℚ) else cost }

/-- The trims of a bin type. -/
structure Trims where
  left : Int
  leftType : TrimType
  right : Int
  rightType : TrimType
  bottom : Int
  bottomType : TrimType
  top : Int
  topType : TrimType
deriving DecidableEq, Repr

/-- `add_trims`, `instance_builder.cpp:237–317`. -/
def addTrims (b : InstanceBuilder) (id : Nat) (tr : Trims) : Except Err InstanceBuilder :=
  b.modifyBin id fun t =>
    if tr.bottom < 0 then .error .invalidArgument
    else if tr.bottom ≥ t.h then .error .invalidArgument
    else if tr.top < 0 then .error .invalidArgument
    else if tr.top ≥ t.h - tr.bottom then .error .invalidArgument
    else if tr.left < 0 then .error .invalidArgument
    else if tr.left ≥ t.w then .error .invalidArgument
    else if tr.right < 0 then .error .invalidArgument
    else if tr.right ≥ t.w - tr.left then .error .invalidArgument
    else .ok { t with
      leftTrim := tr.left
      leftTrimType := tr.leftType
      rightTrim := tr.right
      rightTrimType := tr.rightType
      bottomTrim := tr.bottom
      bottomTrimType := tr.bottomType
      topTrim := tr.top
      topTrimType := tr.topType }

/-- `add_defect`, `instance_builder.cpp:319–342` (the rectangle is not checked). -/
def addDefect (b : InstanceBuilder) (id : Nat) (x y w h : Int) : Except Err InstanceBuilder :=
  b.modifyBin id fun t => .ok { t with
    defects := t.defects ++ [{ x := x, y := y, w := w, h := h }] }

/-- `add_bin_type_resource`, `instance_builder.cpp:344–366`. -/
def addBinTypeResource (b : InstanceBuilder) (id : Nat) (capacity : ℚ) (penalize : Bool)
    (penalty : ℚ) : Except Err InstanceBuilder :=
  b.modifyBin id fun t => .ok { t with
    resources := t.resources ++ [
      { capacity := capacity, penalize := penalize, penalty := penalty }] }

/-- `add_resource_consumption`, `instance_builder.cpp:368–405`. -/
def addResourceConsumption (b : InstanceBuilder) (binTypeId resourceId itemTypeId : Nat)
    (itemCopy : Int) (consumption : ℚ) : Except Err InstanceBuilder :=
  b.modifyBin binTypeId fun t =>
    if resourceId ≥ t.resources.length then .error .invalidArgument
    else if itemCopy < 0 then .error .invalidArgument
    else .ok { t with
      resources := t.resources.modify resourceId
        (fun r => r.addConsumption itemTypeId itemCopy.toNat consumption) }

/-- `set_bin_type_copies`, `instance_builder.cpp:454–482`. -/
def setBinTypeCopies (b : InstanceBuilder) (id : Nat) (copies : Int) :
    Except Err InstanceBuilder :=
  b.modifyBin id fun t =>
    if copies ≠ -1 ∧ (copies ≤ 0 ∨ t.copiesMin > copies) then .error .invalidArgument
    else .ok { t with copies := copies }

/-- `set_bin_type_copies_min`, `instance_builder.cpp:484–511`. -/
def setBinTypeCopiesMin (b : InstanceBuilder) (id : Nat) (copiesMin : Int) :
    Except Err InstanceBuilder :=
  b.modifyBin id fun t =>
    if copiesMin < 0 ∨ (t.copies ≠ -1 ∧ copiesMin > t.copies) then .error .invalidArgument
    else .ok { t with copiesMin := copiesMin }

/-- `compute_item_types_max_length_sum`, `instance_builder.cpp:513–523`. -/
def itemTypesMaxLengthSum (inst : Instance) : Int :=
  inst.itemTypes.foldl (fun l t => l + t.copies * max t.w t.h) 0

/-- `set_bin_types_infinite_x`, `instance_builder.cpp:525–533`. -/
def setBinTypesInfiniteX (b : InstanceBuilder) : InstanceBuilder :=
  { b with inst := { b.inst with
    binTypes := b.inst.binTypes.map fun t => { t with w := itemTypesMaxLengthSum b.inst } } }

/-- `set_bin_types_infinite_y`, `instance_builder.cpp:535–543`. -/
def setBinTypesInfiniteY (b : InstanceBuilder) : InstanceBuilder :=
  { b with inst := { b.inst with
    binTypes := b.inst.binTypes.map fun t => { t with h := itemTypesMaxLengthSum b.inst } } }

/-- `set_bin_types_infinite_copies`, `instance_builder.cpp:545–552`. -/
def setBinTypesInfiniteCopies (b : InstanceBuilder) : InstanceBuilder :=
  { b with inst := { b.inst with
    binTypes := b.inst.binTypes.map fun t => { t with copies := -1 } } }

/-- `set_bin_types_unweighted`, `instance_builder.cpp:554–561`. -/
def setBinTypesUnweighted (b : InstanceBuilder) : InstanceBuilder :=
  { b with inst := { b.inst with
    binTypes := b.inst.binTypes.map fun t => { t with cost := (t.area : ℚ) } } }

/-! ## Item types -/

/-- `add_item_type(width, height, oriented, stack_id)`, `instance_builder.cpp:567–596`: zero sides
are accepted. -/
def addItemType (b : InstanceBuilder) (w h : Int) (oriented : Bool) (stackId : Int) :
    Except Err InstanceBuilder :=
  if w < 0 then .error .invalidArgument
  else if h < 0 then .error .invalidArgument
  else .ok { b with inst := { b.inst with
    itemTypes := b.inst.itemTypes ++ [
      { w := w, h := h, profit := ((w * h : Int) : ℚ), copies := 1, copiesMin := -1,
        stackId := stackId, oriented := oriented }] } }

/-- `set_item_type_profit`, `instance_builder.cpp:646–659`. -/
def setItemTypeProfit (b : InstanceBuilder) (id : Nat) (p : ℚ) : Except Err InstanceBuilder :=
  b.modifyItem id fun t => .ok { t with profit := p }

/-- `set_item_type_copies`, `instance_builder.cpp:661–680`. -/
def setItemTypeCopies (b : InstanceBuilder) (id : Nat) (copies : Int) :
    Except Err InstanceBuilder :=
  b.modifyItem id fun t =>
    if copies ≠ -1 ∧ copies ≤ 0 then .error .invalidArgument
    else .ok { t with copies := copies }

/-- `set_item_type_copies_min`, `instance_builder.cpp:682–701`. -/
def setItemTypeCopiesMin (b : InstanceBuilder) (id : Nat) (copiesMin : Int) :
    Except Err InstanceBuilder :=
  b.modifyItem id fun t =>
    if copiesMin < -1 then .error .invalidArgument
    else .ok { t with copiesMin := copiesMin }

/-- `compute_bin_types_area_max`, `instance_builder.cpp:703–714`. -/
def binTypesAreaMax (inst : Instance) : Int :=
  inst.binTypes.foldl (fun m t => max m t.area) 0

/-- `set_item_types_infinite_copies`, `instance_builder.cpp:716–726`; dividing by a zero area is
undefined behaviour. -/
def setItemTypesInfiniteCopies (b : InstanceBuilder) : Except Err InstanceBuilder :=
  if b.inst.itemTypes.any fun t => decide (t.area = 0) then .error .ub
  else .ok { b with inst := { b.inst with
    itemTypes := b.inst.itemTypes.map fun t =>
      { t with copies := (binTypesAreaMax b.inst - 1).tdiv t.area + 1 } } }

/-- `multiply_item_types_copies`, `instance_builder.cpp:728–736`. -/
def multiplyItemTypesCopies (b : InstanceBuilder) (factor : Int) : InstanceBuilder :=
  { b with inst := { b.inst with
    itemTypes := b.inst.itemTypes.map fun t => { t with copies := t.copies * factor } } }

/-- `set_item_types_unweighted`, `instance_builder.cpp:738–745`. -/
def setItemTypesUnweighted (b : InstanceBuilder) : InstanceBuilder :=
  { b with inst := { b.inst with
    itemTypes := b.inst.itemTypes.map fun t => { t with profit := (t.area : ℚ) } } }

/-! ## Copying from another instance -/

/-- The trims of a bin type, as passed to `add_trims`, `instance_builder.cpp:422–431`. -/
def trimsOf (t : BinType) : Trims where
  left := t.leftTrim
  leftType := t.leftTrimType
  right := t.rightTrim
  rightType := t.rightTrimType
  bottom := t.bottomTrim
  bottomType := t.bottomTrimType
  top := t.topTrim
  topType := t.topTrimType

/-- Append every defect in turn, `instance_builder.cpp:432–439`. -/
def addDefects (b : InstanceBuilder) (id : Nat) (ds : List Defect) : Except Err InstanceBuilder :=
  ds.foldlM (fun b d => b.addDefect id d.x d.y d.w d.h) b

/-- Append every resource in turn, without its consumptions, `instance_builder.cpp:440–450`. -/
def addResources (b : InstanceBuilder) (id : Nat) (rs : List Resource) :
    Except Err InstanceBuilder :=
  rs.foldlM (fun b r => b.addBinTypeResource id r.capacity r.penalize r.penalty) b

/-- `add_bin_type(original_instance, original_bin_type_id)`, `instance_builder.cpp:407–452`. -/
def addBinTypeFrom (b : InstanceBuilder) (orig : Instance) (origId : Nat) :
    Except Err InstanceBuilder := do
  if origId ≥ orig.binTypes.length then .error .ub
  else
    let t := orig.binType origId
    let id := b.inst.binTypes.length
    let b ← b.addBinType t.w t.h
    let b := { b with
      origToSubBin := (growTo none (origId + 1) b.origToSubBin).set origId (some id) }
    let b ← b.setBinTypeCost id t.cost
    let b ← b.setBinTypeCopies id t.copies
    let b ← b.setBinTypeCopiesMin id t.copiesMin
    let b ← b.addTrims id (trimsOf t)
    let b ← b.addDefects id t.defects
    b.addResources id t.resources

/-- The innermost loop of `add_item_type(original_instance, …)`, `instance_builder.cpp:631–640`:
write a schedule copy by copy. -/
def writeSchedule (b : InstanceBuilder) (binTypeId resourceId itemTypeId : Nat)
    (schedule : List ℚ) : Except Err InstanceBuilder :=
  (List.range schedule.length).foldlM
    (fun b (c : Nat) => b.addResourceConsumption binTypeId resourceId itemTypeId c
      (schedule.getD c 0)) b

/-- The consumption-copying loops, `instance_builder.cpp:612–642`. -/
def copyConsumptions (b : InstanceBuilder) (orig : Instance) (origItemId itemId : Nat) :
    Except Err InstanceBuilder :=
  (List.range b.origToSubBin.length).foldlM
    (fun b origBinId =>
      match b.origToSubBin.getD origBinId none with
      | none => .ok b
      | some subBinId =>
        if origBinId ≥ orig.binTypes.length then .error .ub
        else
          let t := orig.binType origBinId
          (List.range t.resources.length).foldlM
            (fun b r =>
              let ic := (t.resources.getD r {}).itemConsumptions
              if origItemId ≥ ic.length then .ok b
              else b.writeSchedule subBinId r itemId (ic.getD origItemId []))
            b)
    b

/-- `add_item_type(original_instance, original_item_type_id)`, `instance_builder.cpp:598–644`. -/
def addItemTypeFrom (b : InstanceBuilder) (orig : Instance) (origId : Nat) :
    Except Err InstanceBuilder := do
  if origId ≥ orig.itemTypes.length then .error .ub
  else
    let t := orig.itemType origId
    let id := b.inst.itemTypes.length
    let b ← b.addItemType t.w t.h t.oriented t.stackId
    let b := { b with
      origToSubItem := (growTo none (origId + 1) b.origToSubItem).set origId (some id) }
    let b ← b.setItemTypeProfit id t.profit
    let b ← b.setItemTypeCopies id t.copies
    b.copyConsumptions orig origId id

/-! ## `build_stacks` -/

/-- `for (ItemPos c = 0; c < copies; ++c) item_type_ids_[offset + c] = item_type_id`,
`instance_builder.cpp:1358–1359,1381–1382`; addressing outside of the array is undefined. -/
def writeCopies (ids : List Nat) (offset copies : Int) (id : Nat) : Except Err (List Nat) :=
  (List.range copies.toNat).foldlM
    (fun ids (c : Nat) =>
      if 0 ≤ offset + c ∧ offset + c < ids.length then .ok (ids.set (offset + c).toNat id)
      else .error .ub) ids

/-- `n_stacks`, `instance_builder.cpp:1328–1333`. -/
def numberOfNamedStacks (its : List ItemType) : Int :=
  its.foldl (fun n t => max n (t.stackId + 1)) 0

/-- `stack_sizes`, `instance_builder.cpp:1334–1340`. -/
def stackSizes (its : List ItemType) : List Int :=
  its.foldl (fun sizes t => sizes.modify t.stackId.toNat (· + t.copies))
    (List.replicate (numberOfNamedStacks its).toNat 0)

/-- `stack_offsets_`, `instance_builder.cpp:1341–1347`. -/
def prefixOffsets (sizes : List Int) : List Int :=
  (List.range sizes.length).foldl
    (fun offs s => offs.set (s + 1) (offs.getD s 0 + sizes.getD s 0))
    (List.replicate (sizes.length + 1) 0)

/-- State of the filling loop: item types, `item_type_ids_` and `write_pos`. -/
structure Fill where
  its : List ItemType
  ids : List Nat
  writePos : List Int
deriving DecidableEq, Repr

/-- One iteration of the filling loop, `instance_builder.cpp:1349–1361`. -/
def fillNamed (offsets : List Int) (st : Fill) (id : Nat) : Except Err Fill := do
  let t := st.its.getD id default
  let s := t.stackId.toNat
  let pos := st.writePos.getD s 0
  let ids ← writeCopies st.ids (offsets.getD s 0 + pos) t.copies id
  .ok { its := st.its.set id { t with stackPos := pos }
        ids := ids
        writePos := st.writePos.set s (pos + t.copies) }

/-- `item_type_ids_.resize(n)`: a negative `n` is converted to a huge unsigned number and
`std::length_error` (a `std::logic_error`) is thrown. -/
def resizeIds (n : Int) : Except Err (List Nat) :=
  if n < 0 then .error .logicError else .ok (List.replicate n.toNat 0)

/-- The branch for named stacks of `build_stacks`, `instance_builder.cpp:1326–1361`. -/
def buildNamedStacks (inst : Instance) : Except Err Instance := do
  let offsets := prefixOffsets (stackSizes inst.itemTypes)
  let ids ← resizeIds (offsets.getD (stackSizes inst.itemTypes).length 0)
  let st ← (List.range inst.itemTypes.length).foldlM (fillNamed offsets)
    { its := inst.itemTypes
      ids := ids
      writePos := List.replicate (stackSizes inst.itemTypes).length 0 }
  .ok { inst with itemTypes := st.its, itemTypeIds := st.ids, stackOffsets := offsets }

/-- First loop of the branch for unnamed stacks, `instance_builder.cpp:1366–1374`: item types,
`stack_offsets_` and `total_copies`. -/
def ownStack (st : List ItemType × List Int × Int) (id : Nat) : List ItemType × List Int × Int :=
  let t := st.1.getD id default
  (st.1.set id { t with stackId := (id : Int), stackPos := 0 },
    st.2.1.set id st.2.2, st.2.2 + t.copies)

/-- The branch for unnamed stacks of `build_stacks`, `instance_builder.cpp:1362–1385`. -/
def buildOwnStacks (inst : Instance) : Except Err Instance := do
  let n := inst.itemTypes.length
  let st := (List.range n).foldl ownStack (inst.itemTypes, List.replicate (n + 1) 0, 0)
  let offsets := st.2.1.set n st.2.2
  let ids ← resizeIds st.2.2
  let r ← (List.range n).foldlM
    (fun (r : List Nat × Int) id => do
      let t := st.1.getD id default
      let ids ← writeCopies r.1 r.2 t.copies id
      .ok (ids, r.2 + t.copies)) (ids, 0)
  .ok { inst with itemTypes := st.1, itemTypeIds := r.1, stackOffsets := offsets }

/-- `build_stacks`, `instance_builder.cpp:1304–1386`. -/
def buildStacks (inst : Instance) : Except Err Instance :=
  let anyNamed := inst.itemTypes.any fun t => decide (t.stackId ≥ 0)
  let anyUnnamed := inst.itemTypes.any fun t => !decide (t.stackId ≥ 0)
  if anyNamed && anyUnnamed then .error .invalidArgument
  else if anyNamed then buildNamedStacks inst
  else buildOwnStacks inst

/-! ## `build` -/

/-- The checks of the parameters, `instance_builder.cpp:1390–1420`. -/
def checkParameters (p : Parameters) : Except Err Unit :=
  if p.numberOfStages = 2 ∧ p.minimumDistance2Cuts ≠ 0 then .error .invalidArgument
  else if p.numberOfStages = 2 ∧ p.maximumDistance2Cuts ≠ -1 then .error .invalidArgument
  else if p.numberOfStages = 2 ∧ p.maximumNumber2Cuts ≠ -1 then .error .invalidArgument
  else if p.maximumNumber1Cuts = 0 then .error .invalidArgument
  else if p.maximumNumber2Cuts = 0 then .error .invalidArgument
  else .ok ()

/-- Whether item type `t` is less efficient than `u`; the code divides doubles.  Division by zero
gives an infinity or NaN in C++; the model of `build` stops with undefined behaviour on a zero
area (the integer division at line 1462 is reached in the same iteration). -/
def lessEfficient (t u : ItemType) : Bool :=
  decide (t.profit / (t.area : ℚ) < u.profit / (u.area : ℚ))

/-- Resolution of an item type's `copies_min`, `instance_builder.cpp:1433–1437`. -/
def resolveItem (o : Objective) (t : ItemType) : ItemType :=
  if t.copiesMin = -1 then { t with copiesMin := if o = .knapsack then 0 else t.copies } else t

/-- One iteration of the item loop, `instance_builder.cpp:1428–1471`. -/
def buildItem (areaMax : Int) (inst : Instance) (id : Nat) : Except Err Instance :=
  let t := resolveItem inst.objective (inst.itemType id)
  if t.copiesMin > t.copies then .error .invalidArgument
  else if t.area = 0 then .error .ub
  else
    let c := (areaMax - 1).tdiv t.area + 1
    .ok { inst with
      itemTypes := inst.itemTypes.set id t
      numberOfItems := inst.numberOfItems + t.copies
      itemProfit := inst.itemProfit + (t.copies : ℚ) * t.profit
      largestItemProfit := max inst.largestItemProfit t.profit
      itemArea := inst.itemArea + t.copies * t.area
      largestEfficiencyItemTypeId :=
        if inst.largestEfficiencyItemTypeId = -1
            ∨ lessEfficient (inst.itemType inst.largestEfficiencyItemTypeId.toNat) t then (id : Int)
        else inst.largestEfficiencyItemTypeId
      allItemTypesInfiniteCopies :=
        inst.allItemTypesInfiniteCopies && !decide (t.copies < c)
      largestItemCopies :=
        if inst.largestItemCopies < t.copies then t.copies else inst.largestItemCopies
      allItemTypesOriented := inst.allItemTypesOriented && t.oriented }

/-- Resolution of a bin type's `copies`, `instance_builder.cpp:1480–1482`. -/
def resolveBin (numberOfItems : Int) (t : BinType) : BinType :=
  if t.copies = -1 then { t with copies := numberOfItems } else t

/-- One iteration of the bin loop, `instance_builder.cpp:1476–1496`; the second component is
`previous_bins_area`.  A negative number of copies runs the inner loop zero times. -/
def buildBin (st : Instance × Int) (id : Nat) : Instance × Int :=
  let inst := st.1
  let t := resolveBin inst.numberOfItems (inst.binType id)
  let n := t.copies.toNat
  ({ inst with
    binTypes := inst.binTypes.set id t
    binArea := inst.binArea + t.copies * t.area
    binTypeIds := inst.binTypeIds ++ List.replicate n id
    previousBinsArea := inst.previousBinsArea
      ++ (List.range n).map (fun (k : Nat) => st.2 + (k : Int) * t.area)
    largestBinCost :=
      if inst.largestBinCost < t.cost then t.cost else inst.largestBinCost
    numberOfDefects := inst.numberOfDefects + t.defects.length },
    st.2 + (n : Int) * t.area)

/-- One `push_back` of `instance_builder.cpp:1516–1517`: item types are addressed without a bound
check. -/
def pushResourceId (binTypeId resourceId : Nat) (its : List ItemType) (itemTypeId : Nat) :
    Except Err (List ItemType) :=
  if itemTypeId < its.length then
    .ok (its.modify itemTypeId
      (fun t => { t with resourceIds := t.resourceIds.modify binTypeId (· ++ [resourceId]) }))
  else .error .ub

/-- `item_type.resource_ids`, `instance_builder.cpp:1498–1521`. -/
def computeResourceIds (inst : Instance) : Except Err Instance := do
  let its := inst.itemTypes.map fun t =>
    { t with resourceIds := growTo [] inst.binTypes.length t.resourceIds }
  let its ← (List.range inst.binTypes.length).foldlM
    (fun its b => (List.range (inst.binType b).resources.length).foldlM
      (fun its r =>
        let ic := ((inst.binType b).resources.getD r {}).itemConsumptions
        (List.range ic.length).foldlM
          (fun its i => if ic.getD i [] = [] then .ok its else pushResourceId b r its i) its)
      its) its
  .ok { inst with itemTypes := its }

/-- The checks of the open dimension objectives, `instance_builder.cpp:1523–1536`. -/
def checkOpenDimension (inst : Instance) : Except Err Unit :=
  if inst.objective = .openDimensionX ∧ inst.numberOfBins ≠ 1 then .error .invalidArgument
  else if inst.objective = .openDimensionY ∧ inst.numberOfBins ≠ 1 then .error .invalidArgument
  else .ok ()

/-- `copies_fixed`, `instance_builder.cpp:1538–1554`; no call of the builder adds fixed items. -/
def computeCopiesFixed (inst : Instance) : Except Err Instance := do
  let its ← inst.binTypes.foldlM
    (fun its t =>
      if t.fixedItems ≠ [] ∧ t.copiesMin ≠ t.copies then .error Err.invalidArgument
      else t.fixedItems.foldlM
        (fun its i =>
          if i < its.length then
            .ok (its.modify i
              (fun it : ItemType => { it with copiesFixed := it.copiesFixed + t.copies }))
          else .error .ub) its)
    inst.itemTypes
  .ok { inst with itemTypes := its }

/-- `InstanceBuilder::build`, `instance_builder.cpp:1388–1557`. -/
def build (b : InstanceBuilder) : Except Err Instance := do
  checkParameters b.inst.parameters
  let inst ← buildStacks b.inst
  let inst := { inst with
    allItemTypesInfiniteCopies := true
    allItemTypesOriented := true }
  let inst ← (List.range inst.itemTypes.length).foldlM (buildItem (binTypesAreaMax inst)) inst
  let inst := { inst with binArea := 0 }
  let inst := ((List.range inst.binTypes.length).foldl buildBin (inst, 0)).1
  let inst ← computeResourceIds inst
  checkOpenDimension inst
  computeCopiesFixed inst

/-! ## Histories of calls -/

/-- The public operations of the builder. -/
inductive BuilderOp where
  | setObjective (o : Objective)
  | setParameters (p : Parameters)
  | setFirstStageOrientation (o : CutOrientation)
  | setMinimumDistance1Cuts (n : Int)
  | setMaximumDistance1Cuts (n : Int)
  | setMinimumDistance2Cuts (n : Int)
  | setMaximumDistance2Cuts (n : Int)
  | setMinimumWasteLength (n : Int)
  | setMaximumNumber1Cuts (n : Int)
  | setMaximumNumber2Cuts (n : Int)
  | setCutThickness (n : Int)
  | setWasteCost (n : Int)
  | setCutThroughDefects (c : Bool)
  | setCallback (f : List SolutionBin → Bool)
  | setNumberOfStages (n : Int)
  | setNumberOfStagesUnlimited
  | setCutType (c : CutType)
  | setFixedCuttingCost (stage c : Int)
  | setVariableCuttingCost (stage c : Int)
  | setRoadef2018
  | setPredefined (str : List Char)
  | addBinType (w h : Int)
  | setBinTypeCost (id : Nat) (cost : ℚ)
  | addTrims (id : Nat) (tr : Trims)
  | addDefect (id : Nat) (x y w h : Int)
  | addBinTypeResource (id : Nat) (capacity : ℚ) (penalize : Bool) (penalty : ℚ)
  | addResourceConsumption (binTypeId resourceId itemTypeId : Nat) (copy : Int) (q : ℚ)
  | setBinTypeCopies (id : Nat) (copies : Int)
  | setBinTypeCopiesMin (id : Nat) (copiesMin : Int)
  | setBinTypesInfiniteX
  | setBinTypesInfiniteY
  | setBinTypesInfiniteCopies
  | setBinTypesUnweighted
  | addItemType (w h : Int) (oriented : Bool) (stackId : Int)
  | setItemTypeProfit (id : Nat) (p : ℚ)
  | setItemTypeCopies (id : Nat) (copies : Int)
  | setItemTypeCopiesMin (id : Nat) (copiesMin : Int)
  | setItemTypesUnweighted
  | setItemTypesOriented (oriented : Bool)
  | setItemTypesInfiniteCopies
  | multiplyItemTypesCopies (factor : Int)
  | addBinTypeFrom (orig : Instance) (id : Nat)
  | addItemTypeFrom (orig : Instance) (id : Nat)

/-- Run one operation. -/
def step (b : InstanceBuilder) : BuilderOp → Except Err InstanceBuilder
  | .setObjective o => .ok (b.setObjective o)
  | .setParameters p => .ok (b.setParameters p)
  | .setFirstStageOrientation o => .ok (b.setFirstStageOrientation o)
  | .setMinimumDistance1Cuts n => .ok (b.setMinimumDistance1Cuts n)
  | .setMaximumDistance1Cuts n => .ok (b.setMaximumDistance1Cuts n)
  | .setMinimumDistance2Cuts n => .ok (b.setMinimumDistance2Cuts n)
  | .setMaximumDistance2Cuts n => .ok (b.setMaximumDistance2Cuts n)
  | .setMinimumWasteLength n => .ok (b.setMinimumWasteLength n)
  | .setMaximumNumber1Cuts n => .ok (b.setMaximumNumber1Cuts n)
  | .setMaximumNumber2Cuts n => .ok (b.setMaximumNumber2Cuts n)
  | .setCutThickness n => .ok (b.setCutThickness n)
  | .setWasteCost n => .ok (b.setWasteCost n)
  | .setCutThroughDefects c => .ok (b.setCutThroughDefects c)
  | .setCallback f => .ok (b.setCallback f)
  | .setNumberOfStages n => .ok (b.setNumberOfStages n)
  | .setNumberOfStagesUnlimited => .ok b.setNumberOfStagesUnlimited
  | .setCutType c => .ok (b.setCutType c)
  | .setFixedCuttingCost s c => b.setFixedCuttingCost s c
  | .setVariableCuttingCost s c => b.setVariableCuttingCost s c
  | .setRoadef2018 => .ok b.setRoadef2018
  | .setPredefined str => b.setPredefined str
  | .addBinType w h => b.addBinType w h
  | .setBinTypeCost i c => b.setBinTypeCost i c
  | .addTrims i tr => b.addTrims i tr
  | .addDefect i x y w h => b.addDefect i x y w h
  | .addBinTypeResource i c p q => b.addBinTypeResource i c p q
  | .addResourceConsumption t r i c q => b.addResourceConsumption t r i c q
  | .setBinTypeCopies i c => b.setBinTypeCopies i c
  | .setBinTypeCopiesMin i c => b.setBinTypeCopiesMin i c
  | .setBinTypesInfiniteX => .ok b.setBinTypesInfiniteX
  | .setBinTypesInfiniteY => .ok b.setBinTypesInfiniteY
  | .setBinTypesInfiniteCopies => .ok b.setBinTypesInfiniteCopies
  | .setBinTypesUnweighted => .ok b.setBinTypesUnweighted
  | .addItemType w h o s => b.addItemType w h o s
  | .setItemTypeProfit i p => b.setItemTypeProfit i p
  | .setItemTypeCopies i c => b.setItemTypeCopies i c
  | .setItemTypeCopiesMin i c => b.setItemTypeCopiesMin i c
  | .setItemTypesUnweighted => .ok b.setItemTypesUnweighted
  | .setItemTypesOriented o => .ok (b.setItemTypesOriented o)
  | .setItemTypesInfiniteCopies => b.setItemTypesInfiniteCopies
  | .multiplyItemTypesCopies f => .ok (b.multiplyItemTypesCopies f)
  | .addBinTypeFrom o i => b.addBinTypeFrom o i
  | .addItemTypeFrom o i => b.addItemTypeFrom o i

/-- A caller's whole use of the builder; `o` is the uninitialised objective. -/
def runOps (o : Objective) (ops : List BuilderOp) : Except Err Instance := do
  let b ← ops.foldlM step (new o)
  b.build

end InstanceBuilder

end PackingSolver.Guil
