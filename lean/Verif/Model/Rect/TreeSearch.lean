import Verif.Model.Rect.Flipper
import Mathlib.Data.List.Sort

/-!
# Branching scheme for rectangles

Models `src/rectangle/tree_search.cpp` and `src/rectangle/tree_search.hpp`: the nodes, the
insertions offered in a node, the child of a node, and the comparisons used by the search.  The
fields that only guide the search (`weight_profit`, `guide_item_area`,
`guide_item_pseudo_profit`, `guide_profit`, `group_score`, `id`) and the guides are not modelled:
the property theorems hold whatever nodes the search chooses to expand.  The chain of parent
pointers is the list of the fields that `to_solution` reads, oldest first.  Ids and positions are
natural numbers (`none` for `-1`).
-/

namespace PackingSolver.Rect.TreeSearch

/-- `enum class Direction`, `rectangle/instance.hpp:14`. -/
inductive Direction where
  | x | y | any
deriving DecidableEq, Repr

/-- `struct UncoveredItem`, `tree_search.hpp:29–49`. -/
structure UncoveredItem where
  itemTypeId : Option Nat
  xs : Int
  xe : Int
  xeDominance : Int
  ys : Int
  ye : Int
deriving DecidableEq, Repr

instance : Inhabited UncoveredItem := ⟨⟨none, 0, 0, 0, 0, 0⟩⟩

/-- `struct Insertion`, `tree_search.hpp:51–92`. -/
structure Insertion where
  itemTypeId : Nat
  rotate : Bool
  /-- 0: last bin; 1: new bin, direction X; 2: new bin, direction Y. -/
  newBin : Nat
  x : Int
  y : Int
  newBinPos : Option Nat := none
deriving DecidableEq, Repr

/-- `struct NodeGroup`, `tree_search.hpp:94–133`. -/
structure NodeGroup where
  numberOfItems : Int := 0
  xMin : Int := 0
  xMax : Int := 0
  lastBinWeight : ℚ := 0
  lastBinWeightWeightedSum : ℚ := 0
  lastBinMiddleAxleWeight : ℚ := 0
  lastBinRearAxleWeight : ℚ := 0
deriving DecidableEq, Repr

/-- What `to_solution` reads of a node and its ancestors. -/
structure Step where
  itemTypeId : Nat
  rotate : Bool
  x : Int
  y : Int
  direction : Direction
  numberOfBins : Nat
deriving DecidableEq, Repr

/-- `struct Node`, `tree_search.hpp:138–246`. -/
structure Node where
  /-- This node and its ancestors except the root, oldest first. -/
  steps : List Step := []
  lastBinDirection : Direction := .x
  uncoveredItems : List UncoveredItem := []
  itemNumberOfCopies : List Int := []
  numberOfBins : Nat := 0
  numberOfItems : Int := 0
  itemArea : Int := 0
  itemWeight : ℚ := 0
  currentArea : Int := 0
  waste : Int := 0
  leftoverValue : Int := 0
  guideArea : Int := 0
  xeMax : Int := 0
  yeMax : Int := 0
  xsMax : Int := 0
  profit : ℚ := 0
  groups : List NodeGroup := []
  middleAxleOverweight : ℚ := 0
  rearAxleOverweight : ℚ := 0
  lastBinItemNumberOfCopies : List Nat := []
  lastBinResourceConsumption : List ℚ := []
deriving DecidableEq, Repr

/-- `struct Parameters`, `tree_search.hpp:248–293` (without the group guiding strategy). -/
structure Parameters where
  guideId : Nat := 0
  direction : Direction := .x
  staircase : Bool := false
  predecessorStrategy : Nat := 0
  fixedItems : Option Solution := none

/-- `class BranchingScheme`, `tree_search.hpp:490–520`: the private attributes. -/
structure Scheme where
  inst : Instance
  flipped : Instance
  parameters : Parameters
  binTypeIds : List Nat
  previousBinsArea : List Int
  predecessors : List (List Nat)
  predecessors1 : List (List Nat)
  predecessors2 : List (List Nat)
  root : Option Node := none

namespace Scheme

/-- `instance(Direction)`, `tree_search.hpp:544`. -/
def instanceOf (s : Scheme) (d : Direction) : Instance :=
  if d = .x then s.inst else s.flipped

/-- `instance(int new_bin)`, `tree_search.hpp:546`. -/
def instanceOfNewBin (s : Scheme) (newBin : Nat) : Instance :=
  if newBin % 2 = 1 then s.inst else s.flipped

/-- The direction of a new bin. -/
def newBinDirection (newBin : Nat) : Direction := if newBin = 1 then .x else .y

end Scheme

/-! ## Child of a node -/

/-- `node.uncovered_items` and `new_uncovered_item_pos` in a new bin, `tree_search.cpp:225–259`. -/
def newBinSkyline (item : Nat) (xs xe ys ye yi : Int) : List UncoveredItem × Option Nat :=
  let below : List UncoveredItem := if ys > 0 then [⟨none, 0, 0, 0, 0, ys⟩] else []
  let above : List UncoveredItem := if ye < yi then [⟨none, 0, 0, 0, ye, yi⟩] else []
  (below ++ [⟨some item, xs, xe, xe, ys, ye⟩] ++ above, some below.length)

/-- One iteration of the loop over the parent's uncovered items, `tree_search.cpp:261–299`. -/
def sameBinStep (new : UncoveredItem) (st : List UncoveredItem × Option Nat)
    (u : UncoveredItem) : List UncoveredItem × Option Nat :=
  if u.ye ≤ new.ys then (st.1 ++ [u], st.2)
  else if u.ys ≤ new.ys then
    let left := if u.ys < new.ys then st.1 ++ [{ u with ye := new.ys }] else st.1
    let right := if u.ye > new.ye then [{ u with ys := new.ye }] else []
    (left ++ [new] ++ right, some left.length)
  else if u.ys ≥ new.ye then (st.1 ++ [u], st.2)
  else if u.ye > new.ye then (st.1 ++ [{ u with ys := new.ye }], st.2)
  else st

/-- `node.uncovered_items` and `new_uncovered_item_pos` in the same bin,
`tree_search.cpp:260–300`. -/
def sameBinSkyline (us : List UncoveredItem) (new : UncoveredItem) :
    List UncoveredItem × Option Nat :=
  us.foldl (sameBinStep new) ([], none)

/-- Update of `xe_dominance`, `tree_search.cpp:302–325`. -/
def updateDominance (us : List UncoveredItem) (pos : Nat) (yi smallestHeight : Int) :
    List UncoveredItem :=
  let new := us.getD pos default
  let raise (u : UncoveredItem) : UncoveredItem :=
    { u with xeDominance := max u.xeDominance new.xeDominance }
  let us := if yi - new.ye < smallestHeight
    then us.mapIdx fun k u => if k > pos then raise u else u else us
  if new.ys < smallestHeight then us.mapIdx fun k u => if k < pos then raise u else u else us

/-- State of the resource loops. -/
structure ResourceState where
  consumption : List ℚ
  profit : ℚ

/-- One iteration of the resource loop in a new bin, `tree_search.cpp:354–362`. -/
def newBinResourceStep (bt : BinType) (item : Nat) (st : ResourceState) (r : Nat) :
    ResourceState :=
  let resource := bt.resources.getD r {}
  let c := resource.itemConsumption item 0
  { consumption := st.consumption.set r c
    profit := if resource.penalize && decide (c > resource.capacity)
      then st.profit - resource.penalty else st.profit }

/-- One iteration of the resource loop in the same bin, `tree_search.cpp:368–378`. -/
def sameBinResourceStep (bt : BinType) (item copy : Nat) (st : ResourceState) (r : Nat) :
    ResourceState :=
  let resource := bt.resources.getD r {}
  let previous := st.consumption.getD r 0
  let consumption := addAtQ st.consumption r (resource.itemConsumption item copy)
  { consumption := consumption
    profit := if resource.penalize && decide (consumption.getD r 0 > resource.capacity)
        && decide (previous ≤ resource.capacity)
      then st.profit - resource.penalty else st.profit }

/-- `last_bin_item_number_of_copies`, `last_bin_resource_consumption` and the penalties in
`profit`, `tree_search.cpp:337–382`. -/
def childResources (inst : Instance) (bt : BinType) (bin item : Nat) (newBin : Bool)
    (parent : Node) (profit : ℚ) : List Nat × ResourceState :=
  if bt.resources.length > 0 then
    if newBin then
      let st := ((inst.itemType item).resourceIds.getD bin []).foldl
        (newBinResourceStep bt item) ⟨List.replicate bt.resources.length 0, profit⟩
      ((List.replicate inst.numberOfItemTypes 0).set item 1, st)
    else
      let copy := parent.lastBinItemNumberOfCopies.getD item 0
      let st := ((inst.itemType item).resourceIds.getD bin []).foldl
        (sameBinResourceStep bt item copy) ⟨parent.lastBinResourceConsumption, profit⟩
      (parent.lastBinItemNumberOfCopies.modify item (· + 1), st)
  else ([], ⟨[], profit⟩)

/-- `groups`, reset in a new bin, then the weights of the item, `tree_search.cpp:400–412`. -/
def childGroupWeights (parent : Node) (newBin : Bool) (itemType : ItemType) (xs xe : Int) :
    List NodeGroup :=
  parent.groups.mapIdx fun g group =>
    let group := if newBin then { group with lastBinWeight := 0, lastBinWeightWeightedSum := 0 }
      else group
    if g ≤ itemType.groupId then { group with
        lastBinWeight := group.lastBinWeight + itemType.weight
        lastBinWeightWeightedSum := group.lastBinWeightWeightedSum + moment xs xe itemType.weight }
    else group

/-- State of the loop over the groups computing the axle weights. -/
structure AxleState where
  groups : List NodeGroup
  middle : ℚ := 0
  rear : ℚ := 0

/-- One iteration of the loop over the groups, `tree_search.cpp:414–425`. -/
def axleStep (inst : Instance) (bt : BinType) (st : AxleState) (g : Nat) : AxleState :=
  let group := st.groups.getD g {}
  if !inst.checkWeightConstraints g then st
  else if group.lastBinWeight = 0 then st
  else
    let axle := bt.truck.computeAxleWeights group.lastBinWeightWeightedSum group.lastBinWeight
    { groups := st.groups.set g { group with
        lastBinMiddleAxleWeight := axle.1, lastBinRearAxleWeight := axle.2 }
      middle := if ExtQ.exceeded axle.1 bt.truck.middleAxleMaximumWeight
        then st.middle + ExtQ.overweight axle.1 bt.truck.middleAxleMaximumWeight else st.middle
      rear := if ExtQ.exceeded axle.2 bt.truck.rearAxleMaximumWeight
        then st.rear + ExtQ.overweight axle.2 bt.truck.rearAxleMaximumWeight else st.rear }

/-- State of the loop over the uncovered items, from the last one to the first. -/
structure AreaState where
  x : Int := 0
  currentArea : Int
  guideArea : Int
  xeMax : Int := 0
  yeMax : Int

/-- One iteration of the loop over the uncovered items, `tree_search.cpp:435–448`. -/
def areaStep (staircase : Bool) (xsMax : Int) (st : AreaState) (u : UncoveredItem) : AreaState :=
  let x := if staircase then max st.x u.xe else u.xe
  { x := x
    currentArea := st.currentArea + x * (u.ye - u.ys)
    guideArea := if x > xsMax then st.guideArea + (x - xsMax) * (u.ye - u.ys) else st.guideArea
    xeMax := if st.xeMax < x then x else st.xeMax
    yeMax := if u.xe > 0 ∧ st.yeMax < u.ye then u.ye else st.yeMax }

/-- Whether a remaining item is found to fit somewhere, `tree_search.cpp:472–491`.  `yj` is the
height of the item just inserted: the loop declares a new `xj`, but its `yj` is only declared in
the inner block of lines 475–479. -/
def remainingItemFits (it : ItemType) (us : List UncoveredItem) (xi yi yj : Int) : Bool :=
  let xj := if !it.oriented && decide (it.x > it.y) then it.y else it.x
  us.any fun u =>
    decide (u.ys + yj ≤ yi ∧ u.xe + xj ≤ xi)
      || (!it.oriented && decide (u.ys + xj ≤ yi ∧ u.xe + yj ≤ xi))

/-- The loop trying to detect that an extra bin is required, `tree_search.cpp:466–502`: the waste
after the first remaining item found not to fit. -/
def extraBinWaste (inst : Instance) (copies : List Int) (us : List UncoveredItem)
    (xi yi yj nextPreviousArea waste : Int) : Nat → List ItemType → Int
  | _, [] => waste
  | i, it :: rest =>
    if copies.getD i 0 = it.copies then
      extraBinWaste inst copies us xi yi yj nextPreviousArea waste (i + 1) rest
    else if remainingItemFits it us xi yi yj then
      extraBinWaste inst copies us xi yi yj nextPreviousArea waste (i + 1) rest
    else
      let xj := if !it.oriented && decide (it.x > it.y) then it.y else it.x
      let xj := if !it.oriented && decide (xj > yj) then yj else xj
      max waste (nextPreviousArea + xj * yi - inst.itemArea)

/-- `groups[group_id].x_min`, `x_max` and `number_of_items`, `tree_search.cpp:551–557`. -/
def childGroupBounds (inst : Instance) (groups : List NodeGroup) (g : Nat) (x : Int) :
    List NodeGroup :=
  groups.modify g fun group =>
    let group := if inst.parameters.unloadingConstraint = .increasingX then
        { group with
          xMin := if group.xMin > x then x else group.xMin
          xMax := if group.xMax < x then x else group.xMax }
      else group
    { group with numberOfItems := group.numberOfItems + 1 }

/-- `child_tmp`, `tree_search.cpp:181–561`.  Reading `bin_type_ids_`, `previous_bins_area_` or
`uncovered_items` out of range is undefined behaviour; a negative waste is reported with a
`runtime_error`. -/
def child (s : Scheme) (parent : Node) (ins : Insertion) : Except Err Node :=
  let newBin : Bool := decide (ins.newBin > 0)
  let numberOfBins := if newBin then
      (match ins.newBinPos with
        | some p => p + 1
        | none => parent.numberOfBins + 1)
    else parent.numberOfBins
  let direction := if newBin then Scheme.newBinDirection ins.newBin else parent.lastBinDirection
  let inst := s.instanceOf direction
  if numberOfBins = 0 ∨ numberOfBins > s.binTypeIds.length
      ∨ ins.itemTypeId ≥ inst.numberOfItemTypes then .error .ub
  else
  let binPos := numberOfBins - 1
  let bin := s.binTypeIds.getD binPos 0
  let bt := inst.binType bin
  let it := inst.itemType ins.itemTypeId
  let xj := it.width ins.rotate
  let yj := it.height ins.rotate
  let xe := ins.x + xj
  let ye := ins.y + yj
  let sky := if newBin then newBinSkyline ins.itemTypeId ins.x xe ins.y ye bt.y
    else sameBinSkyline parent.uncoveredItems ⟨some ins.itemTypeId, ins.x, xe, xe, ins.y, ye⟩
  match sky.2 with
  | none => .error .ub
  | some pos =>
    let us := updateDominance sky.1 pos bt.y inst.smallestItemHeight
    let copies := addAt parent.itemNumberOfCopies ins.itemTypeId 1
    let numberOfItems := parent.numberOfItems + 1
    let itemArea := parent.itemArea + it.area
    let res := childResources inst bt bin ins.itemTypeId newBin parent (parent.profit + it.profit)
    let axle := (List.range inst.numberOfGroups).foldl (axleStep inst bt)
      { groups := childGroupWeights parent newBin it ins.x xe }
    let xsMax := if newBin then ins.x else max parent.xsMax ins.x
    let previous := s.previousBinsArea.getD binPos 0
    let area := us.reverse.foldl (areaStep s.parameters.staircase xsMax)
      { currentArea := previous
        guideArea := previous + xsMax * bt.y
        yeMax := if newBin then 0 else parent.yeMax }
    let currentArea := if numberOfItems = inst.numberOfItems then previous + area.xeMax * bt.y
      else area.currentArea
    let waste := max (currentArea - itemArea) (previous + area.xeMax * bt.y - inst.itemArea)
    let waste :=
      if numberOfBins < inst.numberOfBins ∧ inst.itemArea - itemArea < bt.area then
        extraBinWaste inst copies us bt.x bt.y yj (s.previousBinsArea.getD (binPos + 1) 0) waste 0
          inst.itemTypes
      else waste
    if waste < 0 then .error .runtimeError
    else .ok {
      steps := parent.steps ++ [⟨ins.itemTypeId, ins.rotate, ins.x, ins.y, direction,
        numberOfBins⟩]
      lastBinDirection := direction
      uncoveredItems := us
      itemNumberOfCopies := copies
      numberOfBins := numberOfBins
      numberOfItems := numberOfItems
      itemArea := itemArea
      itemWeight := parent.itemWeight + it.weight
      currentArea := currentArea
      waste := waste
      leftoverValue := match inst.parameters.leftoverMode with
        | .area => bt.area - area.xeMax * area.yeMax
        | _ => bt.x - area.xeMax
      guideArea := area.guideArea
      xeMax := area.xeMax
      yeMax := area.yeMax
      xsMax := xsMax
      profit := res.2.profit
      groups := childGroupBounds inst axle.groups it.groupId ins.x
      middleAxleOverweight := axle.middle
      rearAxleOverweight := axle.rear
      lastBinItemNumberOfCopies := res.1
      lastBinResourceConsumption := res.2.consumption }

/-! ## Insertions -/

/-- `parent->groups.front()`. -/
def Node.frontGroup (n : Node) : NodeGroup := n.groups.getD 0 {}

/-- The resource check, `tree_search.cpp:880–904`: whether no hard resource is exceeded. -/
def resourcesOk (inst : Instance) (bt : BinType) (bin item : Nat) (newBin : Bool)
    (parent : Node) : Bool :=
  if bt.resources.length > 0 then
    ((inst.itemType item).resourceIds.getD bin []).all fun r =>
      let resource := bt.resources.getD r {}
      let c := if newBin then resource.itemConsumption item 0
        else parent.lastBinResourceConsumption.getD r 0
          + resource.itemConsumption item (parent.lastBinItemNumberOfCopies.getD item 0)
      resource.penalize || !decide (c > resource.capacity * pstol)
  else true

/-- `xs`, `tree_search.cpp:907–915`. -/
def firstX (us : List UncoveredItem) (ys ye : Int) : Int :=
  us.foldl (fun xs u => if u.ye ≤ ys ∨ u.ys ≥ ye then xs else if xs < u.xe then u.xe else xs) 0

/-- The check of the unloading constraint, `tree_search.cpp:918–948` and `1042–1072`. -/
def unloadingOk (inst : Instance) (parent : Node) (it : ItemType) (xs ys ye : Int) :
    Except Err Bool :=
  match inst.parameters.unloadingConstraint with
  | .none => .ok true
  | .onlyXMovements => .ok (parent.uncoveredItems.all fun u =>
      if u.ye ≤ ys ∨ u.ys ≥ ye then true
      else match u.itemTypeId with
        | none => true
        | some i => !decide (it.groupId > (inst.itemType i).groupId))
  | .increasingX => .ok
      ((List.range inst.numberOfGroups).all fun g =>
        (!(decide (g > it.groupId) && decide (xs < (parent.groups.getD g {}).xMax)))
        && !(decide (g < it.groupId) && decide (xs > (parent.groups.getD g {}).xMin)))
  | _ => .error .logicError

/-- Whether an item at `[xs, xs + xj) × [ys, ye)` meets a defect, `tree_search.cpp:956–963` and
`1076–1083`. -/
def meetsDefect (d : Defect) (xs xj ys ye : Int) : Bool :=
  !(decide (d.posX ≥ xs + xj) || decide (xs ≥ d.posX + d.x) || decide (d.posY ≥ ye)
    || decide (ys ≥ d.posY + d.y))

/-- One pass over the defects, `tree_search.cpp:954–966`; the Boolean is `stop`. -/
def defectPass (ds : List Defect) (xj ys ye : Int) (st : Int × Bool) : Int × Bool :=
  ds.foldl (fun st d => if meetsDefect d st.1 xj ys ye then (d.posX + d.x, false) else st) st

/-- The loop moving the item to the right of the defects it meets, `tree_search.cpp:952–969`;
`none` if it does not end within the given number of passes. -/
def moveRight (ds : List Defect) (xj ys ye : Int) : Nat → Int → Option Int
  | 0, _ => none
  | n + 1, xs =>
    let st := defectPass ds xj ys ye (xs, true)
    if st.2 then some st.1 else moveRight ds xj ys ye n st.1

/-- `insertion_item`, `tree_search.cpp:845–1003`.  The loop over the defects is given one more pass
than there are defects. -/
def insertionItem (s : Scheme) (parent : Node) (item : Nat) (rotate : Bool) (newBin : Nat)
    (newBinPos : Option Nat) (uncoveredPos defectId : Option Nat) :
    Except Err (Option Insertion) :=
  let d := if newBin = 0 then parent.lastBinDirection else Scheme.newBinDirection newBin
  let inst := s.instanceOf d
  let it := inst.itemType item
  let bin := if newBin = 0 then s.binTypeIds.getD (parent.numberOfBins - 1) 0
    else s.binTypeIds.getD (newBinPos.getD 0) 0
  let bt := inst.binType bin
  let xj := it.width rotate
  let yj := it.height rotate
  let ys := match uncoveredPos, defectId with
    | some (p + 1), _ => (parent.uncoveredItems.getD (p + 1) default).ys
    | _, some k => (bt.defects.getD k ⟨0, 0, 0, 0⟩).posY + (bt.defects.getD k ⟨0, 0, 0, 0⟩).y
    | _, none => 0
  let ye := ys + yj
  if ye > bt.y then .ok none
  else
  let lastBinWeight := if newBin = 0 then parent.frontGroup.lastBinWeight + it.weight else it.weight
  if ExtQ.exceeded lastBinWeight bt.maximumWeight then .ok none
  else if !resourcesOk inst bt bin item (decide (newBin ≠ 0)) parent then .ok none
  else
  let xs := if newBin = 0 then firstX parent.uncoveredItems ys ye else 0
  match unloadingOk inst parent it xs ys ye with
  | .error e => .error e
  | .ok false => .ok none
  | .ok true =>
    match moveRight bt.defects xj ys ye (bt.defects.length + 1) xs with
    | none => .error .ub
    | some xs =>
      let xe := xs + xj
      if xe > bt.x then .ok none
      else if s.parameters.staircase && decide (newBin = 0) && uncoveredPos.isSome
          && parent.uncoveredItems.any (fun u => decide (u.ys > ye ∧ u.xe > xs)) then .ok none
      else if (match uncoveredPos, defectId with
          | some (p + 1), _ => decide (xe ≤ (parent.uncoveredItems.getD p default).xs)
          | _, some k => decide (xe ≤ (bt.defects.getD k ⟨0, 0, 0, 0⟩).posX)
              || decide (xs ≥ (bt.defects.getD k ⟨0, 0, 0, 0⟩).posX
                + (bt.defects.getD k ⟨0, 0, 0, 0⟩).x)
          | _, none => false) then .ok none
      else if (match s.parameters.fixedItems with
          | some f => decide (xs < f.xMax)
          | none => false) then .ok none
      else .ok (some { itemTypeId := item, rotate := rotate, x := xs, y := ys, newBin := newBin,
                       newBinPos := newBinPos })

/-- `insertion_item_fixed`, `tree_search.cpp:1005–1096`. -/
def insertionItemFixed (s : Scheme) (parent : Node) (item : Nat) (rotate : Bool) (xs ys : Int) :
    Except Err (Option Insertion) :=
  let inst := s.instanceOf parent.lastBinDirection
  let it := inst.itemType item
  let bt := inst.binType (s.binTypeIds.getD (parent.numberOfBins - 1) 0)
  let xj := it.width rotate
  let yj := it.height rotate
  let xe := xs + xj
  let ye := ys + yj
  if ys < 0 then .ok none
  else if ye > bt.y then .ok none
  else if xe > bt.x then .ok none
  else if ExtQ.exceeded (parent.frontGroup.lastBinWeight + it.weight) bt.maximumWeight then .ok none
  else if parent.uncoveredItems.any (fun u =>
      !(decide (u.ye ≤ ys) || decide (u.ys ≥ ye)) && decide (xs < u.xe)) then .ok none
  else match unloadingOk inst parent it xs ys ye with
    | .error e => .error e
    | .ok false => .ok none
    | .ok true =>
      if bt.defects.any (fun d => meetsDefect d xs xj ys ye) then .ok none
      else .ok (some { itemTypeId := item, rotate := rotate, x := xs, y := ys, newBin := 0 })

/-- The calls of `insertion_item` and `insertion_item_fixed`. -/
inductive Attempt where
  | item (id : Nat) (rotate : Bool) (newBin : Nat) (newBinPos uncoveredPos defectId : Option Nat)
  | fixed (id : Nat) (rotate : Bool) (xs ys : Int)

/-- One call. -/
def attempt (s : Scheme) (parent : Node) : Attempt → Except Err (Option Insertion)
  | .item i r n p u d => insertionItem s parent i r n p u d
  | .fixed i r xs ys => insertionItemFixed s parent i r xs ys

/-- The insertions found by a sequence of calls. -/
def runAttempts (s : Scheme) (parent : Node) (l : List Attempt) : Except Err (List Insertion) :=
  l.foldlM (fun found a => match attempt s parent a with
    | .error e => .error e
    | .ok none => .ok found
    | .ok (some i) => .ok (found ++ [i])) []

/-- `ok`, `ok_1`, `ok_2`, `tree_search.cpp:592–609`: all copies of the predecessors are packed. -/
def allPacked (s : Scheme) (parent : Node) (preds : List (List Nat)) (item : Nat) : Bool :=
  (preds.getD item []).all fun p =>
    !decide (parent.itemNumberOfCopies.getD p 0 ≠ (s.inst.itemType p).copies)

/-- The rotations tried for an item type, `tree_search.cpp:633,676,722,731`. -/
def rotations (s : Scheme) (parent : Node) (it : ItemType) (item : Nat) : List Bool :=
  (if allPacked s parent s.predecessors1 item then [false] else [])
    ++ (if !it.oriented && allPacked s parent s.predecessors2 item then [true] else [])

/-- The calls made next to the fixed items, `tree_search.cpp:644–672,687–709`. -/
def fixedAttempts (s : Scheme) (parent : Node) (it : ItemType) (item : Nat) (rotate : Bool)
    (pos : Nat) : List Attempt :=
  match s.parameters.fixedItems with
  | none => []
  | some f =>
    let u := parent.uncoveredItems.getD pos default
    (if pos + 1 < parent.uncoveredItems.length
        ∧ (parent.uncoveredItems.getD (pos + 1) default).xe < f.xMax
      then [.fixed item rotate u.xe u.ye] else [])
    ++ (if pos > 0 ∧ (parent.uncoveredItems.getD (pos - 1) default).xe < f.xMax
      then [.fixed item rotate u.xe (u.ys - it.height rotate)] else [])

/-- Whether an item type is considered: its predecessors are packed and copies remain,
`tree_search.cpp:620–625,781–786`. -/
def considered (s : Scheme) (inst : Instance) (parent : Node) (item : Nat) : Bool :=
  allPacked s parent s.predecessors item
    && !decide (parent.itemNumberOfCopies.getD item 0 = (inst.itemType item).copies)

/-- The calls made for the current bin, `tree_search.cpp:612–744`. -/
def currentBinAttempts (s : Scheme) (parent : Node) : List Attempt :=
  if parent.numberOfBins > 0 then
    let inst := s.instanceOf parent.lastBinDirection
    let bt := inst.binType (s.binTypeIds.getD (parent.numberOfBins - 1) 0)
    bt.itemTypeIds.flatMap fun item =>
      if !considered s inst parent item then []
      else
        let it := inst.itemType item
        ((List.range parent.uncoveredItems.length).flatMap fun pos =>
          (rotations s parent it item).flatMap fun rotate =>
            .item item rotate 0 none (some pos) none :: fixedAttempts s parent it item rotate pos)
        ++ ((List.range bt.defects.length).flatMap fun k =>
          (rotations s parent it item).map fun rotate => .item item rotate 0 none none (some k))
  else []

/-- The direction of a new bin, `tree_search.cpp:753–767`. -/
def newBinOf (s : Scheme) (pos : Nat) : Nat :=
  match s.parameters.direction with
  | .x => 1
  | .y => 2
  | .any =>
    let bt := s.inst.binType (s.binTypeIds.getD pos 0)
    if (s.inst.totalItemHeight : ℚ) / bt.y ≥ (s.inst.totalItemWidth : ℚ) / bt.x then 1 else 2

/-- The calls made for a new bin, `tree_search.cpp:768–841`. -/
def newBinAttempts (s : Scheme) (parent : Node) (pos : Nat) : List Attempt :=
  let newBin := newBinOf s pos
  let inst := s.instanceOfNewBin newBin
  let bt := inst.binType (s.binTypeIds.getD pos 0)
  bt.itemTypeIds.flatMap fun item =>
    if !considered s inst parent item then []
    else
      let it := inst.itemType item
      ((rotations s parent it item).map fun rotate =>
        .item item rotate newBin (some pos) (some 0) none)
      ++ ((List.range bt.defects.length).flatMap fun k =>
        (rotations s parent it item).map fun rotate =>
          .item item rotate newBin (some pos) none (some k))

/-- The loop over the new bins, `tree_search.cpp:749–842`: the insertions of the first bin that has
some. -/
def newBinInsertions (s : Scheme) (parent : Node) : List Nat → Except Err (List Insertion)
  | [] => .ok []
  | pos :: rest => do
    let found ← runAttempts s parent (newBinAttempts s parent pos)
    if found.isEmpty then newBinInsertions s parent rest else .ok found

/-- `insertions`, `tree_search.cpp:573–843`. -/
def insertions (s : Scheme) (parent : Node) : Except Err (List Insertion) := do
  let found ← runAttempts s parent (currentBinAttempts s parent)
  if found.isEmpty then
    newBinInsertions s parent
      (List.range' parent.numberOfBins (s.inst.numberOfBins - parent.numberOfBins))
  else .ok found

/-! ## Root and constructor -/

/-- A root node without fixed items, `root`, `tree_search.cpp:1107–1114`. -/
def emptyRoot (inst : Instance) : Node :=
  { itemNumberOfCopies := List.replicate inst.numberOfItemTypes 0
    groups := List.replicate inst.numberOfGroups { xMin := InstanceBuilder.lengthMax } }

/-- `root`, `tree_search.cpp:1102–1115`. -/
def Scheme.rootNode (s : Scheme) : Node := s.root.getD (emptyRoot s.inst)

/-- `bin_type_id_order`, `tree_search.cpp:57–69`; `std::stable_sort` is insertion sort, which is
stable. -/
def binTypeIdOrder (inst : Instance) : List Nat :=
  if inst.objective = .knapsack then
    (List.range inst.numberOfBinTypes).insertionSort
      (fun a b => (inst.binType a).area ≤ (inst.binType b).area)
  else List.range inst.numberOfBinTypes

/-- `bin_type_ids_`, `tree_search.cpp:71–75`. -/
def schemeBinTypeIds (inst : Instance) : List Nat :=
  (binTypeIdOrder inst).flatMap fun b => List.replicate (inst.binType b).copies.toNat b

/-- `previous_bins_area_`, `tree_search.cpp:70–77`. -/
def schemePreviousBinsArea (inst : Instance) (ids : List Nat) : List Int :=
  (List.range ids.length).map fun k =>
    ((ids.take k).map fun b => (inst.binType b).area).sum

/-- `dominates(item_type_id_1, item_type_id_2)`, `tree_search.cpp:23–39`. -/
def itemTypeDominates (strategy : Nat) (a b : ItemType) : Except Err Bool :=
  match strategy with
  | 0 => .ok (decide (a.profit ≥ b.profit))
  | 1 => .ok (decide (a.weight ≤ b.weight))
  | 2 => .ok (decide (a.weight ≥ b.weight))
  | _ => .error .invalidArgument

/-- Whether item type `j` comes before item type `i`, `tree_search.cpp:93–102`. -/
def comesBefore (inst : Instance) (strategy : Nat) (i j : Nat) : Except Err Bool :=
  let a := inst.itemType i
  let b := inst.itemType j
  if i = j then .ok false
  else if a.groupId ≠ b.groupId then .ok false
  else do
    let d ← itemTypeDominates strategy b a
    if !d then .ok false
    else if i < j then do
      let d' ← itemTypeDominates strategy a b
      .ok (!d')
    else .ok true

/-- The condition of `predecessors_`, `tree_search.cpp:104–110`. -/
def samePiece (a b : ItemType) : Bool :=
  (decide (a.x = b.x) && decide (a.y = b.y) && decide (a.oriented = b.oriented))
    || (decide (a.x = b.y) && decide (a.y = b.x) && !a.oriented && !b.oriented)

/-- The condition of `predecessors_1_`, `tree_search.cpp:115–118`. -/
def samePieceUnrotated (a b : ItemType) : Bool :=
  decide (a.x = b.x) && decide (a.y = b.y) && !a.oriented && b.oriented

/-- The condition of `predecessors_2_`, `tree_search.cpp:123–126`. -/
def samePieceRotated (a b : ItemType) : Bool :=
  decide (a.x = b.y) && decide (a.y = b.x) && !a.oriented && b.oriented

/-- One of the three tables of predecessors, `tree_search.cpp:82–130`. -/
def predecessorTable (inst : Instance) (strategy : Nat) (test : ItemType → ItemType → Bool) :
    Except Err (List (List Nat)) :=
  (List.range inst.numberOfItemTypes).mapM fun i =>
    (List.range inst.numberOfItemTypes).filterM fun j => do
      let c ← comesBefore inst strategy i j
      .ok (c && test (inst.itemType i) (inst.itemType j))

/-- The items of one copy of a fixed bin, inserted by increasing x, `tree_search.cpp:148–165`. -/
def insertFixedBin (s : Scheme) (node : Node) (items : List PlacedItem) : Except Err Node :=
  (items.foldlM (m := Except Err) (fun (st : Node × Nat) (p : PlacedItem) => do
    let n ← child s st.1 { itemTypeId := p.itemTypeId, rotate := p.rotate, x := p.x, y := p.y,
                           newBin := st.2 }
    Except.ok (n, 0)) (node, 1)).map (fun st => st.1)

/-- The root node with fixed items, `tree_search.cpp:133–171`.  `sortByX` is `std::sort` with the
comparator of lines 142–147. -/
def fixedRoot (s : Scheme) (sortByX : List PlacedItem → List PlacedItem) (f : Solution) :
    Except Err Node :=
  f.bins.foldlM (fun node bin =>
    (List.range bin.copies.toNat).foldlM
      (fun node _ => insertFixedBin s node (sortByX bin.items)) node) (emptyRoot s.inst)

/-- `BranchingScheme::BranchingScheme`, `tree_search.cpp:41–175`. -/
def Scheme.new (inst : Instance) (parameters : Parameters)
    (sortByX : List PlacedItem → List PlacedItem) : Except Err Scheme := do
  let flipped ← Flipper.flip inst
  let ids := schemeBinTypeIds inst
  let predecessors ← predecessorTable inst parameters.predecessorStrategy samePiece
  let predecessors1 ← predecessorTable inst parameters.predecessorStrategy samePieceUnrotated
  let predecessors2 ← predecessorTable inst parameters.predecessorStrategy samePieceRotated
  let s : Scheme := {
    inst := inst
    flipped := flipped
    parameters := parameters
    binTypeIds := ids
    previousBinsArea := schemePreviousBinsArea inst ids
    predecessors := predecessors
    predecessors1 := predecessors1
    predecessors2 := predecessors2 }
  match parameters.fixedItems with
  | none => .ok s
  | some f => do
    let root ← fixedRoot s sortByX f
    .ok { s with root := some root }

/-! ## Comparisons -/

/-- `leaf`, `tree_search.hpp:335–339`. -/
def leaf (s : Scheme) (n : Node) : Bool := decide (n.numberOfItems = s.inst.numberOfItems)

/-- `better`, `tree_search.cpp:1117–1169`. -/
def better (s : Scheme) (n1 n2 : Node) : Except Err Bool :=
  match s.inst.objective with
  | .default =>
    .ok (if n2.profit > n1.profit then false
      else if n2.profit < n1.profit then true
      else decide (n2.waste > n1.waste))
  | .binPacking | .variableSizedBinPacking =>
    .ok (if !leaf s n1 then false
      else if !leaf s n2 then true
      else decide (n2.numberOfBins > n1.numberOfBins))
  | .binPackingWithLeftovers =>
    .ok (if !leaf s n1 then false
      else if !leaf s n2 then true
      else if n2.numberOfBins ≠ n1.numberOfBins then decide (n2.numberOfBins > n1.numberOfBins)
      else decide (n2.leftoverValue < n1.leftoverValue))
  | .openDimensionX | .openDimensionY =>
    .ok (if !leaf s n1 then false
      else if !leaf s n2 then true
      else decide (n2.xeMax > n1.xeMax))
  | .knapsack | .feasibility => .ok (decide (n2.profit < n1.profit))
  | .sequentialOneDimensionalRectangleSubproblem =>
    .ok (if n1.profit ≠ n2.profit then decide (n1.profit > n2.profit)
      else decide (n1.middleAxleOverweight + n1.rearAxleOverweight
        < n2.middleAxleOverweight + n2.rearAxleOverweight))
  | _ => .error .logicError

/-- The loop of `bound`, `tree_search.cpp:1192–1201`: the number of bins whose areas add up to at
least `a`, `none` if there are not enough. -/
def binsForArea : List Int → Int → Nat → Option Nat
  | [], a, k => if a > 0 then none else some k
  | area :: rest, a, k => if a > 0 then binsForArea rest (a - area) (k + 1) else some k

/-- `bound(node_1, node_2)`, `tree_search.cpp:1171–1248`: node 1 need not be explored once node 2
is known. -/
def bound (s : Scheme) (n1 n2 : Node) : Except Err Bool :=
  match s.inst.objective with
  | .default => .ok false
  | .binPacking | .variableSizedBinPacking =>
    .ok (if !leaf s n2 then false
      else match binsForArea (s.binTypeIds.map fun b => (s.inst.binType b).area)
          (s.inst.itemArea + n1.waste) 0 with
        | none => true
        | some k => decide (k ≥ n2.numberOfBins))
  | .binPackingWithLeftovers =>
    .ok (if !leaf s n2 then false
      else if n1.numberOfBins > n2.numberOfBins then true
      else if n1.numberOfBins < n2.numberOfBins then false
      else decide (n1.leftoverValue ≤ n2.leftoverValue))
  | .knapsack | .feasibility => .ok (leaf s n2)
  | .openDimensionX | .openDimensionY =>
    .ok (if !leaf s n2 then false
      else decide (max n1.xeMax
        ((n1.waste + s.inst.itemArea - 1).tdiv ((s.inst.binType 0).y + 1)) ≥ n2.xeMax))
  | .sequentialOneDimensionalRectangleSubproblem => .ok false
  | _ => .error .logicError

/-- The loop of `dominates`, `tree_search.hpp:435–468`, over the uncovered items from the last one
to the first; `none` if a position becomes negative. -/
def dominatesLoop (staircase : Bool) :
    Nat → Int → List UncoveredItem → Int → List UncoveredItem → Option Bool
  | 0, _, _, _, _ => none
  | fuel + 1, x1, l1, x2, l2 =>
    if x1 > x2 then some false
    else match l1, l2 with
      | [_], [_] => some true
      | u1 :: r1, u2 :: r2 =>
        let next (x : Int) (r : List UncoveredItem) : Int :=
          let e := (r.headD default).xeDominance
          if staircase then max x e else e
        if u1.ys = u2.ys then
          if r1.isEmpty || r2.isEmpty then none
          else dominatesLoop staircase fuel (next x1 r1) r1 (next x2 r2) r2
        else if u1.ys < u2.ys then
          if r2.isEmpty then none
          else dominatesLoop staircase fuel x1 l1 (next x2 r2) r2
        else
          if r1.isEmpty then none
          else dominatesLoop staircase fuel (next x1 r1) r1 x2 l2
      | _, _ => none

/-- `dominates(node_1, node_2)`, `tree_search.hpp:392–472`, called on nodes with the same numbers
of copies (`NodeHasher`, lines 366–388). -/
def dominates (s : Scheme) (n1 n2 : Node) : Except Err Bool :=
  if s.inst.objective = .sequentialOneDimensionalRectangleSubproblem ∧ s.parameters.guideId = 8
      ∧ strictlyGreater n1.frontGroup.lastBinMiddleAxleWeight
        n2.frontGroup.lastBinMiddleAxleWeight then .ok false
  else if s.inst.objective = .sequentialOneDimensionalRectangleSubproblem
      ∧ s.parameters.guideId = 9
      ∧ strictlyGreater n1.frontGroup.lastBinRearAxleWeight
        n2.frontGroup.lastBinRearAxleWeight then .ok false
  else if n1.numberOfBins < n2.numberOfBins then .ok true
  else if n1.numberOfBins > n2.numberOfBins then .ok false
  else if (List.range n1.lastBinResourceConsumption.length).any (fun r =>
      decide (n1.lastBinResourceConsumption.getD r 0 > n2.lastBinResourceConsumption.getD r 0))
    then .ok false
  else
    let l1 := n1.uncoveredItems.reverse
    let l2 := n2.uncoveredItems.reverse
    match dominatesLoop s.parameters.staircase (l1.length + l2.length)
        (l1.headD default).xe l1 (l2.headD default).xeDominance l2 with
    | none => .error .ub
    | some b => .ok b

/-! ## Export -/

/-- The empty bins added before an item, `tree_search.cpp:1270–1276`. -/
def addBinsUpTo (s : Scheme) (sb : SolutionBuilder) (k : Nat) : Except Err SolutionBuilder :=
  (List.range' sb.sol.bins.length (k - sb.sol.bins.length)).foldlM
    (fun sb pos => if pos < s.binTypeIds.length
      then sb.addBin s.inst (s.binTypeIds.getD pos 0) 1 else .error .ub) sb

/-- One node of the chain, `tree_search.cpp:1268–1285`; `bin_pos` is the last bin added. -/
def toSolutionStep (s : Scheme) (sb : SolutionBuilder) (st : Step) : Except Err SolutionBuilder := do
  let sb ← addBinsUpTo s sb st.numberOfBins
  if sb.sol.bins.length = 0 then .error .ub
  else if st.direction = .x then
    sb.addItem s.inst (sb.sol.bins.length - 1) st.itemTypeId st.x st.y st.rotate
  else sb.addItem s.inst (sb.sol.bins.length - 1) st.itemTypeId st.y st.x st.rotate

/-- `to_solution`, `tree_search.cpp:1254–1318`. -/
def toSolution (s : Scheme) (n : Node) : Except Err Solution := do
  let sb ← n.steps.foldlM (toSolutionStep s) (SolutionBuilder.new s.inst)
  let sol ← sb.build s.inst
  if n.numberOfBins = 1 ∧ n.lastBinDirection = .y ∧ n.xeMax ≠ sol.yMax then .error .runtimeError
  else .ok sol

end PackingSolver.Rect.TreeSearch
