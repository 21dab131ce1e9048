import Verif.Model.Guil.Instance

/-!
# Guillotine solutions

Models `src/rectangleguillotine/solution.cpp` and
`include/packingsolver/rectangleguillotine/solution.hpp`.  The output functions (`write`,
`to_json`, `format`) are not modelled.
-/

namespace PackingSolver.Guil

/-- `class Solution`, `rectangleguillotine/solution.hpp:81–409`; the instance is passed
separately. -/
structure Solution where
  numberOfStagesFeasible : Bool := true
  minimumWasteLengthFeasible : Bool := true
  minimumDistance1CutsFeasible : Bool := true
  maximumDistance1CutsFeasible : Bool := true
  minimumDistance2CutsFeasible : Bool := true
  maximumDistance2CutsFeasible : Bool := true
  maximumNumber1CutsFeasible : Bool := true
  maximumNumber2CutsFeasible : Bool := true
  stacksFeasible : Bool := true
  defectsFeasible : Bool := true
  cutThroughDefectsFeasible : Bool := true
  itemCopiesFeasible : Bool := true
  resourceFeasible : Bool := true
  callbackFeasible : Bool := true
  feasible : Bool := true
  bins : List SolutionBin := []
  numberOfBins : Int := 0
  binCopies : List Int := []
  cost : ℚ := 0
  cuttingCost : Int := 0
  numberOfItems : Int := 0
  itemCopies : List Int := []
  numberOfInfeasibleItemCopiesMin : Int := 0
  itemArea : Int := 0
  profit : ℚ := 0
  numberOfStages : Int := 0
  area : Int := 0
  fullArea : Int := 0
  width : Int := 0
  height : Int := 0
  secondLeftoverValue : Int := 0
deriving DecidableEq, Repr

namespace Solution

/-- `waste()`, `solution.hpp:244`. -/
def waste (s : Solution) : Int := s.area - s.itemArea

/-- `full_waste()`, `solution.hpp:250`. -/
def fullWaste (s : Solution) : Int := s.fullArea - s.itemArea

/-- `full()`, `solution.hpp:206`. -/
def full (inst : Instance) (s : Solution) : Bool := decide (s.numberOfItems = inst.numberOfItems)

end Solution

/-- Number of item types packed fewer than `copies_min` times, `solution.cpp:443–450` (and the
constructor, `solution.hpp:96–101`, where all counts are zero). -/
def countInfeasibleMin (inst : Instance) (itemCopies : List Int) : Int :=
  (List.range inst.numberOfItemTypes).foldl
    (fun n i => if itemCopies.getD i 0 < (inst.itemType i).copiesMin then n + 1 else n) 0

/-- `Solution::Solution(const Instance&)`, `solution.hpp:91–103`. -/
def Solution.init (inst : Instance) : Solution :=
  let itemCopies := List.replicate inst.numberOfItemTypes (0 : Int)
  let n := countInfeasibleMin inst itemCopies
  { binCopies := List.replicate inst.numberOfBinTypes 0
    itemCopies := itemCopies
    numberOfInfeasibleItemCopiesMin := n
    feasible := decide (n = 0) }

/-- `v[i] += d`. -/
def addAt (l : List Int) (i : Nat) (d : Int) : List Int := l.modify i (· + d)

/-! ## `update_indicators`: the loop over the nodes -/

/-- State threaded through the loop over the nodes, `solution.cpp:66–347`. -/
structure NodeLoop where
  sol : Solution
  /-- `bin.resource_consumption`. -/
  consumption : List ℚ := []
  /-- `item_type_copies_in_bin`. -/
  copiesInBin : List Nat := []
  /-- `bincurr_number_of_1_cuts`. -/
  number1Cuts : Int := 0
  /-- `subplate1curr_number_of_2_cuts`. -/
  number2Cuts : Int := 0
  /-- `subpalte1curr_end`. -/
  subplateEnd : Int := -1

/-- State threaded through the resource loop, `solution.cpp:95–115`. -/
structure ResourceLoop where
  consumption : List ℚ
  profit : ℚ
  resourceFeasible : Bool

/-- One iteration of the resource loop, `solution.cpp:95–115`. -/
def resourceStep (resources : List Resource) (itemTypeId copy : Nat) (s : ResourceLoop)
    (resourceId : Nat) : ResourceLoop :=
  let resource := resources.getD resourceId {}
  let previousConsumption := s.consumption.getD resourceId 0
  let consumption :=
    s.consumption.modify resourceId (· + resource.itemConsumption itemTypeId copy)
  if consumption.getD resourceId 0 > resource.capacity then
    if resource.penalize then
      if previousConsumption ≤ resource.capacity then
        { s with consumption := consumption, profit := s.profit - resource.penalty }
      else { s with consumption := consumption }
    else { s with consumption := consumption, resourceFeasible := false }
  else { s with consumption := consumption }

/-- The node holds an item that is counted: `node.f != -1 && node.item_type_id >= 0`,
`solution.cpp:83`. -/
def Node.counted (n : Node) : Bool := n.f.isSome && decide (n.itemTypeId ≥ 0)

/-- `solution.cpp:83–117`: counters and resources of an item. -/
def itemPart (inst : Instance) (bin : SolutionBin) (st : NodeLoop) (node : Node) : NodeLoop :=
  if node.counted then
    let id := node.itemTypeId.toNat
    let it := inst.itemType id
    let itemCopies := addAt st.sol.itemCopies id bin.copies
    let res := (it.resourceIds.getD bin.binTypeId []).foldl
      (resourceStep (inst.binType bin.binTypeId).resources id (st.copiesInBin.getD id 0))
      { consumption := st.consumption
        profit := st.sol.profit + (bin.copies : ℚ) * it.profit
        resourceFeasible := st.sol.resourceFeasible }
    { st with
      sol := { st.sol with
        numberOfItems := st.sol.numberOfItems + bin.copies
        itemArea := st.sol.itemArea + bin.copies * it.area
        profit := res.profit
        itemCopies := itemCopies
        itemCopiesFeasible :=
          if itemCopies.getD id 0 > it.copies then false else st.sol.itemCopiesFeasible
        resourceFeasible := res.resourceFeasible }
      consumption := res.consumption
      copiesInBin := st.copiesInBin.modify id (· + 1) }
  else st

/-- Area of a node, `(node.r - node.l) * (node.t - node.b)`. -/
def Node.area (n : Node) : Int := (n.t - n.b) * (n.r - n.l)

/-- `solution.cpp:119–121`: the residual is not part of the area. -/
def residualPart (st : NodeLoop) (node : Node) : NodeLoop :=
  if node.itemTypeId = -3 then
    { st with sol := { st.sol with area := st.sol.area - node.area } }
  else st

/-- `solution.cpp:123–129`: `width_` and `height_`. -/
def extentPart (st : NodeLoop) (node : Node) : NodeLoop :=
  if node.d > 0 ∧ node.itemTypeId ≠ -3 then
    { st with sol := { st.sol with
      width := if st.sol.width < node.r then node.r else st.sol.width
      height := if st.sol.height < node.t then node.t else st.sol.height } }
  else st

/-- `solution.cpp:131–137`: `second_leftover_value_`. -/
def leftoverPart (st : NodeLoop) (node : Node) : NodeLoop :=
  { st with sol := { st.sol with
    secondLeftoverValue :=
      if node.d = 2 ∧ node.itemTypeId = -1 then node.area
      else if node.d = 2 ∧ node.itemTypeId ≠ -1 then 0
      else if node.d = 1 ∧ node.itemTypeId ≠ -3 then 0
      else st.sol.secondLeftoverValue } }

/-- `solution.cpp:139–150`: a waste (or cut) node is too small. -/
def wasteTooSmall (p : Parameters) (n : Node) : Bool :=
  decide (n.d ≥ 1) && decide (n.itemTypeId < 0)
    && (decide (n.r - n.l < p.minimumWasteLength) || decide (n.t - n.b < p.minimumWasteLength))

/-- Extent of a node across the cuts of depth 1: its width if the first cuts are vertical, its
height if they are horizontal. -/
def extent1 (o : CutOrientation) (n : Node) : Int :=
  if o = .vertical then n.r - n.l else n.t - n.b

/-- Extent of a node across the cuts of depth 2. -/
def extent2 (o : CutOrientation) (n : Node) : Int :=
  if o = .vertical then n.t - n.b else n.r - n.l

/-- `solution.cpp:152–164`. -/
def cut1TooClose (p : Parameters) (o : CutOrientation) (n : Node) : Bool :=
  decide (n.d = 1) && decide (n.itemTypeId = -2) && decide (o ≠ .any)
    && decide (extent1 o n < p.minimumDistance1Cuts)

/-- `solution.cpp:166–180`. -/
def cut1TooFar (p : Parameters) (o : CutOrientation) (n : Node) : Bool :=
  decide (p.maximumDistance1Cuts ≥ 0) && decide (n.d = 1) && decide (n.itemTypeId = -2)
    && decide (o ≠ .any) && decide (extent1 o n > p.maximumDistance1Cuts)

/-- `solution.cpp:182–194`. -/
def cut2TooClose (p : Parameters) (o : CutOrientation) (n : Node) : Bool :=
  decide (n.d = 2) && decide (n.itemTypeId = -2) && decide (o ≠ .any)
    && decide (extent2 o n < p.minimumDistance2Cuts)

/-- `solution.cpp:196–210`. -/
def cut2TooFar (p : Parameters) (o : CutOrientation) (n : Node) : Bool :=
  decide (p.maximumDistance2Cuts ≥ 0) && decide (n.d = 2) && decide (n.itemTypeId = -2)
    && decide (o ≠ .any) && decide (extent2 o n > p.maximumDistance2Cuts)

/-- `solution.cpp:139–210`: the checks on the sizes of the nodes. -/
def sizePart (inst : Instance) (bin : SolutionBin) (st : NodeLoop) (node : Node) : NodeLoop :=
  let p := inst.parameters
  let o := bin.firstCutOrientation
  { st with sol := { st.sol with
    minimumWasteLengthFeasible := st.sol.minimumWasteLengthFeasible && !wasteTooSmall p node
    minimumDistance1CutsFeasible := st.sol.minimumDistance1CutsFeasible && !cut1TooClose p o node
    maximumDistance1CutsFeasible := st.sol.maximumDistance1CutsFeasible && !cut1TooFar p o node
    minimumDistance2CutsFeasible := st.sol.minimumDistance2CutsFeasible && !cut2TooClose p o node
    maximumDistance2CutsFeasible := st.sol.maximumDistance2CutsFeasible && !cut2TooFar p o node } }

/-- `bincurr_end`, `solution.cpp:69–75`. -/
def binEnd (bt : BinType) (o : CutOrientation) : Int :=
  if o = .vertical then
    if bt.rightTrimType = .soft then bt.w else bt.w - bt.rightTrim
  else if bt.topTrimType = .soft then bt.h else bt.h - bt.topTrim

/-- Where the node ends in the direction of the cuts of depth 1. -/
def end1 (o : CutOrientation) (n : Node) : Int := if o = .vertical then n.r else n.t

/-- Where the node ends in the direction of the cuts of depth 2. -/
def end2 (o : CutOrientation) (n : Node) : Int := if o = .vertical then n.t else n.r

/-- `solution.cpp:212–227`: the number of 1-cuts. -/
def count1Part (inst : Instance) (bin : SolutionBin) (st : NodeLoop) (node : Node) : NodeLoop :=
  let p := inst.parameters
  let o := bin.firstCutOrientation
  if p.maximumNumber1Cuts ≥ 0 ∧ node.d = 1 ∧ o ≠ .any
      ∧ end1 o node ≠ binEnd (inst.binType bin.binTypeId) o then
    { st with
      number1Cuts := st.number1Cuts + 1
      sol := { st.sol with
        maximumNumber1CutsFeasible :=
          st.sol.maximumNumber1CutsFeasible
            && !decide (st.number1Cuts + 1 > p.maximumNumber1Cuts) } }
  else st

/-- `solution.cpp:229–250`: the number of 2-cuts. -/
def count2Part (inst : Instance) (bin : SolutionBin) (st : NodeLoop) (node : Node) : NodeLoop :=
  let p := inst.parameters
  let o := bin.firstCutOrientation
  if p.maximumNumber2Cuts ≥ 0 then
    if node.d = 1 then
      { st with subplateEnd := end2 o node, number2Cuts := 0 }
    else if node.d = 2 ∧ o ≠ .any ∧ end2 o node ≠ st.subplateEnd then
      { st with
        number2Cuts := st.number2Cuts + 1
        sol := { st.sol with
          maximumNumber2CutsFeasible :=
            st.sol.maximumNumber2CutsFeasible
              && !decide (st.number2Cuts + 1 > p.maximumNumber2Cuts) } }
    else st
  else st

/-- `is_width_axis_cut`, `solution.cpp:264–267`. -/
def isWidthAxisCut (o : CutOrientation) (d : Int) : Bool :=
  if o = .vertical then decide (d.tmod 2 = 1) else !decide (d.tmod 2 = 1)

/-- The cutting cost charged for a node, `solution.cpp:252–277`. -/
def nodeCuttingCost (inst : Instance) (bin : SolutionBin) (node : Node) : Int :=
  if inst.objective = .binPackingCuttingCost ∧ node.d ≥ 1 ∧ node.d ≤ 4 then
    let cost := inst.parameters.cuttingCosts.getD node.d.toNat {}
    let parent := bin.nodes.getD (node.f.getD 0) default
    let wide := isWidthAxisCut bin.firstCutOrientation node.d
    let real := if wide then decide (node.r ≠ parent.r) else decide (node.t ≠ parent.t)
    let length := if wide then node.t - node.b else node.r - node.l
    if real then bin.copies * (cost.fixed + cost.perUnit * length) else 0
  else 0

/-- `solution.cpp:252–277`: `cutting_cost_`. -/
def cuttingCostPart (inst : Instance) (bin : SolutionBin) (st : NodeLoop) (node : Node) :
    NodeLoop :=
  { st with sol := { st.sol with
    cuttingCost := st.sol.cuttingCost + nodeCuttingCost inst bin node } }

/-- `solution.cpp:279–303`: the item's predecessor in its stack is not entirely packed. -/
def stackBroken (inst : Instance) (itemCopies : List Int) (node : Node) : Bool :=
  let it := inst.itemType node.itemTypeId.toNat
  let pred := inst.item it.stackId (it.stackPos - 1)
  decide (node.d ≥ 1) && decide (node.itemTypeId ≥ 0) && decide (it.stackPos > 0)
    && decide (itemCopies.getD pred 0 ≠ (inst.itemType pred).copies)

/-- `solution.cpp:305–318`: the item lies on a defect. -/
def itemOnDefect (bt : BinType) (node : Node) : Bool :=
  decide (node.d ≥ 1) && decide (node.itemTypeId ≥ 0)
    && rectIntersectsDefect node.l node.r node.b node.t bt

/-- `solution.cpp:320–346`: a side of the node goes through a defect. -/
def cutOnDefect (inst : Instance) (bt : BinType) (node : Node) : Bool :=
  !inst.parameters.cutThroughDefects && decide (node.d ≥ 1)
    && (xIntersectsDefect node.l node.b node.t bt || xIntersectsDefect node.r node.b node.t bt
      || yIntersectsDefect node.l node.r node.b bt || yIntersectsDefect node.l node.r node.t bt)

/-- `solution.cpp:279–346`: stacks and defects. -/
def defectPart (inst : Instance) (bin : SolutionBin) (st : NodeLoop) (node : Node) : NodeLoop :=
  let bt := inst.binType bin.binTypeId
  { st with sol := { st.sol with
    stacksFeasible := st.sol.stacksFeasible && !stackBroken inst st.sol.itemCopies node
    defectsFeasible := st.sol.defectsFeasible && !itemOnDefect bt node
    cutThroughDefectsFeasible := st.sol.cutThroughDefectsFeasible && !cutOnDefect inst bt node } }

/-- One iteration of the loop over the nodes, `solution.cpp:82–347`. -/
def nodeStep (inst : Instance) (bin : SolutionBin) (st : NodeLoop) (node : Node) : NodeLoop :=
  let st := itemPart inst bin st node
  let st := residualPart st node
  let st := extentPart st node
  let st := leftoverPart st node
  let st := sizePart inst bin st node
  let st := count1Part inst bin st node
  let st := count2Part inst bin st node
  let st := cuttingCostPart inst bin st node
  defectPart inst bin st node

/-! ## `update_indicators`: stages -/

/-- The node has the rectangle of its parent, `solution.cpp:353–357`. -/
def sameAsParent (nodes : List Node) (n : Node) : Bool :=
  match n.f with
  | none => false
  | some f =>
    let p := nodes.getD f default
    decide (n.l = p.l) && decide (n.r = p.r) && decide (n.b = p.b) && decide (n.t = p.t)

/-- `number_of_stages_real`, `solution.cpp:352–360`. -/
def stagesReal (nodes : List Node) (start : Int) : Int :=
  nodes.foldl (fun m n => if sameAsParent nodes n then m else max m n.d) start

/-- The children that are not residual, and those that hold an item, `solution.cpp:384–393`. -/
def childCounts (nodes : List Node) (n : Node) : Int × Int :=
  n.children.foldl (fun c i =>
    let child := nodes.getD i default
    if child.itemTypeId = -3 then c
    else (c.1 + 1, if child.itemTypeId ≥ 0 then c.2 + 1 else c.2)) (0, 0)

/-- State of the second staging pass, `solution.cpp:372–405`. -/
structure StageLoop where
  allNonExact : Bool := true
  allRoadef : Bool := true
  anyRoadef : Bool := false
  found : Bool := false

/-- One iteration of the second staging pass, `solution.cpp:377–405`. -/
def stageStep (nodes : List Node) (real : Int) (s : StageLoop) (n : Node) : StageLoop :=
  if n.itemTypeId ≠ -2 ∨ n.d ≠ real - 1 then s
  else
    let c := childCounts nodes n
    let s := { s with found := true }
    if c.2 = 1 ∧ c.1 ≤ 2 then s
    else if c.2 ≥ 2 ∧ c.1 ≤ 3 then { s with anyRoadef := true, allNonExact := false }
    else { s with allNonExact := false, allRoadef := false }

/-- The staging attributes of a bin, `solution.cpp:348–423`. -/
def stageBin (inst : Instance) (bin : SolutionBin) : SolutionBin :=
  let real := stagesReal bin.nodes bin.numberOfStagesReal
  let s := bin.nodes.foldl (stageStep bin.nodes real) {}
  let nonExact := if real > 0 ∧ s.found then s.allNonExact else bin.cutTypeIsNonExact
  let roadef :=
    if real > 0 ∧ s.found then s.allRoadef && s.anyRoadef else bin.cutTypeIsRoadef2018
  let extra := (decide (inst.parameters.cutType = .nonExact) && nonExact)
    || (decide (inst.parameters.cutType = .roadef2018) && (nonExact || roadef))
  { bin with
    numberOfStagesReal := real
    cutTypeIsNonExact := nonExact
    cutTypeIsRoadef2018 := roadef
    numberOfStages := if extra then real - 1 else real }

/-! ## `update_indicators` -/

/-- All vector accesses of `update_indicators(bin_pos)` are in range: the bin and its type,
`cutting_costs[0]`, the item types, their resources and stacks, the fathers and children. -/
def Solution.inRange (inst : Instance) (s : Solution) (binPos : Nat) : Bool :=
  let bin := s.bins.getD binPos default
  decide (binPos < s.bins.length)
  && decide (bin.binTypeId < inst.numberOfBinTypes)
  && !(decide (inst.objective = .binPackingCuttingCost)
      && decide (inst.parameters.cuttingCosts = []))
  && bin.nodes.all (fun n =>
      (match n.f with | none => true | some f => decide (f < bin.nodes.length))
      && n.children.all (fun c => decide (c < bin.nodes.length))
      && (decide (n.itemTypeId < 0) || n.f.isNone && decide (n.d < 1)
        || (let it := inst.itemType n.itemTypeId.toNat
            decide (n.itemTypeId.toNat < inst.numberOfItemTypes)
            && decide (bin.binTypeId < it.resourceIds.length)
            && (it.resourceIds.getD bin.binTypeId []).all
                (fun r => decide (r < (inst.binType bin.binTypeId).resources.length))
            && (!decide (it.stackPos > 0)
              || (let i := inst.stackIndex it.stackId (it.stackPos - 1)
                  decide (0 ≤ it.stackId) && decide (it.stackId < inst.stackOffsets.length)
                  && decide (0 ≤ i) && decide (i < inst.itemTypeIds.length)
                  && decide (inst.item it.stackId (it.stackPos - 1)
                      < inst.numberOfItemTypes))))))

/-- The state in which the loop over the nodes starts, `solution.cpp:50–81`. -/
def Solution.startBin (inst : Instance) (s : Solution) (bin : SolutionBin) : NodeLoop :=
  let bt := inst.binType bin.binTypeId
  let cost0 := inst.parameters.cuttingCosts.getD 0 {}
  let fullArea := s.fullArea + bin.copies * bt.area
  { sol := { s with
      numberOfBins := s.numberOfBins + bin.copies
      binCopies := addAt s.binCopies bin.binTypeId bin.copies
      cost := s.cost + (bin.copies : ℚ) * bt.cost
      cuttingCost :=
        if inst.objective = .binPackingCuttingCost then
          s.cuttingCost + bin.copies * (cost0.fixed + cost0.perUnit * bt.area)
        else s.cuttingCost
      fullArea := fullArea
      area := fullArea
      secondLeftoverValue := 0
      width := 0
      height := 0 }
    consumption := List.replicate bt.resources.length 0
    copiesInBin := List.replicate inst.numberOfItemTypes 0 }

/-- The conjunction of `solution.cpp:458–472`. -/
def Solution.allFeasible (s : Solution) : Bool :=
  s.numberOfStagesFeasible && s.minimumWasteLengthFeasible
    && s.minimumDistance1CutsFeasible && s.maximumDistance1CutsFeasible
    && s.minimumDistance2CutsFeasible && s.maximumDistance2CutsFeasible
    && s.maximumNumber1CutsFeasible && s.maximumNumber2CutsFeasible
    && s.stacksFeasible && s.defectsFeasible && s.cutThroughDefectsFeasible
    && s.itemCopiesFeasible && s.resourceFeasible && s.callbackFeasible
    && decide (s.numberOfInfeasibleItemCopiesMin = 0)

/-- The part of `update_indicators` before the call of `exit`, `solution.cpp:47–431`. -/
def Solution.updateNodes (inst : Instance) (s : Solution) (binPos : Nat) : Solution :=
  let bin := s.bins.getD binPos default
  let st := bin.nodes.foldl (nodeStep inst bin) (s.startBin inst bin)
  let bin' := stageBin inst { bin with resourceConsumption := st.consumption }
  let stages := max st.sol.numberOfStages bin'.numberOfStages
  { st.sol with
    bins := s.bins.set binPos bin'
    numberOfStages := stages
    numberOfStagesFeasible :=
      st.sol.numberOfStagesFeasible && !decide (stages > inst.parameters.numberOfStages) }

/-- The part of `update_indicators` after the call of `exit`, `solution.cpp:441–472`. -/
def Solution.updateFlags (inst : Instance) (wasteBefore : Int) (s : Solution) : Solution :=
  let s := { s with
    cuttingCost := s.cuttingCost + inst.parameters.wasteCost * (s.waste - wasteBefore)
    numberOfInfeasibleItemCopiesMin := countInfeasibleMin inst s.itemCopies
    callbackFeasible := inst.callback s.bins }
  { s with feasible := s.allFeasible }

/-- `Solution::update_indicators`, `solution.cpp:47–473`.  A waste that is too small ends the
process. -/
def Solution.updateIndicators (inst : Instance) (s : Solution) (binPos : Nat) :
    Except Err Solution :=
  if s.inRange inst binPos then
    let s' := s.updateNodes inst binPos
    if !s'.minimumWasteLengthFeasible then .error .exit
    else .ok (s'.updateFlags inst s.waste)
  else .error .ub

/-! ## Appending bins -/

/-- `append_bin`, `solution.cpp:482–488`: the residual of the last bin becomes waste again. -/
def Solution.clearResidual (s : Solution) : Solution :=
  match s.bins.getLast? with
  | none => s
  | some bin =>
    match bin.nodes.getLast? with
    | none => s
    | some node =>
      if node.itemTypeId = -3 then
        { s with
          bins := s.bins.set (s.bins.length - 1) { bin with
            nodes := bin.nodes.set (bin.nodes.length - 1) { node with itemTypeId := -1 } }
          area := s.area - node.area }
      else s

/-- Relabel an id through a map; an empty map means "unchanged"; out of range is undefined
behaviour. -/
def relabel (ids : List Nat) (i : Nat) : Option Nat :=
  if ids.isEmpty then some i else ids[i]?

/-- One node of the appended bin, `solution.cpp:497–510`; the code compares `node.t`, not the
item type, with `-4`. -/
def relabelNode (bt : BinType) (binTypeId : Nat) (itemTypeIds : List Nat) (n : Node) :
    Option Node :=
  if n.t = -4 then some n
  else if n.f = none then some { n with itemTypeId := binTypeId, r := bt.w, t := bt.h }
  else if n.itemTypeId ≥ 0 then
    (relabel itemTypeIds n.itemTypeId.toNat).map fun j => { n with itemTypeId := j }
  else some n

/-- `Solution::append_bin`, `solution.cpp:475–513`. -/
def Solution.appendBin (inst : Instance) (s : Solution) (other : Solution) (binPos : Nat)
    (copies : Int) (binTypeIds itemTypeIds : List Nat) : Except Err Solution :=
  let s := s.clearResidual
  match other.bins[binPos]? with
  | none => .error .ub
  | some old =>
    match relabel binTypeIds old.binTypeId with
    | none => .error .ub
    | some b =>
      if b ≥ inst.numberOfBinTypes then .error .ub
      else
        match old.nodes.mapM (relabelNode (inst.binType b) b itemTypeIds) with
        | none => .error .ub
        | some nodes =>
          ({ s with bins := s.bins ++ [{
              binTypeId := b
              copies := copies
              firstCutOrientation := old.firstCutOrientation
              nodes := nodes }] } : Solution).updateIndicators inst s.bins.length

/-- `Solution::append_bins`, `solution.cpp:515–522`: the loop runs to `number_of_bins()`, the
number of bins with their copies, and every bin is appended once. -/
def Solution.appendBins (inst : Instance) (s : Solution) (other : Solution)
    (binTypeIds itemTypeIds : List Nat) : Except Err Solution :=
  (List.range other.numberOfBins.toNat).foldlM
    (fun s pos => s.appendBin inst other pos 1 binTypeIds itemTypeIds) s

/-- `Solution::operator<`, `solution.cpp:536–577`; `this < other`. -/
def Solution.lt (inst : Instance) (this other : Solution) : Except Err Bool :=
  if !other.feasible then .ok false
  else if !this.feasible then .ok true
  else match inst.objective with
    | .default =>
      if strictlyLesserProfit other.profit this.profit then .ok false
      else if strictlyGreaterProfit other.profit this.profit then .ok true
      else .ok (decide (other.waste < this.waste))
    | .binPacking => .ok (decide (other.numberOfBins < this.numberOfBins))
    | .binPackingWithLeftovers =>
      if other.waste ≠ this.waste then .ok (decide (other.waste < this.waste))
      else .ok (decide (other.secondLeftoverValue > this.secondLeftoverValue))
    | .openDimensionX => .ok (decide (other.width < this.width))
    | .openDimensionY => .ok (decide (other.height < this.height))
    | .binPackingCuttingCost => .ok (decide (other.cuttingCost < this.cuttingCost))
    | .knapsack => .ok (strictlyGreaterProfit other.profit this.profit)
    | .feasibility => .ok (strictlyGreaterProfit other.profit this.profit)
    | .variableSizedBinPacking => .ok (strictlyLesserCost other.cost this.cost)
    | _ => .error .logicError

end PackingSolver.Guil
