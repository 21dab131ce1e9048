import Verif.Model.Rect.Instance

/-!
# Rectangle solutions

Models `src/rectangle/solution.cpp`, `include/packingsolver/rectangle/solution.hpp` and
`src/rectangle/solution_builder.cpp`.  `bin_weight_` (a sum of possibly infinite doubles, only
read by `weight_load` of the instance and the JSON output) is not modelled.
-/

namespace PackingSolver

/-- `q > e * PSTOL` for a maximum weight `e`. -/
def ExtQ.exceeded (q : ℚ) : ExtQ → Bool
  | .fin m => decide (q > m * pstol)
  | .inf => false

/-- `q - e` added to an overweight, when `q` exceeds `e` (never called on an infinite `e`). -/
def ExtQ.overweight (q : ℚ) : ExtQ → ℚ
  | .fin m => q - m
  | .inf => 0

end PackingSolver

namespace PackingSolver.Rect

/-- `struct SolutionBin`, `rectangle/solution.hpp:25–46`. -/
structure SolutionBin where
  binTypeId : Nat
  copies : Int
  items : List PlacedItem := []
  weight : List ℚ := []
  weightWeightedSum : List ℚ := []
  resourceConsumption : List ℚ := []
deriving DecidableEq, Repr

instance : Inhabited SolutionBin := ⟨{ binTypeId := 0, copies := 0 }⟩

/-- `class Solution`, `rectangle/solution.hpp:54–330`; the instance is passed separately. -/
structure Solution where
  bins : List SolutionBin := []
  numberOfBins : Int := 0
  numberOfItems : Int := 0
  area : Int := 0
  leftoverValue : ℚ := 0
  binArea : Int := 0
  itemArea : Int := 0
  itemWeight : ℚ := 0
  itemProfit : ℚ := 0
  binCost : ℚ := 0
  xMax : Int := 0
  yMax : Int := 0
  binCopies : List Int := []
  itemCopies : List Int := []
  numberOfInfeasibleItemCopiesMin : Int := 0
  itemCopiesFeasible : Bool := true
  resourceFeasible : Bool := true
  callbackFeasible : Bool := true
  feasible : Bool := true
  middleAxleOverweight : ℚ := 0
  rearAxleOverweight : ℚ := 0
deriving DecidableEq, Repr

/-- `v[i] += d`. -/
def addAt (l : List Int) (i : Nat) (d : Int) : List Int := l.modify i (· + d)

/-- `v[i] += d` on doubles. -/
def addAtQ (l : List ℚ) (i : Nat) (d : ℚ) : List ℚ := l.modify i (· + d)

/-- Number of item types packed fewer than `copies_min` times, `solution.cpp:110–116` (and the
constructor, `solution.hpp:69–75`, where all counts are zero). -/
def countInfeasibleMin (inst : Instance) (itemCopies : List Int) : Int :=
  (List.range inst.numberOfItemTypes).foldl
    (fun n i => if itemCopies.getD i 0 < (inst.itemType i).copiesMin then n + 1 else n) 0

/-- `item_copies_feasible_`, `solution.cpp:111–119`. -/
def withinCopies (inst : Instance) (itemCopies : List Int) : Bool :=
  (List.range inst.numberOfItemTypes).all
    (fun i => !decide (itemCopies.getD i 0 > (inst.itemType i).copies))

/-- `Solution::Solution(const Instance&)`, `solution.hpp:64–77`. -/
def Solution.init (inst : Instance) : Solution :=
  let itemCopies := List.replicate inst.numberOfItemTypes (0 : Int)
  let n := countInfeasibleMin inst itemCopies
  { binCopies := List.replicate inst.numberOfBinTypes 0
    itemCopies := itemCopies
    numberOfInfeasibleItemCopiesMin := n
    feasible := decide (n = 0) }

/-- State threaded through the resource loop, `solution.cpp:55–74`. -/
structure ResourceLoop where
  consumption : List ℚ
  itemProfit : ℚ
  resourceFeasible : Bool

/-- One iteration of the resource loop, `solution.cpp:55–74`. -/
def resourceStep (binType : BinType) (itemTypeId copy : Nat) (s : ResourceLoop)
    (resourceId : Nat) : ResourceLoop :=
  let resource := binType.resources.getD resourceId {}
  let previousConsumption := s.consumption.getD resourceId 0
  let consumption := addAtQ s.consumption resourceId (resource.itemConsumption itemTypeId copy)
  if consumption.getD resourceId 0 > resource.capacity then
    if resource.penalize then
      if previousConsumption ≤ resource.capacity then
        { s with consumption := consumption, itemProfit := s.itemProfit - resource.penalty }
      else { s with consumption := consumption }
    else { s with consumption := consumption, resourceFeasible := false }
  else { s with consumption := consumption }

/-- State threaded through the loop over the groups, `solution.cpp:77–91`. -/
structure WeightLoop where
  weight : List ℚ
  weightWeightedSum : List ℚ
  middle : ℚ := 0
  rear : ℚ := 0

/-- The x-coordinate of an item's center times its weight, `solution.cpp:82`. -/
def moment (x xe : Int) (weight : ℚ) : ℚ := ((x : ℚ) + ((xe - x : Int) : ℚ) / 2) * weight

/-- One iteration of the loop over the groups, `solution.cpp:79–91`. -/
def weightStep (binType : BinType) (x xe : Int) (itemWeight : ℚ) (s : WeightLoop) (g : Nat) :
    WeightLoop :=
  let weight := addAtQ s.weight g itemWeight
  let weightWeightedSum := addAtQ s.weightWeightedSum g (moment x xe itemWeight)
  let axle := binType.truck.computeAxleWeights (weightWeightedSum.getD g 0) (weight.getD g 0)
  { weight := weight
    weightWeightedSum := weightWeightedSum
    middle := if ExtQ.exceeded axle.1 binType.truck.middleAxleMaximumWeight
      then s.middle + ExtQ.overweight axle.1 binType.truck.middleAxleMaximumWeight else s.middle
    rear := if ExtQ.exceeded axle.2 binType.truck.rearAxleMaximumWeight
      then s.rear + ExtQ.overweight axle.2 binType.truck.rearAxleMaximumWeight else s.rear }

/-- Loop state of the item loop of `update_indicators`, `solution.cpp:38–107`. -/
structure ItemLoop where
  sol : Solution
  weight : List ℚ := []
  weightWeightedSum : List ℚ := []
  resourceConsumption : List ℚ := []
  itemTypeCopiesInBin : List Nat := []

/-- `leftover_value_`, `solution.cpp:94–106`. -/
def leftover (inst : Instance) (binType : BinType) (binArea area xMax yMax : Int) : ℚ :=
  match inst.parameters.leftoverMode with
  | .area => ((binArea - area : Int) : ℚ)
  | .x => ((binType.x - xMax : Int) : ℚ)
  | .y => ((binType.y - yMax : Int) : ℚ)

/-- `x_max_`, `y_max_`, `area_` and `leftover_value_`, updated in the last bin only,
`solution.cpp:92–106`. -/
def extentStep (inst : Instance) (binType : BinType) (isLast : Bool) (xe ye : Int)
    (s : Solution) : Solution :=
  if isLast then
    let xMax := if s.xMax < xe then xe else s.xMax
    let yMax := if s.yMax < ye then ye else s.yMax
    let area := s.binArea - binType.area + xMax * yMax
    { s with
      xMax := xMax
      yMax := yMax
      area := area
      leftoverValue := leftover inst binType s.binArea area xMax yMax }
  else s

/-- One iteration of the item loop, `solution.cpp:42–107`. -/
def itemStep (inst : Instance) (binTypeId : Nat) (binCopies : Int) (isLast : Bool)
    (st : ItemLoop) (item : PlacedItem) : ItemLoop :=
  let binType := inst.binType binTypeId
  let itemType := inst.itemType item.itemTypeId
  let xe := item.x + itemType.width item.rotate
  let ye := item.y + itemType.height item.rotate
  let copy := st.itemTypeCopiesInBin.getD item.itemTypeId 0
  let res := (itemType.resourceIds.getD binTypeId []).foldl
    (resourceStep binType item.itemTypeId copy)
    { consumption := st.resourceConsumption
      itemProfit := st.sol.itemProfit + (binCopies : ℚ) * itemType.profit
      resourceFeasible := st.sol.resourceFeasible }
  let w := (List.range (itemType.groupId + 1)).foldl
    (weightStep binType item.x xe itemType.weight)
    { weight := st.weight, weightWeightedSum := st.weightWeightedSum }
  { sol := extentStep inst binType isLast xe ye { st.sol with
      itemArea := st.sol.itemArea + binCopies * itemType.area
      itemWeight := st.sol.itemWeight + (binCopies : ℚ) * itemType.weight
      itemProfit := res.itemProfit
      numberOfItems := st.sol.numberOfItems + binCopies
      itemCopies := addAt st.sol.itemCopies item.itemTypeId binCopies
      resourceFeasible := res.resourceFeasible
      middleAxleOverweight := w.middle
      rearAxleOverweight := w.rear }
    weight := w.weight
    weightWeightedSum := w.weightWeightedSum
    resourceConsumption := res.consumption
    itemTypeCopiesInBin := st.itemTypeCopiesInBin.modify item.itemTypeId (· + 1) }

/-- The view of the bins handed to the callback. -/
def binsView (bins : List SolutionBin) : List PackedBin :=
  bins.map fun b => ⟨b.binTypeId, b.copies, b.items⟩

/-- All vector accesses of `update_indicators(bin_pos)` are in range: `bins_[bin_pos]`,
`bin_type(...)`, `item_type(...)` and `bin.weight[group_id]`. -/
def Solution.inRange (inst : Instance) (s : Solution) (binPos : Nat) : Bool :=
  decide (binPos < s.bins.length)
  && decide ((s.bins.getD binPos default).binTypeId < inst.numberOfBinTypes)
  && (s.bins.getD binPos default).items.all
      (fun it => decide (it.itemTypeId < inst.numberOfItemTypes))

/-- The state in which the item loop starts, `solution.cpp:27–41`. -/
def Solution.startBin (inst : Instance) (s : Solution) (binPos : Nat) : ItemLoop :=
  let bin := s.bins.getD binPos default
  let binType := inst.binType bin.binTypeId
  { sol := { s with
      binCopies := addAt s.binCopies bin.binTypeId bin.copies
      numberOfBins := s.numberOfBins + bin.copies
      binCost := s.binCost + (bin.copies : ℚ) * binType.cost
      binArea := s.binArea + bin.copies * binType.area
      xMax := 0
      yMax := 0 }
    weight := List.replicate inst.numberOfGroups 0
    weightWeightedSum := List.replicate inst.numberOfGroups 0
    resourceConsumption := List.replicate binType.resources.length 0
    itemTypeCopiesInBin := List.replicate inst.numberOfItemTypes 0 }

/-- `Solution::update_indicators`, `solution.cpp:21–131`, when every access is in range. -/
def Solution.updateIndicatorsTotal (inst : Instance) (s : Solution) (binPos : Nat) : Solution :=
  let bin := s.bins.getD binPos default
  let st := bin.items.foldl
    (itemStep inst bin.binTypeId bin.copies (decide (binPos + 1 = s.bins.length)))
    (s.startBin inst binPos)
  let bin' : SolutionBin := { bin with
    weight := st.weight
    weightWeightedSum := st.weightWeightedSum
    resourceConsumption := st.resourceConsumption }
  let s2 := { st.sol with bins := s.bins.set binPos bin' }
  -- lines 109–119
  let s3 := { s2 with
    numberOfInfeasibleItemCopiesMin := countInfeasibleMin inst s2.itemCopies
    itemCopiesFeasible := withinCopies inst s2.itemCopies }
  -- lines 122–130
  let s4 := { s3 with callbackFeasible := inst.callback (binsView s3.bins) }
  { s4 with
    feasible := s4.itemCopiesFeasible && s4.callbackFeasible && s4.resourceFeasible
      && decide (s4.numberOfInfeasibleItemCopiesMin = 0) }

/-- `Solution::update_indicators`, `solution.cpp:21–131`. -/
def Solution.updateIndicators (inst : Instance) (s : Solution) (binPos : Nat) :
    Except Err Solution :=
  if s.inRange inst binPos then .ok (s.updateIndicatorsTotal inst binPos) else .error .ub

/-- `bins_.push_back(bin); update_indicators(bins_.size() - 1);`, the common tail of `append_bin`
and `append_empty_bin`, `solution.cpp:155–156,177–178`. -/
def Solution.pushBin (inst : Instance) (s : Solution) (bin : SolutionBin) : Except Err Solution :=
  ({ s with bins := s.bins ++ [bin] } : Solution).updateIndicators inst s.bins.length

/-- Relabel an id through a map; an empty map means "unchanged", `solution.cpp:142–144,149–151`;
out of range is undefined behaviour. -/
def relabel (ids : List Nat) (i : Nat) : Option Nat :=
  if ids.isEmpty then some i else ids[i]?

/-- The relabelled items of a bin, `solution.cpp:148–154`. -/
def relabelItems (itemTypeIds : List Nat) (items : List PlacedItem) : Option (List PlacedItem) :=
  items.mapM fun it => (relabel itemTypeIds it.itemTypeId).map fun j => { it with itemTypeId := j }

/-- `Solution::append_bin`, `solution.cpp:134–157`. -/
def Solution.appendBin (inst : Instance) (s : Solution) (other : Solution) (binPos : Nat)
    (copies : Int) (binTypeIds itemTypeIds : List Nat) : Except Err Solution :=
  match other.bins[binPos]? with
  | none => .error .ub
  | some bin =>
    match relabel binTypeIds bin.binTypeId, relabelItems itemTypeIds bin.items with
    | some b, some items => s.pushBin inst { binTypeId := b, copies := copies, items := items }
    | _, _ => .error .ub

/-- `Solution::append_bins`, `solution.cpp:159–168`. -/
def Solution.appendBins (inst : Instance) (s : Solution) (other : Solution)
    (binTypeIds itemTypeIds : List Nat) : Except Err Solution :=
  (List.range other.bins.length).foldlM
    (fun s pos => s.appendBin inst other pos (other.bins.getD pos default).copies
      binTypeIds itemTypeIds) s

/-- `Solution::append_empty_bin`, `solution.cpp:170–179`. -/
def Solution.appendEmptyBin (inst : Instance) (s : Solution) (binTypeId : Nat) (copies : Int) :
    Except Err Solution :=
  s.pushBin inst { binTypeId := binTypeId, copies := copies }

/-- `full()`, `solution.hpp:154`. -/
def Solution.full (inst : Instance) (s : Solution) : Bool :=
  decide (s.numberOfItems = inst.numberOfItems)

/-- `waste()`, `solution.hpp:203`. -/
def Solution.waste (s : Solution) : Int := s.area - s.itemArea

/-- `full_waste()`, `solution.hpp:209`. -/
def Solution.fullWaste (s : Solution) : Int := s.binArea - s.itemArea

/-- Conversion of a `double` to the integer type `ItemPos`: truncation towards zero. -/
def truncate (q : ℚ) : Int := q.num.tdiv q.den

/-- `middle_axle_overweight()`, `solution.hpp:215`: the getter returns an integer. -/
def Solution.middleOverweight (s : Solution) : Int := truncate s.middleAxleOverweight

/-- `rear_axle_overweight()`, `solution.hpp:218`: the getter returns an integer. -/
def Solution.rearOverweight (s : Solution) : Int := truncate s.rearAxleOverweight

/-- `Solution::operator<`, `solution.cpp:198–243`; `this < other`. -/
def Solution.lt (inst : Instance) (this other : Solution) : Except Err Bool :=
  if !other.feasible then .ok false
  else if !this.feasible then .ok true
  else match inst.objective with
    | .default =>
      if strictlyLesserProfit other.itemProfit this.itemProfit then .ok false
      else if strictlyGreaterProfit other.itemProfit this.itemProfit then .ok true
      else .ok (decide (other.waste < this.waste))
    | .binPacking => .ok (decide (other.numberOfBins < this.numberOfBins))
    | .binPackingWithLeftovers =>
      if other.numberOfBins ≠ this.numberOfBins then
        .ok (decide (other.numberOfBins < this.numberOfBins))
      else .ok (strictlyGreater other.leftoverValue this.leftoverValue)
    | .openDimensionX => .ok (decide (other.xMax < this.xMax))
    | .openDimensionY => .ok (decide (other.yMax < this.yMax))
    | .knapsack => .ok (strictlyGreaterProfit other.itemProfit this.itemProfit)
    | .feasibility => .ok (strictlyGreaterProfit other.itemProfit this.itemProfit)
    | .variableSizedBinPacking => .ok (strictlyLesserCost other.binCost this.binCost)
    | .sequentialOneDimensionalRectangleSubproblem =>
      if !equalProfit other.itemProfit this.itemProfit then
        .ok (strictlyGreaterProfit other.itemProfit this.itemProfit)
      else if other.middleOverweight + other.rearOverweight
          ≠ this.middleOverweight + this.rearOverweight then
        .ok (decide (other.middleOverweight + other.rearOverweight
          < this.middleOverweight + this.rearOverweight))
      else .ok (decide (other.xMax < this.xMax))
    | _ => .error .logicError

/-! ## Solution builder -/

/-- State of `SolutionBuilder`, `rectangle/solution_builder.hpp`: the solution under
construction. -/
structure SolutionBuilder where
  sol : Solution

/-- `SolutionBuilder::SolutionBuilder(const Instance&)`, `solution_builder.hpp:16`. -/
def SolutionBuilder.new (inst : Instance) : SolutionBuilder := ⟨.init inst⟩

/-- `SolutionBuilder::add_bin`, `solution_builder.cpp:8–21`; the read of
`instance.bin_type(bin_type_id)` is undefined behaviour out of range. -/
def SolutionBuilder.addBin (inst : Instance) (sb : SolutionBuilder) (binTypeId : Nat)
    (copies : Int) : Except Err SolutionBuilder :=
  if binTypeId < inst.numberOfBinTypes then
    .ok ⟨{ sb.sol with bins := sb.sol.bins ++ [{ binTypeId := binTypeId, copies := copies }] }⟩
  else .error .ub

/-- `SolutionBuilder::add_item`, `solution_builder.cpp:23–62`; a negative position passes the
check and is undefined behaviour (positions are natural numbers here, the caller's `-1` is
handled where it can occur). -/
def SolutionBuilder.addItem (inst : Instance) (sb : SolutionBuilder) (binPos : Nat)
    (itemTypeId : Nat) (x y : Int) (rotate : Bool) : Except Err SolutionBuilder :=
  if binPos ≥ sb.sol.bins.length then .error .invalidArgument
  else if itemTypeId ≥ inst.numberOfItemTypes then .error .invalidArgument
  else if rotate && (inst.itemType itemTypeId).oriented then .error .invalidArgument
  else .ok ⟨{ sb.sol with
    bins := sb.sol.bins.modify binPos
      (fun b => { b with items := b.items ++ [⟨itemTypeId, x, y, rotate⟩] }) }⟩

/-- `SolutionBuilder::build`, `solution_builder.cpp:126–137`. -/
def SolutionBuilder.build (inst : Instance) (sb : SolutionBuilder) : Except Err Solution :=
  (List.range sb.sol.bins.length).foldlM (fun s pos => s.updateIndicators inst pos) sb.sol

/-- Operations a caller of `SolutionBuilder` can perform. -/
inductive BuilderOp where
  | addBin (binTypeId : Nat) (copies : Int)
  | addItem (binPos itemTypeId : Nat) (x y : Int) (rotate : Bool)
deriving DecidableEq, Repr

/-- Run one builder operation. -/
def SolutionBuilder.step (inst : Instance) (sb : SolutionBuilder) :
    BuilderOp → Except Err SolutionBuilder
  | .addBin b c => sb.addBin inst b c
  | .addItem p i x y r => sb.addItem inst p i x y r

/-- A caller's whole use of the builder: operations, then `build`. -/
def SolutionBuilder.runOps (inst : Instance) (ops : List BuilderOp) : Except Err Solution := do
  let sb ← ops.foldlM (SolutionBuilder.step inst) (SolutionBuilder.new inst)
  sb.build inst

end PackingSolver.Rect
