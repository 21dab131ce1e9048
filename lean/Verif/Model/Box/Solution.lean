import Verif.Model.Box.Instance

/-!
# Box solutions

Models `src/box/solution.cpp`, `include/packingsolver/box/solution.hpp` and
`src/box/solution_builder.cpp`.  `bin_weight_` (a sum of possibly infinite doubles, only read by
`weight_load` of the instance and the JSON output) is not modelled.
-/

namespace PackingSolver.Box

/-- `struct SolutionBin`, `box/solution.hpp:25–44`. -/
structure SolutionBin where
  binTypeId : Nat
  copies : Int
  items : List PlacedItem := []
  weight : ℚ := 0
  profit : ℚ := 0
  resourceConsumption : List ℚ := []
deriving DecidableEq, Repr

instance : Inhabited SolutionBin := ⟨{ binTypeId := 0, copies := 0 }⟩

/-- `class Solution`, `box/solution.hpp:52–345`; the instance is passed separately.
`leftover_value_` is a double with integer values. -/
structure Solution where
  bins : List SolutionBin := []
  numberOfBins : Int := 0
  numberOfItems : Int := 0
  volume : Int := 0
  leftoverValue : Int := 0
  binVolume : Int := 0
  binArea : Int := 0
  itemVolume : Int := 0
  itemWeight : ℚ := 0
  itemProfit : ℚ := 0
  binCost : ℚ := 0
  xMax : Int := 0
  yMax : Int := 0
  zMax : Int := 0
  numberOfStacks : Int := 0
  stackArea : Int := 0
  binCopies : List Int := []
  itemCopies : List Int := []
  numberOfInfeasibleItemCopiesMin : Int := 0
  itemCopiesFeasible : Bool := true
  resourceFeasible : Bool := true
  callbackFeasible : Bool := true
  feasible : Bool := true
deriving DecidableEq, Repr

/-- `v[i] += d`. -/
def addAt (l : List Int) (i : Nat) (d : Int) : List Int := l.modify i (· + d)

/-- `v[i] += d` on doubles. -/
def addAtQ (l : List ℚ) (i : Nat) (d : ℚ) : List ℚ := l.modify i (· + d)

/-- Number of item types packed fewer than `copies_min` times, `solution.cpp:92–98` (and the
constructor, `solution.hpp:67–72`, where all counts are zero). -/
def countInfeasibleMin (inst : Instance) (itemCopies : List Int) : Int :=
  (List.range inst.numberOfItemTypes).foldl
    (fun n i => if itemCopies.getD i 0 < (inst.itemType i).copiesMin then n + 1 else n) 0

/-- `item_copies_feasible_`, `solution.cpp:93–102`. -/
def withinCopies (inst : Instance) (itemCopies : List Int) : Bool :=
  (List.range inst.numberOfItemTypes).all
    (fun i => !decide (itemCopies.getD i 0 > (inst.itemType i).copies))

/-- `Solution::Solution(const Instance&)`, `solution.hpp:62–74`. -/
def Solution.init (inst : Instance) : Solution :=
  let itemCopies := List.replicate inst.numberOfItemTypes (0 : Int)
  let n := countInfeasibleMin inst itemCopies
  { binCopies := List.replicate inst.numberOfBinTypes 0
    itemCopies := itemCopies
    numberOfInfeasibleItemCopiesMin := n
    feasible := decide (n = 0) }

/-- State threaded through the resource loop, `solution.cpp:57–77`. -/
structure ResourceLoop where
  consumption : List ℚ
  itemProfit : ℚ
  resourceFeasible : Bool

/-- One iteration of the resource loop, `solution.cpp:57–77`. -/
def resourceStep (binType : BinType) (itemTypeId copy : Nat) (s : ResourceLoop)
    (resourceId : Nat) : ResourceLoop :=
  let resource := binType.resources.getD resourceId {}
  let previousConsumption := s.consumption.getD resourceId 0
  let consumption := addAtQ s.consumption resourceId (resource.itemConsumption itemTypeId copy)
  if consumption.getD resourceId 0 > resource.capacity then
    if resource.penalize then
      if previousConsumption ≤ resource.capacity then
        { s with consumption := consumption, itemProfit := s.itemProfit - resource.penalty }
      else { s with consumption := consumption }
    else { s with consumption := consumption, resourceFeasible := false }
  else { s with consumption := consumption }

/-- Loop state of the item loop of `update_indicators`, `solution.cpp:40–90`. -/
structure ItemLoop where
  sol : Solution
  weight : ℚ := 0
  profit : ℚ := 0
  resourceConsumption : List ℚ := []
  itemTypeCopiesInBin : List Nat := []

/-- `x_max_`, `y_max_`, `z_max_`, `volume_` and `leftover_value_`, updated in the last bin only,
`solution.cpp:80–89`. -/
def extentStep (binType : BinType) (isLast : Bool) (xe ye ze : Int) (s : Solution) : Solution :=
  if isLast then
    let xMax := if s.xMax < xe then xe else s.xMax
    let yMax := if s.yMax < ye then ye else s.yMax
    let zMax := if s.zMax < ze then ze else s.zMax
    let volume := s.binVolume - binType.volume + xMax * yMax * zMax
    { s with
      xMax := xMax
      yMax := yMax
      zMax := zMax
      volume := volume
      leftoverValue := s.binVolume - volume }
  else s

/-- One iteration of the item loop, `solution.cpp:41–90`. -/
def itemStep (inst : Instance) (binTypeId : Nat) (binCopies : Int) (isLast : Bool)
    (st : ItemLoop) (item : PlacedItem) : ItemLoop :=
  let binType := inst.binType binTypeId
  let itemType := inst.itemType item.itemTypeId
  let box := itemType.box.rotate item.rotation
  let xe := item.x + box.x
  let ye := item.y + box.y
  let ze := item.z + box.z
  let copy := st.itemTypeCopiesInBin.getD item.itemTypeId 0
  let res := (itemType.resourceIds.getD binTypeId []).foldl
    (resourceStep binType item.itemTypeId copy)
    { consumption := st.resourceConsumption
      itemProfit := st.sol.itemProfit + (binCopies : ℚ) * itemType.profit
      resourceFeasible := st.sol.resourceFeasible }
  { sol := extentStep binType isLast xe ye ze { st.sol with
      itemVolume := st.sol.itemVolume + binCopies * itemType.box.volume
      itemWeight := st.sol.itemWeight + (binCopies : ℚ) * itemType.weight
      itemProfit := res.itemProfit
      numberOfItems := st.sol.numberOfItems + binCopies
      itemCopies := addAt st.sol.itemCopies item.itemTypeId binCopies
      resourceFeasible := res.resourceFeasible }
    weight := st.weight + itemType.weight
    profit := st.profit + itemType.profit
    resourceConsumption := res.consumption
    itemTypeCopiesInBin := st.itemTypeCopiesInBin.modify item.itemTypeId (· + 1) }

/-- The view of the bins handed to the callback. -/
def binsView (bins : List SolutionBin) : List PackedBin :=
  bins.map fun b => ⟨b.binTypeId, b.copies, b.items⟩

/-- All vector accesses of `update_indicators(bin_pos)` are in range: `bins_[bin_pos]`,
`bin_type(...)` and `item_type(...)`. -/
def Solution.inRange (inst : Instance) (s : Solution) (binPos : Nat) : Bool :=
  decide (binPos < s.bins.length)
  && decide ((s.bins.getD binPos default).binTypeId < inst.numberOfBinTypes)
  && (s.bins.getD binPos default).items.all
      (fun it => decide (it.itemTypeId < inst.numberOfItemTypes))

/-- The state in which the item loop starts, `solution.cpp:24–40`: `z_max_` is not reset, and the
weight and profit of the bin are added to those it already has. -/
def Solution.startBin (inst : Instance) (s : Solution) (binPos : Nat) : ItemLoop :=
  let bin := s.bins.getD binPos default
  let binType := inst.binType bin.binTypeId
  { sol := { s with
      binCopies := addAt s.binCopies bin.binTypeId bin.copies
      numberOfBins := s.numberOfBins + bin.copies
      binCost := s.binCost + (bin.copies : ℚ) * binType.cost
      binVolume := s.binVolume + bin.copies * binType.volume
      binArea := s.binArea + bin.copies * binType.area
      xMax := 0
      yMax := 0 }
    weight := bin.weight
    profit := bin.profit
    resourceConsumption := List.replicate binType.resources.length 0
    itemTypeCopiesInBin := List.replicate inst.numberOfItemTypes 0 }

/-- `Solution::update_indicators`, `solution.cpp:21–110`, when every access is in range. -/
def Solution.updateIndicatorsTotal (inst : Instance) (s : Solution) (binPos : Nat) : Solution :=
  let bin := s.bins.getD binPos default
  let st := bin.items.foldl
    (itemStep inst bin.binTypeId bin.copies (decide (binPos + 1 = s.bins.length)))
    (s.startBin inst binPos)
  let bin' : SolutionBin := { bin with
    weight := st.weight
    profit := st.profit
    resourceConsumption := st.resourceConsumption }
  let s2 := { st.sol with bins := s.bins.set binPos bin' }
  -- lines 92–102
  let s3 := { s2 with
    numberOfInfeasibleItemCopiesMin := countInfeasibleMin inst s2.itemCopies
    itemCopiesFeasible := withinCopies inst s2.itemCopies }
  -- lines 104–109
  let s4 := { s3 with callbackFeasible := inst.callback (binsView s3.bins) }
  { s4 with
    feasible := s4.itemCopiesFeasible && s4.callbackFeasible && s4.resourceFeasible
      && decide (s4.numberOfInfeasibleItemCopiesMin = 0) }

/-- `Solution::update_indicators`, `solution.cpp:21–110`. -/
def Solution.updateIndicators (inst : Instance) (s : Solution) (binPos : Nat) :
    Except Err Solution :=
  if s.inRange inst binPos then .ok (s.updateIndicatorsTotal inst binPos) else .error .ub

/-- `bins_.push_back(bin); update_indicators(bins_.size() - 1);`, the common tail of `append_bin`
and `append_empty_bin`, `solution.cpp:132–133,154–155`. -/
def Solution.pushBin (inst : Instance) (s : Solution) (bin : SolutionBin) : Except Err Solution :=
  ({ s with bins := s.bins ++ [bin] } : Solution).updateIndicators inst s.bins.length

/-- Relabel an id through a map; an empty map means "unchanged", `solution.cpp:120–122,127–129`;
out of range is undefined behaviour. -/
def relabel (ids : List Nat) (i : Nat) : Option Nat :=
  if ids.isEmpty then some i else ids[i]?

/-- The relabelled items of a bin, `solution.cpp:126–131`. -/
def relabelItems (itemTypeIds : List Nat) (items : List PlacedItem) : Option (List PlacedItem) :=
  items.mapM fun it => (relabel itemTypeIds it.itemTypeId).map fun j => { it with itemTypeId := j }

/-- `Solution::append_bin`, `solution.cpp:112–134`. -/
def Solution.appendBin (inst : Instance) (s : Solution) (other : Solution) (binPos : Nat)
    (copies : Int) (binTypeIds itemTypeIds : List Nat) : Except Err Solution :=
  match other.bins[binPos]? with
  | none => .error .ub
  | some bin =>
    match relabel binTypeIds bin.binTypeId, relabelItems itemTypeIds bin.items with
    | some b, some items => s.pushBin inst { binTypeId := b, copies := copies, items := items }
    | _, _ => .error .ub

/-- `Solution::append_bins`, `solution.cpp:136–145`. -/
def Solution.appendBins (inst : Instance) (s : Solution) (other : Solution)
    (binTypeIds itemTypeIds : List Nat) : Except Err Solution :=
  (List.range other.bins.length).foldlM
    (fun s pos => s.appendBin inst other pos (other.bins.getD pos default).copies
      binTypeIds itemTypeIds) s

/-- `Solution::append_empty_bin`, `solution.cpp:147–156`. -/
def Solution.appendEmptyBin (inst : Instance) (s : Solution) (binTypeId : Nat) (copies : Int) :
    Except Err Solution :=
  s.pushBin inst { binTypeId := binTypeId, copies := copies }

/-- `full()`, `solution.hpp:164`. -/
def Solution.full (inst : Instance) (s : Solution) : Bool :=
  decide (s.numberOfItems = inst.numberOfItems)

/-- `waste()`, `solution.hpp:229`. -/
def Solution.waste (s : Solution) : Int := s.volume - s.itemVolume

/-- `full_waste()`, `solution.hpp:235`. -/
def Solution.fullWaste (s : Solution) : Int := s.binVolume - s.itemVolume

/-- `Solution::operator<`, `solution.cpp:158–200`; `this < other`.  There is no case for
`VariableSizedBinPacking`. -/
def Solution.lt (inst : Instance) (this other : Solution) : Except Err Bool :=
  if !other.feasible then .ok false
  else if !this.feasible then .ok true
  else match inst.objective with
    | .default =>
      if strictlyLesserProfit other.itemProfit this.itemProfit then .ok false
      else if strictlyGreaterProfit other.itemProfit this.itemProfit then .ok true
      else .ok (decide (other.waste < this.waste))
    | .binPacking => .ok (decide (other.numberOfBins < this.numberOfBins))
    | .binPackingWithLeftovers =>
      if other.numberOfBins ≠ this.numberOfBins then
        .ok (decide (other.numberOfBins < this.numberOfBins))
      else .ok (strictlyGreater (other.leftoverValue : ℚ) (this.leftoverValue : ℚ))
    | .openDimensionX => .ok (decide (other.xMax < this.xMax))
    | .openDimensionY => .ok (decide (other.yMax < this.yMax))
    | .openDimensionZ => .ok (decide (other.zMax < this.zMax))
    | .knapsack => .ok (strictlyGreaterProfit other.itemProfit this.itemProfit)
    | .feasibility => .ok (strictlyGreaterProfit other.itemProfit this.itemProfit)
    | _ => .error .logicError

/-! ## Solution builder -/

/-- State of `SolutionBuilder`, `box/solution_builder.hpp`: the solution under
construction. -/
structure SolutionBuilder where
  sol : Solution

/-- `SolutionBuilder::SolutionBuilder(const Instance&)`, `solution_builder.hpp:16`. -/
def SolutionBuilder.new (inst : Instance) : SolutionBuilder := ⟨.init inst⟩

/-- `SolutionBuilder::add_bin`, `solution_builder.cpp:10–24`; the read of
`instance.bin_type(bin_type_id)` is undefined behaviour out of range. -/
def SolutionBuilder.addBin (inst : Instance) (sb : SolutionBuilder) (binTypeId : Nat)
    (copies : Int) : Except Err SolutionBuilder :=
  if binTypeId < inst.numberOfBinTypes then
    .ok ⟨{ sb.sol with bins := sb.sol.bins ++ [{ binTypeId := binTypeId, copies := copies }] }⟩
  else .error .ub

/-- `SolutionBuilder::add_item`, `solution_builder.cpp:26–64`; a negative position passes the
check and is undefined behaviour (positions are natural numbers here). -/
def SolutionBuilder.addItem (inst : Instance) (sb : SolutionBuilder) (binPos : Nat)
    (itemTypeId : Nat) (x y z : Int) (rotation : Rotation) : Except Err SolutionBuilder :=
  if binPos ≥ sb.sol.bins.length then .error .invalidArgument
  else if itemTypeId ≥ inst.numberOfItemTypes then .error .invalidArgument
  else if !(inst.itemType itemTypeId).canRotate rotation then .error .invalidArgument
  else .ok ⟨{ sb.sol with
    bins := sb.sol.bins.modify binPos
      (fun b => { b with items := b.items ++ [⟨itemTypeId, x, y, z, rotation⟩] }) }⟩

/-- `SolutionBuilder::build`, `solution_builder.cpp:133–143`. -/
def SolutionBuilder.build (inst : Instance) (sb : SolutionBuilder) : Except Err Solution :=
  (List.range sb.sol.bins.length).foldlM (fun s pos => s.updateIndicators inst pos) sb.sol

/-- Operations a caller of `SolutionBuilder` can perform. -/
inductive BuilderOp where
  | addBin (binTypeId : Nat) (copies : Int)
  | addItem (binPos itemTypeId : Nat) (x y z : Int) (rotation : Rotation)
deriving DecidableEq, Repr

/-- Run one builder operation. -/
def SolutionBuilder.step (inst : Instance) (sb : SolutionBuilder) :
    BuilderOp → Except Err SolutionBuilder
  | .addBin b c => sb.addBin inst b c
  | .addItem p i x y z r => sb.addItem inst p i x y z r

/-- A caller's whole use of the builder: operations, then `build`. -/
def SolutionBuilder.runOps (inst : Instance) (ops : List BuilderOp) : Except Err Solution := do
  let sb ← ops.foldlM (SolutionBuilder.step inst) (SolutionBuilder.new inst)
  sb.build inst

end PackingSolver.Box
