import Verif.Model.Stacks.Instance
import Verif.Model.Rect.Solution

/-!
# Boxstacks solutions

Models `src/boxstacks/solution.cpp`, `include/packingsolver/boxstacks/solution.hpp` and
`src/boxstacks/solution_builder.cpp`.  `bin_weight_` (a sum of possibly infinite doubles, only read by
`weight_load` and the JSON output) is not modelled.  The list of stacks of a bin is called `piles`.
-/

namespace PackingSolver.Stacks

open PackingSolver.Box (Rotation)

/-- `struct SolutionItem`, `boxstacks/solution.hpp:10–20`. -/
structure SolutionItem where
  itemTypeId : Nat
  zStart : Int := 0
  rotation : Rotation
deriving DecidableEq, Repr

/-- `struct SolutionStack`, `boxstacks/solution.hpp:25–57`. -/
structure SolutionStack where
  xStart : Int
  xEnd : Int
  yStart : Int
  yEnd : Int
  zEnd : Int := 0
  items : List SolutionItem := []
  weight : List ℚ := []
  weightWeightedSum : List ℚ := []
  profit : ℚ := 0
deriving DecidableEq, Repr

/-- `struct SolutionBin`, `boxstacks/solution.hpp:62–86`. -/
structure SolutionBin where
  binTypeId : Nat
  copies : Int
  piles : List SolutionStack := []
  weight : List ℚ := []
  weightWeightedSum : List ℚ := []
  profit : ℚ := 0
deriving DecidableEq, Repr

instance : Inhabited SolutionBin := ⟨{ binTypeId := 0, copies := 0 }⟩

/-- `class Solution`, `boxstacks/solution.hpp:94–413`; the instance is passed separately. -/
structure Solution where
  bins : List SolutionBin := []
  numberOfBins : Int := 0
  numberOfStacks : Int := 0
  numberOfItems : Int := 0
  volume : Int := 0
  binVolume : Int := 0
  binArea : Int := 0
  stackArea : Int := 0
  binCost : ℚ := 0
  itemVolume : Int := 0
  itemWeight : ℚ := 0
  itemProfit : ℚ := 0
  xMax : Int := 0
  yMax : Int := 0
  binCopies : List Int := []
  itemCopies : List Int := []
  numberOfInfeasibleItemCopiesMin : Int := 0
  itemCopiesFeasible : Bool := true
  callbackFeasible : Bool := true
  feasible : Bool := true
deriving DecidableEq, Repr

/-- `v[i] += d`. -/
def addAt (l : List Int) (i : Nat) (d : Int) : List Int := l.modify i (· + d)

/-- `for (group_id = 0; group_id <= g; ++group_id) v[group_id] += d;`, `solution.cpp:71–75,78–82`. -/
def addUpTo (l : List ℚ) (g : Nat) (d : ℚ) : List ℚ :=
  (List.range (g + 1)).foldl (fun l i => l.modify i (· + d)) l

/-- Number of item types packed fewer than `copies_min` times, `solution.cpp:96–102` (and the
constructor, `solution.hpp:109–114`, where all counts are zero). -/
def countInfeasibleMin (inst : Instance) (itemCopies : List Int) : Int :=
  (List.range inst.numberOfItemTypes).foldl
    (fun n i => if itemCopies.getD i 0 < (inst.itemType i).copiesMin then n + 1 else n) 0

/-- `item_copies_feasible_`, `solution.cpp:97–105`. -/
def withinCopies (inst : Instance) (itemCopies : List Int) : Bool :=
  (List.range inst.numberOfItemTypes).all
    (fun i => !decide (itemCopies.getD i 0 > (inst.itemType i).copies))

/-- `Solution::Solution(const Instance&)`, `solution.hpp:104–116`. -/
def Solution.init (inst : Instance) : Solution :=
  let itemCopies := List.replicate inst.numberOfItemTypes (0 : Int)
  let n := countInfeasibleMin inst itemCopies
  { binCopies := List.replicate inst.numberOfBinTypes 0
    itemCopies := itemCopies
    numberOfInfeasibleItemCopiesMin := n
    feasible := decide (n = 0) }

/-- State of the loop over the items of a stack, `solution.cpp:59–94`: the totals of the solution, the
attributes of the bin, the stack with the items handled so far, and `first_item`. -/
structure ItemLoop where
  sol : Solution
  binWeight : List ℚ
  binWeightWeightedSum : List ℚ
  binProfit : ℚ
  pile : SolutionStack
  first : Bool := true

/-- One iteration of the loop over the items of a stack, `solution.cpp:61–93`. -/
def itemStep (inst : Instance) (binCopies : Int) (st : ItemLoop) (item : SolutionItem) : ItemLoop :=
  let itemType := inst.itemType item.itemTypeId
  let zj := itemType.z item.rotation
  let zStart := if st.first then st.pile.zEnd else st.pile.zEnd - itemType.nestingHeight
  let zEnd := zStart + zj
  let dx := st.pile.xEnd - st.pile.xStart
  let dy := st.pile.yEnd - st.pile.yStart
  let moment := ((st.pile.xStart : ℚ) + (dx : ℚ) / 2) * itemType.weight
  { sol := { st.sol with
      numberOfItems := st.sol.numberOfItems + binCopies
      itemCopies := addAt st.sol.itemCopies item.itemTypeId binCopies
      itemVolume := st.sol.itemVolume + binCopies * (zEnd - zStart) * dy * dx
      itemWeight := st.sol.itemWeight + (binCopies : ℚ) * itemType.weight
      itemProfit := st.sol.itemProfit + (binCopies : ℚ) * itemType.profit }
    binWeight := addUpTo st.binWeight itemType.groupId itemType.weight
    binWeightWeightedSum := addUpTo st.binWeightWeightedSum itemType.groupId moment
    binProfit := st.binProfit + itemType.profit
    pile := { st.pile with
      zEnd := zEnd
      items := st.pile.items ++ [{ item with zStart := zStart }]
      weight := addUpTo st.pile.weight itemType.groupId itemType.weight
      weightWeightedSum := addUpTo st.pile.weightWeightedSum itemType.groupId moment
      profit := st.pile.profit + itemType.profit }
    first := false }

/-- State of the loop over the stacks, `solution.cpp:39–95`: the totals, and the attributes of the bin
with the stacks handled so far. -/
structure PileLoop where
  sol : Solution
  weight : List ℚ
  weightWeightedSum : List ℚ
  profit : ℚ := 0
  piles : List SolutionStack := []

/-- `x_max_`, `y_max_` and `volume_`, updated in the last bin only, `solution.cpp:45–54`; the last term
is `(yi - y_max_ * xi)` in the code. -/
def extentStep (binType : BinType) (isLast : Bool) (xEnd yEnd : Int) (s : Solution) : Solution :=
  if isLast then
    let xMax := if s.xMax < xEnd then xEnd else s.xMax
    let yMax := if s.yMax < yEnd then yEnd else s.yMax
    { s with
      xMax := xMax
      yMax := yMax
      volume := s.binVolume - binType.box.z
        * max ((binType.box.x - xMax) * binType.box.y) (binType.box.y - yMax * binType.box.x) }
  else s

/-- One iteration of the loop over the stacks, `solution.cpp:40–94`. -/
def pileStep (inst : Instance) (binTypeId : Nat) (binCopies : Int) (isLast : Bool) (st : PileLoop)
    (pile : SolutionStack) : PileLoop :=
  let sol := extentStep (inst.binType binTypeId) isLast pile.xEnd pile.yEnd st.sol
  let sol := { sol with
    numberOfStacks := sol.numberOfStacks + binCopies
    stackArea := sol.stackArea
      + binCopies * (pile.xEnd - pile.xStart) * (pile.yEnd - pile.yStart) }
  let r := pile.items.foldl (itemStep inst binCopies)
    { sol := sol
      binWeight := st.weight
      binWeightWeightedSum := st.weightWeightedSum
      binProfit := st.profit
      pile := { pile with
        items := []
        weight := List.replicate inst.numberOfGroups 0
        weightWeightedSum := List.replicate inst.numberOfGroups 0
        profit := 0
        zEnd := 0 } }
  { sol := r.sol
    weight := r.binWeight
    weightWeightedSum := r.binWeightWeightedSum
    profit := r.binProfit
    piles := st.piles ++ [r.pile] }

/-- The view of the bins handed to the callback. -/
def viewPile (p : SolutionStack) : PackedStack :=
  ⟨p.xStart, p.xEnd, p.yStart, p.yEnd, p.items.map fun i => (i.itemTypeId, i.rotation)⟩

/-- The view of a bin. -/
def viewBin (b : SolutionBin) : PackedBin := ⟨b.binTypeId, b.copies, b.piles.map viewPile⟩

/-- The view of the bins. -/
def binsView (bins : List SolutionBin) : List PackedBin := bins.map viewBin

/-- `axle_weight > maximum * PSTOL`, where `compute_axle_weights` divides by the weight of the items: for
a truck whose items weigh 0 the result is not a number and the comparison is false.
(Simplification: quotients by a distance of 0 are 0.) -/
def axleExceeded (d : TruckData) (weight axle : ℚ) (maximum : ExtQ) : Bool :=
  if d.is && decide (weight = 0) then false else ExtQ.exceeded axle maximum

/-- `Solution::feasible_total_weight`, `solution.cpp:118–128`, on the bins of the solution. -/
def feasibleTotalWeight (inst : Instance) (bins : List SolutionBin) : Bool :=
  bins.all fun b => !ExtQ.exceeded (b.weight.headD 0) (inst.binType b.binTypeId).maximumWeight

/-- The loop over the groups in `feasible_axle_weights`, `solution.cpp:135–144`; reading past the end of
the weights is undefined behaviour. -/
def axleGroups (inst : Instance) (b : SolutionBin) : List Nat → Except Err Bool
  | [] => .ok true
  | g :: gs =>
    if !inst.checkWeightConstraints g then axleGroups inst b gs
    else match b.weightWeightedSum[g]?, b.weight[g]? with
      | some sum, some weight =>
        let truck := (inst.binType b.binTypeId).truck
        let axle := truck.computeAxleWeights sum weight
        if axleExceeded truck weight axle.1 truck.middleAxleMaximumWeight then .ok false
        else if axleExceeded truck weight axle.2 truck.rearAxleMaximumWeight then .ok false
        else axleGroups inst b gs
      | _, _ => .error .ub

/-- `Solution::feasible_axle_weights`, `solution.cpp:130–147`, on the bins of the solution. -/
def feasibleAxleWeights (inst : Instance) : List SolutionBin → Except Err Bool
  | [] => .ok true
  | b :: bs =>
    match axleGroups inst b (List.range inst.numberOfGroups) with
    | .error e => .error e
    | .ok false => .ok false
    | .ok true => feasibleAxleWeights inst bs

/-- All other vector accesses of `update_indicators(bin_pos)` are in range: `bins_[bin_pos]`,
`bin_type(...)` (of every bin, in `feasible_total_weight`), `item_type(...)` and
`bin.weight[group_id]`. -/
def Solution.inRange (inst : Instance) (s : Solution) (binPos : Nat) : Bool :=
  decide (binPos < s.bins.length)
  && s.bins.all (fun b => decide (b.binTypeId < inst.numberOfBinTypes))
  && (s.bins.getD binPos default).piles.all fun p => p.items.all fun it =>
      decide (it.itemTypeId < inst.numberOfItemTypes)
        && decide ((inst.itemType it.itemTypeId).groupId < inst.numberOfGroups)

/-- The state in which the loop over the stacks starts, `solution.cpp:24–38`. -/
def Solution.startBin (inst : Instance) (s : Solution) (binPos : Nat) : PileLoop :=
  let bin := s.bins.getD binPos default
  let binType := inst.binType bin.binTypeId
  { sol := { s with
      binCopies := addAt s.binCopies bin.binTypeId bin.copies
      binVolume := s.binVolume + bin.copies * binType.volume
      binArea := s.binArea + bin.copies * binType.area
      binCost := s.binCost + (bin.copies : ℚ) * binType.cost
      numberOfBins := s.numberOfBins + bin.copies
      xMax := 0
      yMax := 0 }
    weight := List.replicate inst.numberOfGroups 0
    weightWeightedSum := List.replicate inst.numberOfGroups 0 }

/-- `Solution::update_indicators` up to the feasibility, `solution.cpp:24–109`, when every access is in
range. -/
def Solution.updateTotals (inst : Instance) (s : Solution) (binPos : Nat) : Solution :=
  let bin := s.bins.getD binPos default
  let st := bin.piles.foldl
    (pileStep inst bin.binTypeId bin.copies (decide (binPos + 1 = s.bins.length)))
    (s.startBin inst binPos)
  let bin' : SolutionBin := { bin with
    piles := st.piles
    weight := st.weight
    weightWeightedSum := st.weightWeightedSum
    profit := st.profit }
  let s2 := { st.sol with bins := s.bins.set binPos bin' }
  -- lines 95–105
  let s3 := { s2 with
    numberOfInfeasibleItemCopiesMin := countInfeasibleMin inst s2.itemCopies
    itemCopiesFeasible := withinCopies inst s2.itemCopies }
  -- line 108
  { s3 with callbackFeasible := inst.callback (binsView s3.bins) }

/-- `Solution::update_indicators`, `solution.cpp:21–116`; the operands of `&&` are evaluated from left
to right (lines 113–115). -/
def Solution.updateIndicators (inst : Instance) (s : Solution) (binPos : Nat) :
    Except Err Solution :=
  if s.inRange inst binPos then
    let s := s.updateTotals inst binPos
    if !feasibleTotalWeight inst s.bins then .ok { s with feasible := false }
    else match feasibleAxleWeights inst s.bins with
      | .error e => .error e
      | .ok axle => .ok { s with
          feasible := axle && s.callbackFeasible && s.itemCopiesFeasible
            && decide (s.numberOfInfeasibleItemCopiesMin = 0) }
  else .error .ub

/-- `bins_.push_back(bin); update_indicators(bins_.size() - 1);`, the common tail of `append_bin`
and `append_empty_bin`, `solution.cpp:260–261,282–283`. -/
def Solution.pushBin (inst : Instance) (s : Solution) (bin : SolutionBin) : Except Err Solution :=
  ({ s with bins := s.bins ++ [bin] } : Solution).updateIndicators inst s.bins.length

/-- Relabel an id through a map; an empty map means "unchanged", `solution.cpp:239–241,252–254`;
out of range is undefined behaviour. -/
def relabel (ids : List Nat) (i : Nat) : Option Nat :=
  if ids.isEmpty then some i else ids[i]?

/-- The relabelled items of a stack, `solution.cpp:251–256`. -/
def relabelItems (itemTypeIds : List Nat) (items : List SolutionItem) : Option (List SolutionItem) :=
  items.mapM fun it => (relabel itemTypeIds it.itemTypeId).map fun j => { it with itemTypeId := j }

/-- The relabelled stacks of a bin, `solution.cpp:246–259`. -/
def relabelPiles (itemTypeIds : List Nat) (piles : List SolutionStack) :
    Option (List SolutionStack) :=
  piles.mapM fun p => (relabelItems itemTypeIds p.items).map fun items =>
    { xStart := p.xStart, xEnd := p.xEnd, yStart := p.yStart, yEnd := p.yEnd, items := items }

/-- `Solution::append_bin`, `solution.cpp:232–262`. -/
def Solution.appendBin (inst : Instance) (s : Solution) (other : Solution) (binPos : Nat)
    (copies : Int) (binTypeIds itemTypeIds : List Nat) : Except Err Solution :=
  match other.bins[binPos]? with
  | none => .error .ub
  | some bin =>
    match relabel binTypeIds bin.binTypeId, relabelPiles itemTypeIds bin.piles with
    | some b, some piles => s.pushBin inst { binTypeId := b, copies := copies, piles := piles }
    | _, _ => .error .ub

/-- `Solution::append_bins`, `solution.cpp:264–273`. -/
def Solution.appendBins (inst : Instance) (s : Solution) (other : Solution)
    (binTypeIds itemTypeIds : List Nat) : Except Err Solution :=
  (List.range other.bins.length).foldlM
    (fun s pos => s.appendBin inst other pos (other.bins.getD pos default).copies
      binTypeIds itemTypeIds) s

/-- `Solution::append_empty_bin`, `solution.cpp:275–284`. -/
def Solution.appendEmptyBin (inst : Instance) (s : Solution) (binTypeId : Nat) (copies : Int) :
    Except Err Solution :=
  s.pushBin inst { binTypeId := binTypeId, copies := copies }

/-- `full()`, `solution.hpp:202`. -/
def Solution.full (inst : Instance) (s : Solution) : Bool :=
  decide (s.numberOfItems = inst.numberOfItems)

/-- `waste()`, `solution.hpp:257`. -/
def Solution.waste (s : Solution) : Int := s.volume - s.itemVolume

/-- `full_waste()`, `solution.hpp:263`. -/
def Solution.fullWaste (s : Solution) : Int := s.binVolume - s.itemVolume

/-- `Solution::operator<`, `solution.cpp:286–321`; `this < other`.  There is no case for
`VariableSizedBinPacking`, `OpenDimensionZ` and others. -/
def Solution.lt (inst : Instance) (this other : Solution) : Except Err Bool :=
  if !other.feasible then .ok false
  else if !this.feasible then .ok true
  else match inst.objective with
    | .default =>
      if strictlyLesserProfit other.itemProfit this.itemProfit then .ok false
      else if strictlyGreaterProfit other.itemProfit this.itemProfit then .ok true
      else .ok (decide (other.waste < this.waste))
    | .binPacking => .ok (decide (other.numberOfBins < this.numberOfBins))
    | .binPackingWithLeftovers => .ok (decide (other.waste < this.waste))
    | .openDimensionX => .ok (decide (other.xMax < this.xMax))
    | .openDimensionY => .ok (decide (other.yMax < this.yMax))
    | .knapsack => .ok (strictlyGreaterProfit other.itemProfit this.itemProfit)
    | .feasibility => .ok (strictlyGreaterProfit other.itemProfit this.itemProfit)
    | _ => .error .logicError

/-- `compute_middle_axle_weight_constraints_violation(bin_type_id, bin_weight, ...)`,
`solution.cpp:323–342`, for weights of every group. -/
def middleViolation (inst : Instance) (b : SolutionBin) : ℚ :=
  (List.range inst.numberOfGroups).foldl (fun v g =>
    if !inst.checkWeightConstraints g then v
    else
      let truck := (inst.binType b.binTypeId).truck
      let weight := b.weight.getD g 0
      let axle := truck.computeAxleWeights (b.weightWeightedSum.getD g 0) weight
      if axleExceeded truck weight axle.1 truck.middleAxleMaximumWeight
      then v + ((g : ℚ) + 1) * ExtQ.overweight axle.1 truck.middleAxleMaximumWeight else v) 0

/-- `compute_rear_axle_weight_constraints_violation(bin_type_id, bin_weight, ...)`,
`solution.cpp:344–363`, for weights of every group. -/
def rearViolation (inst : Instance) (b : SolutionBin) : ℚ :=
  (List.range inst.numberOfGroups).foldl (fun v g =>
    if !inst.checkWeightConstraints g then v
    else
      let truck := (inst.binType b.binTypeId).truck
      let weight := b.weight.getD g 0
      let axle := truck.computeAxleWeights (b.weightWeightedSum.getD g 0) weight
      if axleExceeded truck weight axle.2 truck.rearAxleMaximumWeight
      then v + ((g : ℚ) + 1) * ExtQ.overweight axle.2 truck.rearAxleMaximumWeight else v) 0

/-- `Solution::compute_weight_constraints_violation`, `solution.cpp:197–208`. -/
def Solution.weightViolation (inst : Instance) (s : Solution) : ℚ :=
  s.bins.foldl (fun v b => v + middleViolation inst b + rearViolation inst b) 0

/-- State of the loop of `check_stack`, `solution.cpp:153–157`. -/
structure CheckLoop where
  zEnd : Int := 0
  weight : ℚ := 0
  maximumNumberOfItems : Int := 2147483647
  remainingWeight : ExtQ := .inf
  pos : Nat := 0

/-- `strictly_greater(value, maximum)` for a possibly infinite maximum. -/
def strictlyGreaterExt (q : ℚ) : ExtQ → Bool
  | .fin m => strictlyGreater q m
  | .inf => false

/-- One iteration of `check_stack`, `solution.cpp:158–193`; `none` is `return false`.  The quotient is
that of ℚ (items with a side of 0 are not considered). -/
def checkStep (inst : Instance) (binType : BinType) (n : Nat) (st : CheckLoop)
    (item : Nat × Rotation) : Option CheckLoop :=
  let itemType := inst.itemType item.1
  let zj := if st.pos > 0 then itemType.z item.2 - (- itemType.nestingHeight)
    else itemType.z item.2
  let zEnd := st.zEnd + zj
  if zEnd > binType.box.z then none
  else
    let weight := st.weight + itemType.weight
    let density := weight / (itemType.x item.2 : ℚ) / (itemType.y item.2 : ℚ)
    if strictlyGreaterExt density binType.maximumStackDensity then none
    else
      let maximumNumberOfItems := min st.maximumNumberOfItems itemType.maximumStackability
      if (n : Int) > maximumNumberOfItems then none
      else if strictlyGreaterExt itemType.weight st.remainingWeight then none
      else some {
        zEnd := zEnd
        weight := weight
        maximumNumberOfItems := maximumNumberOfItems
        remainingWeight := ExtQ.min (st.remainingWeight.subQ itemType.weight)
          itemType.maximumWeightAbove
        pos := st.pos + 1 }

/-- `Solution::check_stack`, `solution.cpp:149–195`. -/
def checkStack (inst : Instance) (binTypeId : Nat) (items : List (Nat × Rotation)) : Bool :=
  (items.foldlM (checkStep inst (inst.binType binTypeId) items.length) {}).isSome

/-! ## Solution builder -/

/-- State of `SolutionBuilder`, `boxstacks/solution_builder.hpp`: the solution under construction. -/
structure SolutionBuilder where
  sol : Solution

/-- `SolutionBuilder::SolutionBuilder(const Instance&)`, `solution_builder.hpp:16`. -/
def SolutionBuilder.new (inst : Instance) : SolutionBuilder := ⟨.init inst⟩

/-- `SolutionBuilder::add_bin`, `solution_builder.cpp:6–20`; the read of
`instance.bin_type(bin_type_id)` is undefined behaviour out of range. -/
def SolutionBuilder.addBin (inst : Instance) (sb : SolutionBuilder) (binTypeId : Nat)
    (copies : Int) : Except Err SolutionBuilder :=
  if binTypeId < inst.numberOfBinTypes then
    .ok ⟨{ sb.sol with bins := sb.sol.bins ++ [{ binTypeId := binTypeId, copies := copies }] }⟩
  else .error .ub

/-- `SolutionBuilder::add_stack`, `solution_builder.cpp:22–44`. -/
def SolutionBuilder.addStack (sb : SolutionBuilder) (binPos : Nat) (xStart xEnd yStart yEnd : Int) :
    Except Err SolutionBuilder :=
  if binPos ≥ sb.sol.bins.length then .error .invalidArgument
  else .ok ⟨{ sb.sol with
    bins := sb.sol.bins.modify binPos (fun b => { b with
      piles := b.piles ++
        [{ xStart := xStart, xEnd := xEnd, yStart := yStart, yEnd := yEnd }] }) }⟩

/-- `SolutionBuilder::add_item`, `solution_builder.cpp:46–113`; a stack that does not exist is
undefined behaviour. -/
def SolutionBuilder.addItem (inst : Instance) (sb : SolutionBuilder) (binPos stackId : Nat)
    (itemTypeId : Nat) (rotation : Rotation) : Except Err SolutionBuilder :=
  if binPos ≥ sb.sol.bins.length then .error .invalidArgument
  else if itemTypeId ≥ inst.numberOfItemTypes then .error .invalidArgument
  else match (sb.sol.bins.getD binPos default).piles[stackId]? with
    | none => .error .ub
    | some pile =>
      let itemType := inst.itemType itemTypeId
      if !itemType.canRotate rotation then .error .invalidArgument
      else if itemType.x rotation ≠ pile.xEnd - pile.xStart then .error .invalidArgument
      else if itemType.y rotation ≠ pile.yEnd - pile.yStart then .error .invalidArgument
      else .ok ⟨{ sb.sol with
        bins := sb.sol.bins.modify binPos (fun b => { b with
          piles := b.piles.modify stackId (fun p => { p with
            items := p.items ++ [{ itemTypeId := itemTypeId, rotation := rotation }] }) }) }⟩

/-- `SolutionBuilder::build`, `solution_builder.cpp:119–129`. -/
def SolutionBuilder.build (inst : Instance) (sb : SolutionBuilder) : Except Err Solution :=
  (List.range sb.sol.bins.length).foldlM (fun s pos => s.updateIndicators inst pos) sb.sol

/-- Operations a caller of `SolutionBuilder` can perform. -/
inductive BuilderOp where
  | addBin (binTypeId : Nat) (copies : Int)
  | addStack (binPos : Nat) (xStart xEnd yStart yEnd : Int)
  | addItem (binPos stackId itemTypeId : Nat) (rotation : Rotation)
deriving DecidableEq, Repr

/-- Run one builder operation. -/
def SolutionBuilder.step (inst : Instance) (sb : SolutionBuilder) :
    BuilderOp → Except Err SolutionBuilder
  | .addBin b c => sb.addBin inst b c
  | .addStack p x xe y ye => sb.addStack p x xe y ye
  | .addItem p k i r => sb.addItem inst p k i r

/-- A caller's whole use of the builder: operations, then `build`. -/
def SolutionBuilder.runOps (inst : Instance) (ops : List BuilderOp) : Except Err Solution := do
  let sb ← ops.foldlM (SolutionBuilder.step inst) (SolutionBuilder.new inst)
  sb.build inst

end PackingSolver.Stacks
