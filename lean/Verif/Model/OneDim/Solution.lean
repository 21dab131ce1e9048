import Verif.Model.OneDim.Instance

/-!
# One-dimensional solutions

Models `src/onedimensional/solution.cpp`,
`include/packingsolver/onedimensional/solution.hpp` and
`src/onedimensional/solution_builder.cpp`.
-/

namespace PackingSolver.OneDim

/-- `struct SolutionItem`, `onedimensional/solution.hpp:10–17`. -/
structure SolutionItem where
  itemTypeId : Nat
  start : Int := 0
deriving DecidableEq, Repr

/-- `struct SolutionBin`, `onedimensional/solution.hpp:22–50`. -/
structure SolutionBin where
  binTypeId : Nat
  copies : Int
  items : List SolutionItem := []
  endPos : Int := 0
  weight : ℚ := 0
  maximumNumberOfItems : Int := -1
  remainingWeight : ExtQ := .fin (-1)
  resourceConsumption : List ℚ := []
deriving DecidableEq, Repr

instance : Inhabited SolutionBin := ⟨{ binTypeId := 0, copies := 0 }⟩

/-- `class Solution`, `onedimensional/solution.hpp:58–300`; the instance is
passed separately. -/
structure Solution where
  bins : List SolutionBin := []
  numberOfBins : Int := 0
  numberOfItems : Int := 0
  length : Int := 0
  binLength : Int := 0
  itemLength : Int := 0
  itemProfit : ℚ := 0
  binCost : ℚ := 0
  binCopies : List Int := []
  itemCopies : List Int := []
  numberOfInfeasibleItemCopiesMin : Int := 0
  capacityFeasible : Bool := true
  weightFeasible : Bool := true
  stackabilityFeasible : Bool := true
  maximumWeightAfterFeasible : Bool := true
  itemCopiesFeasible : Bool := true
  binTypeOrderFeasible : Bool := true
  resourceFeasible : Bool := true
  eligibilityFeasible : Bool := true
  callbackFeasible : Bool := true
  feasible : Bool := true
deriving DecidableEq, Repr

/-- `v[i] += d`. -/
def addAt (l : List Int) (i : Nat) (d : Int) : List Int := l.modify i (· + d)

/-- `v[i] += d` on doubles. -/
def addAtQ (l : List ℚ) (i : Nat) (d : ℚ) : List ℚ := l.modify i (· + d)

/-- Number of item types packed fewer than `copies_min` times,
`solution.cpp:152–158` (and the constructor, `solution.hpp:73–79`, where all
counts are zero). -/
def countInfeasibleMin (inst : Instance) (itemCopies : List Int) : Int :=
  (List.range inst.numberOfItemTypes).foldl
    (fun n i => if itemCopies.getD i 0 < (inst.itemType i).copiesMin then n + 1 else n) 0

/-- `Solution::Solution(const Instance&)`, `solution.hpp:68–80`. -/
def Solution.init (inst : Instance) : Solution :=
  let itemCopies := List.replicate inst.numberOfItemTypes (0 : Int)
  let n := countInfeasibleMin inst itemCopies
  { binCopies := List.replicate inst.numberOfBinTypes 0
    itemCopies := itemCopies
    numberOfInfeasibleItemCopiesMin := n
    feasible := decide (n = 0) }

/-- Loop state of the item loop of `update_indicators`
(`solution.cpp:32–118`): the bin being recomputed, the number of items
processed, the per-type counters and the solution's running totals. -/
structure ItemLoop where
  sol : Solution
  endPos : Int := 0
  weight : ℚ := 0
  maximumNumberOfItems : Int := -1
  remainingWeight : ExtQ := .fin (-1)
  resourceConsumption : List ℚ := []
  numberOfItemsInBin : Int := 0
  itemTypeCopiesInBin : List Nat := []
  itemsDone : List SolutionItem := []

/-- State threaded through the resource loop, `solution.cpp:68–87`. -/
structure ResourceLoop where
  consumption : List ℚ
  itemProfit : ℚ
  resourceFeasible : Bool

/-- One iteration of the resource loop, `solution.cpp:68–87`. -/
def resourceStep (binType : BinType) (itemTypeId copy : Nat) (s : ResourceLoop)
    (resourceId : Nat) : ResourceLoop :=
  let resource := binType.resources.getD resourceId {}
  let previousConsumption := s.consumption.getD resourceId 0
  let consumption := addAtQ s.consumption resourceId (resource.itemConsumption itemTypeId copy)
  if consumption.getD resourceId 0 > resource.capacity then
    if resource.penalize then
      if previousConsumption ≤ resource.capacity then
        { s with consumption := consumption, itemProfit := s.itemProfit - resource.penalty }
      else { s with consumption := consumption }
    else { s with consumption := consumption, resourceFeasible := false }
  else { s with consumption := consumption }

/-- One iteration of the item loop, `solution.cpp:39–118`. -/
def itemStep (inst : Instance) (binTypeId : Nat) (binCopies : Int) (st : ItemLoop)
    (item : SolutionItem) : ItemLoop :=
  let binType := inst.binType binTypeId
  let itemType := inst.itemType item.itemTypeId
  -- lines 42–44
  let start := if st.numberOfItemsInBin > 0 then st.endPos - itemType.nestingLength else st.endPos
  -- lines 46–49
  let endPos := start + itemType.length
  let capacityFeasible := st.sol.capacityFeasible && !decide (endPos > binType.length)
  -- lines 52–55
  let weight := st.weight + itemType.weight
  let weightFeasible := st.sol.weightFeasible && !(ExtQ.gtBy weight binType.maximumWeight)
  -- lines 58–65
  let eligibilityFeasible := st.sol.eligibilityFeasible && eligible itemType binType
  -- lines 68–88
  let copy := st.itemTypeCopiesInBin.getD item.itemTypeId 0
  let res := (itemType.resourceIds.getD binTypeId []).foldl
    (resourceStep binType item.itemTypeId copy)
    { consumption := st.resourceConsumption
      itemProfit := st.sol.itemProfit
      resourceFeasible := st.sol.resourceFeasible }
  let itemTypeCopiesInBin := st.itemTypeCopiesInBin.modify item.itemTypeId (· + 1)
  -- lines 90–109
  let n := st.numberOfItemsInBin + 1
  let maximumNumberOfItems :=
    if n = 1 then itemType.maximumStackability
    else min st.maximumNumberOfItems itemType.maximumStackability
  let remainingWeight :=
    if n = 1 then itemType.maximumWeightAfter
    else ExtQ.min (st.remainingWeight.subQ itemType.weight) itemType.maximumWeightAfter
  let stackabilityFeasible := st.sol.stackabilityFeasible && !decide (n > maximumNumberOfItems)
  let maximumWeightAfterFeasible := st.sol.maximumWeightAfterFeasible && !remainingWeight.neg
  -- lines 111–117
  let itemCopies := addAt st.sol.itemCopies item.itemTypeId binCopies
  let itemCopiesFeasible :=
    st.sol.itemCopiesFeasible && !decide (itemCopies.getD item.itemTypeId 0 > itemType.copies)
  { sol := { st.sol with
      capacityFeasible := capacityFeasible
      weightFeasible := weightFeasible
      eligibilityFeasible := eligibilityFeasible
      resourceFeasible := res.resourceFeasible
      stackabilityFeasible := stackabilityFeasible
      maximumWeightAfterFeasible := maximumWeightAfterFeasible
      itemCopiesFeasible := itemCopiesFeasible
      numberOfItems := st.sol.numberOfItems + binCopies
      itemCopies := itemCopies
      itemLength := st.sol.itemLength + binCopies * itemType.length
      itemProfit := res.itemProfit + (binCopies : ℚ) * itemType.profit }
    endPos := endPos
    weight := weight
    maximumNumberOfItems := maximumNumberOfItems
    remainingWeight := remainingWeight
    resourceConsumption := res.consumption
    numberOfItemsInBin := n
    itemTypeCopiesInBin := itemTypeCopiesInBin
    itemsDone := st.itemsDone ++ [{ item with start := start }] }

/-- `last_used_bin_type_id + 1`, `solution.cpp:134–140` (0 when no bin type is
used; the code stores `-1`). -/
def lastUsedSucc (inst : Instance) (binCopies : List Int) : Nat :=
  (List.range inst.numberOfBinTypes).foldl
    (fun last b => if binCopies.getD b 0 > 0 then b + 1 else last) 0

/-- Bin type usage order check, `solution.cpp:134–148`: every bin type before
the last used one must be used exactly `copies` times. -/
def orderOk (inst : Instance) (binCopies : List Int) : Bool :=
  (List.range (lastUsedSucc inst binCopies - 1)).all
    (fun b => decide (binCopies.getD b 0 = (inst.binType b).copies))

/-- The view of the bins handed to the callback. -/
def binsView (bins : List SolutionBin) : BinsView :=
  bins.map fun b => ⟨b.binTypeId, b.copies, b.items.map (·.itemTypeId)⟩

/-- All vector accesses of `update_indicators(bin_pos)` are in range:
`bins_[bin_pos]`, `bin_type(...)`, `item_type(...)`. -/
def Solution.inRange (inst : Instance) (s : Solution) (binPos : Nat) : Bool :=
  decide (binPos < s.bins.length)
  && decide ((s.bins.getD binPos default).binTypeId < inst.numberOfBinTypes)
  && (s.bins.getD binPos default).items.all
      (fun it => decide (it.itemTypeId < inst.numberOfItemTypes))

/-- `Solution::update_indicators`, `solution.cpp:21–171`, when every access is
in range. -/
def Solution.updateIndicatorsTotal (inst : Instance) (s : Solution) (binPos : Nat) : Solution :=
  let bin := s.bins.getD binPos default
  let binType := inst.binType bin.binTypeId
  -- lines 27–30
  let s1 := { s with
    binCopies := addAt s.binCopies bin.binTypeId bin.copies
    binCost := s.binCost + (bin.copies : ℚ) * binType.cost
    binLength := s.binLength + bin.copies * binType.length
    numberOfBins := s.numberOfBins + bin.copies }
  -- lines 32–118
  let st := bin.items.foldl (itemStep inst bin.binTypeId bin.copies)
    { sol := s1
      endPos := 0
      weight := bin.weight
      maximumNumberOfItems := bin.maximumNumberOfItems
      remainingWeight := bin.remainingWeight
      resourceConsumption := List.replicate binType.resources.length 0
      itemTypeCopiesInBin := List.replicate inst.numberOfItemTypes 0 }
  let bin' : SolutionBin := { bin with
    items := st.itemsDone
    endPos := st.endPos
    weight := st.weight
    maximumNumberOfItems := st.maximumNumberOfItems
    remainingWeight := st.remainingWeight
    resourceConsumption := st.resourceConsumption }
  let s2 := { st.sol with bins := s.bins.set binPos bin' }
  -- lines 125–126
  let s3 := if bin.items.isEmpty then s2
    else { s2 with length := s2.binLength - binType.length + st.endPos }
  -- lines 132–149
  let s4 := if inst.objective = .binPacking ∧ binPos + 1 = s3.bins.length then
      { s3 with binTypeOrderFeasible := s3.binTypeOrderFeasible && orderOk inst s3.binCopies }
    else s3
  -- lines 152–158
  let s5 := { s4 with
    numberOfInfeasibleItemCopiesMin := countInfeasibleMin inst s4.itemCopies }
  -- lines 161–170
  let s6 := { s5 with callbackFeasible := inst.callback (binsView s5.bins) }
  { s6 with
    feasible := s6.capacityFeasible && s6.weightFeasible && s6.stackabilityFeasible
      && s6.maximumWeightAfterFeasible && s6.itemCopiesFeasible && s6.resourceFeasible
      && s6.eligibilityFeasible && s6.callbackFeasible
      && decide (s6.numberOfInfeasibleItemCopiesMin = 0) }

/-- `Solution::update_indicators`, `solution.cpp:21–171`. -/
def Solution.updateIndicators (inst : Instance) (s : Solution) (binPos : Nat) :
    Except Err Solution :=
  if s.inRange inst binPos then .ok (s.updateIndicatorsTotal inst binPos) else .error .ub

/-- `bins_.push_back(bin); update_indicators(bins_.size() - 1);`, the common
tail of `append_bin` and `append_empty_bin`
(`solution.cpp:203–204,225–226`). -/
def Solution.pushBin (inst : Instance) (s : Solution) (bin : SolutionBin) : Except Err Solution :=
  ({ s with bins := s.bins ++ [bin] } : Solution).updateIndicators inst s.bins.length

/-- Relabel an id through a map; an empty map means "unchanged"
(`solution.cpp:191–193,198–200`); out of range is undefined behaviour. -/
def relabel (ids : List Nat) (i : Nat) : Option Nat :=
  if ids.isEmpty then some i else ids[i]?

/-- The relabelled items of a bin, `solution.cpp:197–202`. -/
def relabelItems (itemTypeIds : List Nat) (items : List SolutionItem) :
    Option (List SolutionItem) :=
  items.mapM fun it => (relabel itemTypeIds it.itemTypeId).map fun j => { it with itemTypeId := j }

/-- `Solution::append_bin`, `solution.cpp:173–205`. -/
def Solution.appendBin (inst : Instance) (s : Solution) (other : Solution) (binPos : Nat)
    (copies : Int) (binTypeIds itemTypeIds : List Nat) : Except Err Solution :=
  match other.bins[binPos]? with
  | none => .error .ub
  | some bin =>
    if !binTypeIds.isEmpty && decide (bin.binTypeId ≥ binTypeIds.length) then
      .error .runtimeError
    else
      match relabel binTypeIds bin.binTypeId, relabelItems itemTypeIds bin.items with
      | some b, some items =>
        s.pushBin inst { binTypeId := b, copies := copies, items := items }
      | _, _ => .error .ub

/-- `Solution::append_bins`, `solution.cpp:207–216`. -/
def Solution.appendBins (inst : Instance) (s : Solution) (other : Solution)
    (binTypeIds itemTypeIds : List Nat) : Except Err Solution :=
  (List.range other.bins.length).foldlM
    (fun s pos => s.appendBin inst other pos (other.bins.getD pos default).copies
      binTypeIds itemTypeIds) s

/-- `Solution::append_empty_bin`, `solution.cpp:218–227`. -/
def Solution.appendEmptyBin (inst : Instance) (s : Solution) (binTypeId : Nat) (copies : Int) :
    Except Err Solution :=
  s.pushBin inst { binTypeId := binTypeId, copies := copies }

/-- `full()`, `solution.hpp:148`. -/
def Solution.full (inst : Instance) (s : Solution) : Bool :=
  decide (s.numberOfItems = inst.numberOfItems)

/-- `waste()`, `solution.hpp:172`. -/
def Solution.waste (s : Solution) : Int := s.length - s.itemLength

/-- `Solution::operator<`, `solution.cpp:229–262`; `this < other`. -/
def Solution.lt (inst : Instance) (this other : Solution) : Except Err Bool :=
  if !other.feasible then .ok false
  else if !this.feasible then .ok true
  else match inst.objective with
    | .default =>
      if strictlyLesserProfit other.itemProfit this.itemProfit then .ok false
      else if strictlyGreaterProfit other.itemProfit this.itemProfit then .ok true
      else .ok (decide (other.waste < this.waste))
    | .binPacking => .ok (decide (other.numberOfBins < this.numberOfBins))
    | .binPackingWithLeftovers => .ok (decide (other.waste < this.waste))
    | .knapsack => .ok (strictlyGreaterProfit other.itemProfit this.itemProfit)
    | .feasibility => .ok (strictlyGreaterProfit other.itemProfit this.itemProfit)
    | .variableSizedBinPacking => .ok (strictlyLesserCost other.binCost this.binCost)
    | _ => .error .logicError

/-! ## Solution builder -/

/-- State of `SolutionBuilder` (`onedimensional/solution_builder.hpp`): the
solution under construction. -/
structure SolutionBuilder where
  sol : Solution

/-- `SolutionBuilder::SolutionBuilder(const Instance&)`. -/
def SolutionBuilder.new (inst : Instance) : SolutionBuilder := ⟨.init inst⟩

/-- `SolutionBuilder::add_bin`, `solution_builder.cpp:10–23`; the read of
`instance.bin_type(bin_type_id)` is undefined behaviour out of range. -/
def SolutionBuilder.addBin (inst : Instance) (sb : SolutionBuilder) (binTypeId : Nat)
    (copies : Int) : Except Err SolutionBuilder :=
  if binTypeId < inst.numberOfBinTypes then
    .ok ⟨{ sb.sol with bins := sb.sol.bins ++ [{ binTypeId := binTypeId, copies := copies }] }⟩
  else .error .ub

/-- `SolutionBuilder::add_item`, `solution_builder.cpp:25–36`. -/
def SolutionBuilder.addItem (sb : SolutionBuilder) (binPos : Nat) (itemTypeId : Nat) :
    Except Err SolutionBuilder :=
  if binPos ≥ sb.sol.bins.length then .error .invalidArgument
  else .ok ⟨{ sb.sol with
    bins := sb.sol.bins.modify binPos
      (fun b => { b with items := b.items ++ [{ itemTypeId := itemTypeId }] }) }⟩

/-- `SolutionBuilder::build`, `solution_builder.cpp:131–141`. -/
def SolutionBuilder.build (inst : Instance) (sb : SolutionBuilder) : Except Err Solution :=
  (List.range sb.sol.bins.length).foldlM (fun s pos => s.updateIndicators inst pos) sb.sol

/-- Operations a caller of `SolutionBuilder` can perform. -/
inductive BuilderOp where
  | addBin (binTypeId : Nat) (copies : Int)
  | addItem (binPos itemTypeId : Nat)
deriving DecidableEq, Repr

/-- Run one builder operation. -/
def SolutionBuilder.step (inst : Instance) (sb : SolutionBuilder) :
    BuilderOp → Except Err SolutionBuilder
  | .addBin b c => sb.addBin inst b c
  | .addItem p i => sb.addItem p i

/-- A caller's whole use of the builder: operations, then `build`. -/
def SolutionBuilder.runOps (inst : Instance) (ops : List BuilderOp) : Except Err Solution := do
  let sb ← ops.foldlM (SolutionBuilder.step inst) (SolutionBuilder.new inst)
  sb.build inst

end PackingSolver.OneDim
