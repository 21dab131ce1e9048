import Verif.Model.OneDim.Solution
import Mathlib.Data.List.Sort

/-!
# The branching scheme of the one-dimensional tree search

Models `src/onedimensional/tree_search.cpp` and `src/onedimensional/tree_search.hpp`
(class `BranchingScheme`).  Not modelled: node ids (only used to break ties), the
guides (they order the search, they do not remove nodes), the external library
`treesearchsolver` and the threads of `tree_search`.
-/

namespace PackingSolver.OneDim

/-- `e * q` for a positive `q`. -/
def ExtQ.scale : ExtQ → ℚ → ExtQ
  | .fin m, q => .fin (m * q)
  | .inf, _ => .inf

/-- `bin_type_id_order`, `tree_search.cpp:31–42` (`space()` is the length,
`instance.hpp:180`); `std::stable_sort` is insertion sort, which is stable. -/
def schemeOrder (inst : Instance) : List Nat :=
  if inst.objective = .knapsack then
    (List.range inst.numberOfBinTypes).insertionSort
      fun a b => (inst.binType a).length ≤ (inst.binType b).length
  else List.range inst.numberOfBinTypes

/-- `bin_type_ids_`, `tree_search.cpp:44–51`. -/
def schemeBins (inst : Instance) : List Nat :=
  (schemeOrder inst).flatMap fun t => List.replicate (inst.binType t).copies.toNat t

/-- `previous_bins_length_`, `tree_search.cpp:43–51`. -/
def schemePrevious (inst : Instance) : List Int :=
  ((schemeBins inst).foldl
    (fun s t => (s.1 ++ [s.2], s.2 + (inst.binType t).length)) (([] : List Int), (0 : Int))).1

/-- `struct Insertion`, `tree_search.hpp:26–50`; `newBin = some k` for `new_bin` with
`new_bin_pos = k`. -/
structure Insertion where
  itemTypeId : Nat
  newBin : Option Nat
deriving DecidableEq, Repr

/-- `struct Node`, `tree_search.hpp:55–123`.  The chain of parents is replaced by what
`to_solution` reads in it: for each ancestor but the root, then the node itself, the
inserted item type and the number of bins.  `xe_max` and `xs_max` are never used.
`last_bin_length` is declared as a double but only holds sums of lengths. -/
structure Node where
  history : List (Nat × Nat) := []
  itemTypeId : Option Nat := none
  itemNumberOfCopies : List Int
  numberOfBins : Nat := 0
  numberOfItems : Int := 0
  itemLength : Int := 0
  squaredItemLength : Int := 0
  currentLength : Int := 0
  waste : Int := 0
  profit : ℚ := 0
  lastBinLength : Int := 0
  lastBinWeight : ℚ := 0
  lastBinNumberOfItems : Int := 0
  lastBinMaximumNumberOfItems : Int := -1
  lastBinRemainingWeight : ExtQ := .fin (-1)
  lastBinResourceConsumption : List ℚ := []
  lastBinItemNumberOfCopies : List Nat := []
deriving DecidableEq, Repr

/-- `root`, `tree_search.cpp:330–336`. -/
def Node.root (inst : Instance) : Node :=
  { itemNumberOfCopies := List.replicate inst.numberOfItemTypes 0 }

/-- One iteration of the resource loop for a new bin, `tree_search.cpp:103–111`. -/
def newBinResourceStep (binType : BinType) (itemTypeId : Nat) (s : List ℚ × ℚ) (r : Nat) :
    List ℚ × ℚ :=
  let resource := binType.resources.getD r {}
  let consumption := resource.itemConsumption itemTypeId 0
  (s.1.set r consumption,
    if resource.penalize ∧ consumption > resource.capacity then s.2 - resource.penalty else s.2)

/-- One iteration of the resource loop for the current bin, `tree_search.cpp:130–140`. -/
def sameBinResourceStep (binType : BinType) (itemTypeId copy : Nat) (s : List ℚ × ℚ) (r : Nat) :
    List ℚ × ℚ :=
  let resource := binType.resources.getD r {}
  let previous := s.1.getD r 0
  let consumption := addAtQ s.1 r (resource.itemConsumption itemTypeId copy)
  (consumption,
    if resource.penalize ∧ consumption.getD r 0 > resource.capacity
      ∧ previous ≤ resource.capacity then s.2 - resource.penalty else s.2)

/-- The bin type a node's insertion goes to, `tree_search.cpp:65–68`. -/
def insertionBinType (inst : Instance) (parent : Node) (ins : Insertion) : Nat :=
  match ins.newBin with
  | some k => (schemeBins inst).getD k 0
  | none => (schemeBins inst).getD (parent.numberOfBins - 1) 0

/-- `child_tmp`, `tree_search.cpp:58–153`. -/
def Node.child (inst : Instance) (parent : Node) (ins : Insertion) : Node :=
  let itemType := inst.itemType ins.itemTypeId
  let binTypeId := insertionBinType inst parent ins
  let binType := inst.binType binTypeId
  let resourceIds := itemType.resourceIds.getD binTypeId []
  -- lines 80–85
  let itemNumberOfCopies := addAt parent.itemNumberOfCopies ins.itemTypeId 1
  let itemLength := parent.itemLength + itemType.length
  let profit := parent.profit + itemType.profit
  match ins.newBin with
  | some k =>
    -- lines 88–113
    let res :=
      if binType.resources.length > 0 then
        resourceIds.foldl (newBinResourceStep binType ins.itemTypeId)
          (List.replicate binType.resources.length 0, profit)
      else ([], profit)
    -- lines 145–149
    let currentLength := (schemePrevious inst).getD k 0 + itemType.length
    { history := parent.history ++ [(ins.itemTypeId, k + 1)]
      itemTypeId := some ins.itemTypeId
      itemNumberOfCopies := itemNumberOfCopies
      numberOfBins := k + 1
      numberOfItems := parent.numberOfItems + 1
      itemLength := itemLength
      squaredItemLength := parent.squaredItemLength + itemType.length * itemType.length
      currentLength := currentLength
      waste := currentLength - itemLength
      profit := res.2
      lastBinLength := itemType.length
      lastBinWeight := itemType.weight
      lastBinNumberOfItems := 1
      lastBinMaximumNumberOfItems := itemType.maximumStackability
      lastBinRemainingWeight := itemType.maximumWeightAfter
      lastBinResourceConsumption := res.1
      lastBinItemNumberOfCopies :=
        if binType.resources.length > 0 then
          (List.replicate inst.numberOfItemTypes 0).set ins.itemTypeId 1
        else [] }
  | none =>
    -- lines 114–143
    let copy := parent.lastBinItemNumberOfCopies.getD ins.itemTypeId 0
    let res :=
      if binType.resources.length > 0 then
        resourceIds.foldl (sameBinResourceStep binType ins.itemTypeId copy)
          (parent.lastBinResourceConsumption, profit)
      else ([], profit)
    let lastBinLength := parent.lastBinLength + itemType.length - itemType.nestingLength
    -- lines 145–149
    let currentLength :=
      (schemePrevious inst).getD (parent.numberOfBins - 1) 0 + lastBinLength
    { history := parent.history ++ [(ins.itemTypeId, parent.numberOfBins)]
      itemTypeId := some ins.itemTypeId
      itemNumberOfCopies := itemNumberOfCopies
      numberOfBins := parent.numberOfBins
      numberOfItems := parent.numberOfItems + 1
      itemLength := itemLength
      squaredItemLength := parent.squaredItemLength + itemType.length * itemType.length
      currentLength := currentLength
      waste := currentLength - itemLength
      profit := res.2
      lastBinLength := lastBinLength
      lastBinWeight := parent.lastBinWeight + itemType.weight
      lastBinNumberOfItems := parent.lastBinNumberOfItems + 1
      lastBinMaximumNumberOfItems :=
        min parent.lastBinMaximumNumberOfItems itemType.maximumStackability
      lastBinRemainingWeight :=
        ExtQ.min (parent.lastBinRemainingWeight.subQ itemType.weight) itemType.maximumWeightAfter
      lastBinResourceConsumption := res.1
      lastBinItemNumberOfCopies :=
        if binType.resources.length > 0 then
          parent.lastBinItemNumberOfCopies.modify ins.itemTypeId (· + 1)
        else [] }

/-- The checks of `insertion_item_same_bin`, `tree_search.cpp:203–247`. -/
def sameBinOk (inst : Instance) (parent : Node) (i : Nat) : Bool :=
  let itemType := inst.itemType i
  let binTypeId := (schemeBins inst).getD (parent.numberOfBins - 1) 0
  let binType := inst.binType binTypeId
  let copy := parent.lastBinItemNumberOfCopies.getD i 0
  !decide (parent.lastBinLength + itemType.length - itemType.nestingLength > binType.length)
  && !ExtQ.gtBy (parent.lastBinWeight + itemType.weight) (ExtQ.scale binType.maximumWeight pstol)
  && !decide (parent.lastBinNumberOfItems + 1
      > min parent.lastBinMaximumNumberOfItems itemType.maximumStackability)
  && !ExtQ.gtBy itemType.weight (ExtQ.scale parent.lastBinRemainingWeight pstol)
  && (decide (binType.resources.length = 0)
    || (itemType.resourceIds.getD binTypeId []).all fun r =>
      let resource := binType.resources.getD r {}
      resource.penalize
      || !decide (parent.lastBinResourceConsumption.getD r 0 + resource.itemConsumption i copy
          > resource.capacity * pstol))

/-- The checks of `insertion_item_new_bin`, `tree_search.cpp:249–282`. -/
def newBinOk (inst : Instance) (i k : Nat) : Bool :=
  let itemType := inst.itemType i
  let binTypeId := (schemeBins inst).getD k 0
  let binType := inst.binType binTypeId
  !decide (itemType.length > binType.length)
  && !ExtQ.gtBy itemType.weight (ExtQ.scale binType.maximumWeight pstol)
  && (itemType.resourceIds.getD binTypeId []).all fun r =>
      let resource := binType.resources.getD r {}
      resource.penalize
      || !decide (resource.itemConsumption i 0 > resource.capacity * pstol)

/-- `parent->item_number_of_copies[item_type_id] != item_type.copies`,
`tree_search.cpp:178,194`. -/
def copyLeft (inst : Instance) (parent : Node) (i : Nat) : Bool :=
  decide (parent.itemNumberOfCopies.getD i 0 ≠ (inst.itemType i).copies)

/-- The insertions in the current bin, `tree_search.cpp:172–182`. -/
def sameBinInsertions (inst : Instance) (parent : Node) : List Insertion :=
  if parent.numberOfBins > 0 then
    ((inst.binType ((schemeBins inst).getD (parent.numberOfBins - 1) 0)).itemTypeIds.filter
      fun i => copyLeft inst parent i && sameBinOk inst parent i).map fun i => ⟨i, none⟩
  else []

/-- The insertions in the bin at position `k`, `tree_search.cpp:190–197`. -/
def newBinInsertionsAt (inst : Instance) (parent : Node) (k : Nat) : List Insertion :=
  ((inst.binType ((schemeBins inst).getD k 0)).itemTypeIds.filter
    fun i => copyLeft inst parent i && newBinOk inst i k).map fun i => ⟨i, some k⟩

/-- The loop over the next positions, stopped at the first one with an insertion,
`tree_search.cpp:184–198`. -/
def newBinInsertions (inst : Instance) (parent : Node) : List Nat → List Insertion
  | [] => []
  | k :: ks =>
    let l := newBinInsertionsAt inst parent k
    if l.isEmpty then newBinInsertions inst parent ks else l

/-- `insertions`, `tree_search.cpp:165–201`. -/
def insertions (inst : Instance) (parent : Node) : List Insertion :=
  let same := sameBinInsertions inst parent
  if same.isEmpty then
    newBinInsertions inst parent
      (List.range' parent.numberOfBins (inst.numberOfBins - parent.numberOfBins))
  else same

/-- `leaf`, `tree_search.hpp:173–177`. -/
def Node.leaf (inst : Instance) (n : Node) : Bool := decide (n.numberOfItems = inst.numberOfItems)

/-- `ubkp`, `tree_search.hpp:333–345`; `largest_efficiency_item_type_id` is `-1` when there is
no item type: the access is then undefined behaviour (value 0 here). -/
def ubkp (inst : Instance) (n : Node) : ℚ :=
  let remainingItemLength := inst.itemLength - n.itemLength
  let remainingLength := inst.binLength - n.currentLength
  if remainingLength ≥ remainingItemLength then inst.itemProfit
  else
    let it := inst.itemType inst.largestEfficiencyItemTypeId.toNat
    n.profit + (remainingLength : ℚ) * it.profit / (it.length : ℚ)

/-- `better`, `tree_search.cpp:338–374`. -/
def better (inst : Instance) (n1 n2 : Node) : Except Err Bool :=
  match inst.objective with
  | .default =>
    if n2.profit > n1.profit then .ok false
    else if n2.profit < n1.profit then .ok true
    else .ok (decide (n2.waste > n1.waste))
  | .binPacking | .variableSizedBinPacking =>
    if !n1.leaf inst then .ok false
    else if !n2.leaf inst then .ok true
    else .ok (decide (n2.numberOfBins > n1.numberOfBins))
  | .binPackingWithLeftovers =>
    if !n1.leaf inst then .ok false
    else if !n2.leaf inst then .ok true
    else .ok (decide (n2.waste > n1.waste))
  | .knapsack => .ok (decide (n2.profit < n1.profit))
  | .feasibility => .ok (decide (n2.profit < n1.profit))
  | _ => .error .logicError

/-- The loop of `bound`, `tree_search.cpp:392–401`: the number of first bins whose total length
reaches `a`, `none` when there are not enough bins. -/
def binsToReach (inst : Instance) : List Nat → Int → Option Nat
  | l, a =>
    if a > 0 then
      match l with
      | [] => none
      | t :: ts => (binsToReach inst ts (a - (inst.binType t).length)).map (· + 1)
    else some 0

/-- `bound`, `tree_search.cpp:376–422`. -/
def bound (inst : Instance) (n1 n2 : Node) : Except Err Bool :=
  match inst.objective with
  | .default =>
    if !n2.leaf inst then .ok (decide (ubkp inst n1 ≤ n2.profit))
    else if ubkp inst n1 ≠ n2.profit then .ok (decide (ubkp inst n1 ≤ n2.profit))
    else .ok (decide (n1.waste ≥ n2.waste))
  | .binPacking | .variableSizedBinPacking =>
    if !n2.leaf inst then .ok false
    else match binsToReach inst ((schemeBins inst).take inst.numberOfBins)
        (inst.itemLength + n1.waste) with
      | none => .ok true
      | some k => .ok (decide (k ≥ n2.numberOfBins))
  | .binPackingWithLeftovers =>
    if !n2.leaf inst then .ok false else .ok (decide (n1.waste ≥ n2.waste))
  | .knapsack => .ok false
  | .feasibility => .ok (n2.leaf inst)
  | _ => .error .logicError

/-- `NodeHasher::operator()`, `tree_search.hpp:209–214`: only such nodes are compared. -/
def comparable (n1 n2 : Node) : Bool := decide (n1.itemNumberOfCopies = n2.itemNumberOfCopies)

/-- `dominates`, `tree_search.cpp:284–324`. -/
def dominates (n1 n2 : Node) : Bool :=
  decide (n1.itemTypeId = n2.itemTypeId)
  && decide (n1.numberOfBins = n2.numberOfBins)
  && !decide (n1.currentLength > n2.currentLength)
  && !decide (n1.profit < n2.profit)
  && (List.range n1.lastBinResourceConsumption.length).all fun r =>
    !decide (n1.lastBinResourceConsumption.getD r 0 > n2.lastBinResourceConsumption.getD r 0)

/-- The builder calls of `to_solution`, `tree_search.cpp:439–450`, from `nb` bins on. -/
def historyOps (inst : Instance) : Nat → List (Nat × Nat) → List BuilderOp
  | _, [] => []
  | nb, (i, k) :: rest =>
    ((List.range' nb (k - nb)).map fun j => BuilderOp.addBin ((schemeBins inst).getD j 0) 1)
      ++ BuilderOp.addItem (max nb k - 1) i :: historyOps inst (max nb k) rest

/-- `to_solution`, `tree_search.cpp:428–488`. -/
def toSolution (inst : Instance) (n : Node) : Except Err Solution :=
  if n.history.any fun h => decide (h.2 > (schemeBins inst).length) then .error .ub
  else do
    let s ← SolutionBuilder.runOps inst (historyOps inst 0 n.history)
    if s.itemCopiesFeasible && s.capacityFeasible && s.weightFeasible && s.stackabilityFeasible
      && s.maximumWeightAfterFeasible && s.resourceFeasible && s.eligibilityFeasible
      && s.binTypeOrderFeasible then return s
    else throw .logicError

end PackingSolver.OneDim
