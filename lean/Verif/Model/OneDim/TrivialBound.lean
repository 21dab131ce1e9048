import Verif.Model.OneDim.Instance

/-!
# Trivial bounds of the one-dimensional solver

Models `optimize_trivial_bound` (`src/onedimensional/optimize.cpp:24–205`).
-/

namespace PackingSolver.OneDim

/-- `reduced_length`, `src/onedimensional/dual_feasible_functions.cpp:99–102`; the same
expression is inlined in `optimize.cpp:67, 80, 117, 160`. -/
def reducedLength (it : ItemType) : Int := it.length - max it.nestingLength 0

/-- `Instance::item_type_fits_bin_type`, `src/onedimensional/instance.cpp:48–65`. -/
def itemTypeFitsBinType (inst : Instance) (i b : Nat) : Bool :=
  if (inst.itemType i).length > (inst.binType b).length then false
  else eligible (inst.itemType i) (inst.binType b)

/-- `Instance::fits_some_bin`, `src/onedimensional/instance.cpp:36–46`. -/
def fitsSomeBin (inst : Instance) (i : Nat) : Bool :=
  (List.range inst.numberOfBinTypes).any fun b => itemTypeFitsBinType inst i b

/-- `negative_penalty_sum(instance)`, `common.hpp:346–357`. -/
def instNegativePenaltySum (inst : Instance) : ℚ :=
  (List.range inst.numberOfBinTypes).foldl
    (fun sum b => sum + ((inst.binType b).copies : ℚ) * negativePenaltySum (inst.binType b).resources)
    0

/-! ## Knapsack, `optimize.cpp:29–97` -/

/-- `total_capacity`, `optimize.cpp:45–51`. -/
def totalCapacity (inst : Instance) : Int :=
  (List.range inst.numberOfBinTypes).foldl
    (fun sum b => sum + (inst.binType b).length * (inst.binType b).copies) 0

/-- The item types that are sorted, `optimize.cpp:52–58`. -/
def knapsackItemTypes (inst : Instance) : List Nat :=
  (List.range inst.numberOfItemTypes).filter (fitsSomeBin inst)

/-- The comparator of the sort, `optimize.cpp:62–70`. -/
def knapsackLt (inst : Instance) (i j : Nat) : Bool :=
  decide ((inst.itemType i).profit * (reducedLength (inst.itemType j) : ℚ)
    > (inst.itemType j).profit * (reducedLength (inst.itemType i) : ℚ))

/-- The greedy loop, `optimize.cpp:73–89`, over a sorted list of item types. -/
def knapsackFill (inst : Instance) : List Nat → Int → ℚ → ℚ
  | [], _, bound => bound
  | i :: rest, remaining, bound =>
    if remaining ≤ 0 then bound
    else if reducedLength (inst.itemType i) ≤ 0 then knapsackFill inst rest remaining bound
    else if reducedLength (inst.itemType i) * (inst.itemType i).copies ≤ remaining then
      knapsackFill inst rest
        (remaining - reducedLength (inst.itemType i) * (inst.itemType i).copies)
        (bound + (inst.itemType i).profit * ((inst.itemType i).copies : ℚ))
    else
      knapsackFill inst rest 0
        (bound + (inst.itemType i).profit
          * ((remaining : ℚ) / (reducedLength (inst.itemType i) : ℚ)))

/-- The Knapsack bound, `optimize.cpp:29–97`, for a sorted list of item types
(`std::sort` is not stable: `order` is any result it may produce). -/
def trivialKnapsackBound (inst : Instance) (order : List Nat) : ℚ :=
  knapsackFill inst order (totalCapacity inst) 0 + instNegativePenaltySum inst

/-! ## Bin packing, `optimize.cpp:99–133` -/

/-- Total reduced length of the items, `optimize.cpp:107–114` and `158–165`. -/
def totalReducedLength (inst : Instance) : Int :=
  (List.range inst.numberOfItemTypes).foldl
    (fun sum i => sum + (inst.itemType i).copies * reducedLength (inst.itemType i)) 0

/-- The loop over the bin types, `optimize.cpp:116–129`. -/
def binPackingFill : List BinType → Int → Int → Int
  | [], _, bound => bound
  | b :: rest, remaining, bound =>
    if remaining ≤ 0 then bound
    else if b.length ≤ 0 then binPackingFill rest remaining bound
    else
      let needed := (remaining + b.length - 1).tdiv b.length
      let used := min needed b.copies
      binPackingFill rest (remaining - used * b.length) (bound + used)

/-- The bin packing bound, `optimize.cpp:99–133`. -/
def trivialBinPackingBound (inst : Instance) : Int :=
  binPackingFill inst.binTypes (totalReducedLength inst) 0

/-! ## Variable-sized bin packing, `optimize.cpp:135–204` -/

/-- `bin_min_length`, `optimize.cpp:147–157`. -/
def binMinLength (inst : Instance) : Int :=
  (List.range inst.numberOfBinTypes).foldl
    (fun sum b => sum + (inst.binType b).length * (inst.binType b).copiesMin) 0

/-- `total_cost`, `optimize.cpp:148–157`. -/
def totalCost (inst : Instance) : ℚ :=
  (List.range inst.numberOfBinTypes).foldl
    (fun sum b => sum + (inst.binType b).cost * ((inst.binType b).copies : ℚ)) 0

/-- `kp_capacity`, `optimize.cpp:166`. -/
def kpCapacity (inst : Instance) : Int :=
  totalCapacity inst - binMinLength inst - totalReducedLength inst

/-- The bin types that become knapsack items, `optimize.cpp:177–186`. -/
def kpBinTypes (inst : Instance) : List Nat :=
  (List.range inst.numberOfBinTypes).filter fun b =>
    !(decide ((inst.binType b).copies - (inst.binType b).copiesMin ≤ 0)
      || decide ((inst.binType b).length ≤ 0)
      || decide ((inst.binType b).length > kpCapacity inst))

/-- The knapsack instance over the optional bins, `optimize.cpp:174–191`.
(Simplification: the instance is written out as the builder calls leave it, not run
through the builder.) -/
def kpInstance (inst : Instance) : Instance where
  objective := .knapsack
  itemTypes := (kpBinTypes inst).map fun b =>
    { length := (inst.binType b).length
      profit := (inst.binType b).cost
      copies := (inst.binType b).copies - (inst.binType b).copiesMin
      copiesMin := 0
      resourceIds := [[]] }
  binTypes := [{ length := kpCapacity inst, cost := kpCapacity inst, copies := 1, copiesMin := 0 }]

/-- The variable-sized bin packing bound, `optimize.cpp:135–204`; `kpProfit` is the
profit of the solution returned by the solver for `kpInstance inst`. -/
def trivialVariableSizedBound (inst : Instance) (kpProfit : ℚ) : ℚ :=
  if kpCapacity inst ≤ 0 then totalCost inst else totalCost inst - kpProfit

end PackingSolver.OneDim
