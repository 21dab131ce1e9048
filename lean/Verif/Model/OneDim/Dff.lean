import Verif.Model.Dff
import Verif.Model.OneDim.TrivialBound
import Mathlib.Data.Rat.Floor

/-!
# Dual feasible functions of the one-dimensional solver

Models `src/onedimensional/dual_feasible_functions.cpp`.
-/

namespace PackingSolver.OneDim

open Dff

/-- The pool of medium items of a breakpoint, lines 199–207. -/
def dffPool (inst : Instance) (k : Int) : List (Int × Int) :=
  (inst.itemTypes.filter fun it =>
    decide (k ≤ reducedLength it ∧ reducedLength it ≤ (inst.binType 0).length.tdiv 2)).map
    fun it => (reducedLength it, it.copies)

/-- `compute_dual_feasible_functions_tables`, lines 142–218. -/
def dffTables (inst : Instance) : Except Err (List BreakpointTables) :=
  axisTables (inst.binType 0).length (inst.itemTypes.map reducedLength) (dffPool inst)

/-- The coefficients of all the item types for one breakpoint and one family, lines 327–346. -/
def dffVolumes (inst : Instance) (t : BreakpointTables) (family : Nat) : Except Err (List Int) :=
  inst.itemTypes.mapM fun it =>
    axisCoefficient (inst.binType 0).length family t (reducedLength it)

/-- `sums[family]`, line 343. -/
def dffSum (inst : Instance) (volumes : List Int) : Int :=
  (List.zipWith (fun (it : ItemType) c => it.copies * c) inst.itemTypes volumes).sum

/-- One iteration of lines 332–346 and 360–365: the bound obtained with one breakpoint and
one family. -/
def dffBoundStep (inst : Instance) (t : BreakpointTables) (bound : Int) (family : Nat) :
    Except Err Int := do
  let fBin ← binCoefficient (inst.binType 0).length family t
  let volumes ← dffVolumes inst t family
  if fBin ≤ 0 then return bound
  else return max bound ⌈(dffSum inst volumes : ℚ) / (fBin : ℚ)⌉

/-- The number of bins, lines 309–367, for the objectives BinPacking and Feasibility. -/
def dffBinBound (inst : Instance) : Except Err Int := do
  let tables ← dffTables inst
  tables.foldlM (fun bound t => [0, 1, 2].foldlM (dffBoundStep inst t) bound) 0

/-- The comparator of `dantzig_profit_bound`, lines 256–264. -/
def dantzigLt (inst : Instance) (volumes : List Int) (i j : Nat) : Bool :=
  decide ((inst.itemType i).profit * (volumes.getD j 0 : ℚ)
    > (inst.itemType j).profit * (volumes.getD i 0 : ℚ))

/-- The item types included for free, lines 236–252. -/
def dantzigFree (inst : Instance) (volumes : List Int) : ℚ :=
  (List.range inst.numberOfItemTypes).foldl (fun bound i =>
    if !fitsSomeBin inst i then bound
    else if volumes.getD i 0 ≤ 0 then
      bound + (inst.itemType i).profit * ((inst.itemType i).copies : ℚ)
    else bound) 0

/-- The item types that are sorted, lines 236–252. -/
def dantzigItemTypes (inst : Instance) (volumes : List Int) : List Nat :=
  (List.range inst.numberOfItemTypes).filter fun i =>
    fitsSomeBin inst i && decide (0 < volumes.getD i 0)

/-- The loop of `dantzig_profit_bound`, lines 265–279. -/
def dantzigFill (inst : Instance) (volumes : List Int) : List Nat → ℚ → ℚ → ℚ
  | [], _, bound => bound
  | i :: rest, remaining, bound =>
    if remaining ≤ 0 then bound
    else if (volumes.getD i 0 : ℚ) * ((inst.itemType i).copies : ℚ) ≤ remaining then
      dantzigFill inst volumes rest
        (remaining - (volumes.getD i 0 : ℚ) * ((inst.itemType i).copies : ℚ))
        (bound + (inst.itemType i).profit * ((inst.itemType i).copies : ℚ))
    else
      dantzigFill inst volumes rest 0
        (bound + (inst.itemType i).profit * (remaining / (volumes.getD i 0 : ℚ)))

/-- `dantzig_profit_bound`, lines 231–280; `sort volumes l` is the result of `std::sort`. -/
def dantzigProfitBound (inst : Instance) (sort : List Int → List Nat → List Nat)
    (volumes : List Int) (capacity : ℚ) : ℚ :=
  dantzigFill inst volumes (sort volumes (dantzigItemTypes inst volumes)) capacity
    (dantzigFree inst volumes)

/-- One iteration of lines 332–358 (Knapsack). -/
def dffKnapsackStep (inst : Instance) (sort : List Int → List Nat → List Nat)
    (t : BreakpointTables) (bound : ExtQ) (family : Nat) : Except Err ExtQ := do
  let fBin ← binCoefficient (inst.binType 0).length family t
  let volumes ← dffVolumes inst t family
  if fBin ≤ 0 then return bound
  else return bound.min (.fin (dantzigProfitBound inst sort volumes
    ((fBin : ℚ) * ((inst.binType 0).copies : ℚ))))

/-- `knapsack_bound`, lines 310–367 and 379. -/
def dffKnapsackBound (inst : Instance) (sort : List Int → List Nat → List Nat) :
    Except Err ExtQ := do
  let tables ← dffTables inst
  let bound ← tables.foldlM
    (fun bound t => [0, 1, 2].foldlM (dffKnapsackStep inst sort t) bound) .inf
  return bound.subQ (- instNegativePenaltySum inst)

/-- What `dual_feasible_functions` reports, lines 284–385. -/
inductive DffOutput where
  | binPackingBound (bound : Int)
  | provenInfeasible (b : Bool)
  | knapsackBound (bound : ExtQ)

/-- `dual_feasible_functions`, lines 284–385. -/
def dualFeasibleFunctions (inst : Instance) (sort : List Int → List Nat → List Nat) :
    Except Err DffOutput :=
  if inst.objective ≠ .binPacking ∧ inst.objective ≠ .feasibility ∧ inst.objective ≠ .knapsack then
    .error .invalidArgument
  else if inst.numberOfBinTypes ≠ 1 then .error .invalidArgument
  else if inst.objective = .binPacking then do
    return .binPackingBound (← dffBinBound inst)
  else if inst.objective = .feasibility then do
    return .provenInfeasible (decide ((← dffBinBound inst) > inst.numberOfBins))
  else do
    return .knapsackBound (← dffKnapsackBound inst sort)

end PackingSolver.OneDim
