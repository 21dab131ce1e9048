import Verif.Model.Dff
import Verif.Model.Rect.Instance
import Mathlib.Data.Rat.Floor

/-!
# Dual feasible functions of the rectangle solver

Models `src/rectangle/dual_feasible_functions.cpp` (line numbers refer to this file).
-/

namespace PackingSolver.Rect

open Dff

/-- `medium_pool_length`, lines 109–128. -/
def mediumPoolLength (it : ItemType) (own other k half : Int) : Int :=
  if it.oriented then
    if k ≤ own ∧ own ≤ half then own else -1
  else
    let lo := min own other
    let hi := max own other
    if k ≤ lo ∧ lo ≤ half then lo
    else if k ≤ hi ∧ hi ≤ half then hi
    else -1

/-- The pool of one axis for the breakpoint `k`, lines 313–327 (width) and 339–353 (height);
`own` and `other` select the dimension along the axis and the other one. -/
def dffPool (inst : Instance) (own other : ItemType → Int) (capacity k : Int) :
    List (Int × Int) :=
  inst.itemTypes.filterMap fun it =>
    let length := mediumPoolLength it (own it) (other it) k (capacity.tdiv 2)
    if length ≥ 0 then some (length, it.copies) else none

/-- The lengths that may be along one axis, lines 227–267 and 288–302: both dimensions of a non-oriented
item type. -/
def dffLengths (inst : Instance) (own other : ItemType → Int) : List Int :=
  inst.itemTypes.flatMap fun it => if it.oriented then [own it] else [own it, other it]

/-- `struct DualFeasibleFunctionsTables`, lines 207–215. -/
structure DffTables where
  widths : List BreakpointTables
  heights : List BreakpointTables

/-- `compute_dual_feasible_functions_tables`, lines 217–363. -/
def dffTables (inst : Instance) (bt : BinType) : Except Err DffTables := do
  let widths ← axisTables bt.x (dffLengths inst (·.x) (·.y)) (dffPool inst (·.x) (·.y) bt.x)
  let heights ← axisTables bt.y (dffLengths inst (·.y) (·.x)) (dffPool inst (·.y) (·.x) bt.y)
  return ⟨widths, heights⟩

/-- A choice of a breakpoint and a family on each axis: one combination of the sweep. -/
structure Combo where
  tw : BreakpointTables
  th : BreakpointTables
  familyW : Nat
  familyH : Nat

/-- The combinations in the order of the loops, lines 594–667 and 702–718. -/
def combos (tables : DffTables) : List Combo :=
  tables.widths.flatMap fun tw => tables.heights.flatMap fun th =>
    [0, 1, 2].flatMap fun fw => [0, 1, 2].map fun fh => ⟨tw, th, fw, fh⟩

/-- `item_coefficient`, lines 160–195. -/
def itemCoefficient (bt : BinType) (c : Combo) (it : ItemType) : Except Err Int := do
  let aw ← axisCoefficient bt.x c.familyW c.tw it.x
  let ah ← axisCoefficient bt.y c.familyH c.th it.y
  if it.oriented then return aw * ah
  else
    let bw ← axisCoefficient bt.x c.familyW c.tw it.y
    let bh ← axisCoefficient bt.y c.familyH c.th it.x
    return min (aw * ah) (bw * bh)

/-- `f_w_bin[family_w] * f_h_bin[family_h]`, lines 600–607, 647, 663 and 708–719. -/
def comboBin (bt : BinType) (c : Combo) : Except Err Int := do
  return (← binCoefficient bt.x c.familyW c.tw) * (← binCoefficient bt.y c.familyH c.th)

/-- The coefficients of all the item types for one combination, lines 617–642. -/
def comboVolumes (inst : Instance) (bt : BinType) (c : Combo) : Except Err (List Int) :=
  inst.itemTypes.mapM (itemCoefficient bt c)

/-- `sums[family_w][family_h]`, line 638. -/
def comboSum (inst : Instance) (volumes : List Int) : Int :=
  (List.zipWith (fun (it : ItemType) c => it.copies * c) inst.itemTypes volumes).sum

/-- `BinPos bound_combo = std::ceil((double)sum / divisor)`, lines 661–663.  When the divisor is zero the
quotient is an infinity or not a number, and its conversion to an integer is undefined; `undef` is
the outcome of this conversion. -/
def boundCombo (undef : Except Err Int) (sum divisor : Int) : Except Err Int :=
  if divisor = 0 then undef else .ok ⌈(sum : ℚ) / (divisor : ℚ)⌉

/-- One iteration of the sweep, lines 600–667 (BinPacking, Feasibility). -/
def binBoundStep (undef : Except Err Int) (inst : Instance) (bt : BinType) (bound : Int)
    (c : Combo) : Except Err Int := do
  let fBin ← comboBin bt c
  let volumes ← comboVolumes inst bt c
  return max bound (← boundCombo undef (comboSum inst volumes) fBin)

/-- The number of bins computed by the sweep, lines 583–668. -/
def sweepBins (undef : Except Err Int) (inst : Instance) : Except Err Int := do
  let tables ← dffTables inst (inst.binType 0)
  (combos tables).foldlM (binBoundStep undef inst (inst.binType 0)) 0

/-! ## The strategy of Clautiaux et al. -/

/-- The items of the modified instance, lines 524–562. -/
def doubledItems (inst : Instance) : List ItemType :=
  inst.itemTypes.flatMap fun it =>
    if it.x = it.y then
      [{ x := it.x, y := it.y, oriented := true, profit := it.profit, copies := 2 * it.copies }]
    else
      [{ x := it.x, y := it.y, oriented := true, profit := it.profit, copies := it.copies },
       { x := it.y, y := it.x, oriented := true, profit := it.profit, copies := it.copies }]

/-- The dummy items of the modified instance, lines 485–523; they have the default
orientation. -/
def dummyItems (bt : BinType) (bound : Int) : List ItemType :=
  if bt.x = bt.y then []
  else if bt.x > bt.y then
    if bound > 0 then [{ x := bt.x, y := bt.x - bt.y, copies := bound }] else []
  else
    if bound > 0 then [{ x := bt.y - bt.x, y := bt.y, copies := bound }] else []

/-- The bin type of the modified instance, lines 485–523. -/
def modifiedBin (inst : Instance) (bound : Int) : BinType :=
  let bt := inst.binType 0
  if bt.x = bt.y then { x := bt.x, y := bt.y, copies := 2 * inst.numberOfItems }
  else if bt.x > bt.y then { x := bt.x, y := bt.x, copies := 2 * inst.numberOfItems + bound }
  else { x := bt.y, y := bt.y, copies := 2 * inst.numberOfItems + bound }

/-- `modified_instance`, lines 477–563.  (Simplification: the calls of the builder are replaced by
the instance they build, of which only the item types and the bin type matter here.) -/
def modifiedInstance (inst : Instance) (bound : Int) : Instance := {
  objective := .binPacking
  itemTypes := dummyItems (inst.binType 0) bound ++ doubledItems inst
  binTypes := [modifiedBin inst bound]
  parameters := inst.parameters }

/-- The loop, lines 476–580, at most `passes` iterations (`none`: not finished); `rec` is the recursive
call and `bound` the value of `clautiaux_bound`. -/
def clautiauxLoop (rec : Instance → Option (Except Err Int)) (inst : Instance) :
    Nat → Int → Option (Except Err Int)
  | 0, _ => none
  | passes + 1, bound =>
    match rec (modifiedInstance inst bound) with
    | none => none
    | some (.error e) => some (.error e)
    | some (.ok b) =>
      if bound ≥ (b - 1).tdiv 2 + 1 then some (.ok bound)
      else if (inst.binType 0).x = (inst.binType 0).y then some (.ok ((b - 1).tdiv 2 + 1))
      else clautiauxLoop rec inst passes ((b - 1).tdiv 2 + 1)

/-- The number of bins computed for the objectives BinPacking and Feasibility, lines 449–674, with
at most `passes` iterations of each loop and at most `depth` nested calls (`none`: not
finished). -/
def binBound (undef : Except Err Int) (passes : Nat) : Nat → Instance → Option (Except Err Int)
  | 0, _ => none
  | depth + 1, inst =>
    if inst.allItemTypesOriented then some (sweepBins undef inst)
    else
      match clautiauxLoop (binBound undef passes depth) inst passes 0 with
      | none => none
      | some (.error e) => some (.error e)
      | some (.ok c) => some (do return max (← sweepBins undef inst) c)

/-! ## Knapsack -/

/-- The comparator of `dantzig_profit_bound`, lines 398–409. -/
def dantzigLt (inst : Instance) (volumes : List Int) (i j : Nat) : Bool :=
  decide ((inst.itemType i).profit * (volumes.getD j 0 : ℚ)
    > (inst.itemType j).profit * (volumes.getD i 0 : ℚ))

/-- The item types included for free, lines 381–396. -/
def dantzigFree (inst : Instance) (volumes : List Int) : ℚ :=
  (List.range inst.numberOfItemTypes).foldl (fun bound i =>
    if !inst.fitsSomeBin i then bound
    else if volumes.getD i 0 ≤ 0 then
      bound + (inst.itemType i).profit * ((inst.itemType i).copies : ℚ)
    else bound) 0

/-- The item types that are sorted, lines 381–396. -/
def dantzigItemTypes (inst : Instance) (volumes : List Int) : List Nat :=
  (List.range inst.numberOfItemTypes).filter fun i =>
    inst.fitsSomeBin i && decide (0 < volumes.getD i 0)

/-- The loop of `dantzig_profit_bound`, lines 410–424. -/
def dantzigFill (inst : Instance) (volumes : List Int) : List Nat → ℚ → ℚ → ℚ
  | [], _, bound => bound
  | i :: rest, remaining, bound =>
    if remaining ≤ 0 then bound
    else if (volumes.getD i 0 : ℚ) * ((inst.itemType i).copies : ℚ) ≤ remaining then
      dantzigFill inst volumes rest
        (remaining - (volumes.getD i 0 : ℚ) * ((inst.itemType i).copies : ℚ))
        (bound + (inst.itemType i).profit * ((inst.itemType i).copies : ℚ))
    else
      dantzigFill inst volumes rest 0
        (bound + (inst.itemType i).profit * (remaining / (volumes.getD i 0 : ℚ)))

/-- `dantzig_profit_bound`, lines 376–425; `sort volumes l` is the result of `std::sort`. -/
def dantzigProfitBound (inst : Instance) (sort : List Int → List Nat → List Nat)
    (volumes : List Int) (capacity : ℚ) : ℚ :=
  dantzigFill inst volumes (sort volumes (dantzigItemTypes inst volumes)) capacity
    (dantzigFree inst volumes)

/-- One iteration of the sweep, lines 600–657 (Knapsack). -/
def knapsackStep (inst : Instance) (sort : List Int → List Nat → List Nat) (bt : BinType)
    (bound : ExtQ) (c : Combo) : Except Err ExtQ := do
  let fBin ← comboBin bt c
  let volumes ← comboVolumes inst bt c
  if fBin ≤ 0 then return bound
  else return bound.min (.fin (dantzigProfitBound inst sort volumes
    ((fBin : ℚ) * (bt.copies : ℚ))))

/-- `negative_penalty_sum(instance)`, `common.hpp:346–357`. -/
def instNegativePenaltySum (inst : Instance) : ℚ :=
  (List.range inst.numberOfBinTypes).foldl
    (fun sum b => sum + ((inst.binType b).copies : ℚ)
      * negativePenaltySum (inst.binType b).resources) 0

/-- `knapsack_bound`, lines 583–668 and 683. -/
def knapsackBound (inst : Instance) (sort : List Int → List Nat → List Nat) :
    Except Err ExtQ := do
  let tables ← dffTables inst (inst.binType 0)
  let bound ← (combos tables).foldlM (knapsackStep inst sort (inst.binType 0)) .inf
  return bound.subQ (- instNegativePenaltySum inst)

/-- What `dual_feasible_functions` reports, lines 429–689. -/
inductive DffOutput where
  | binPackingBound (bound : Int)
  | provenInfeasible (b : Bool)
  | knapsackBound (bound : ExtQ)

/-- `dual_feasible_functions`, lines 429–689; `none`: not finished within the given numbers of
iterations and nested calls. -/
def dualFeasibleFunctions (undef : Except Err Int) (passes depth : Nat)
    (sort : List Int → List Nat → List Nat) (inst : Instance) :
    Option (Except Err DffOutput) :=
  if inst.objective ≠ .binPacking ∧ inst.objective ≠ .feasibility ∧ inst.objective ≠ .knapsack then
    some (.error .invalidArgument)
  else if inst.numberOfBinTypes ≠ 1 then some (.error .invalidArgument)
  else if inst.objective = .binPacking then
    (binBound undef passes depth inst).map fun r => do return .binPackingBound (← r)
  else if inst.objective = .feasibility then
    (binBound undef passes depth inst).map fun r => do
      return .provenInfeasible (decide ((← r) > (inst.numberOfBins : Int)))
  else some do return .knapsackBound (← knapsackBound inst sort)

/-! ## Cuts -/

/-- `struct DualFeasibleFunctionsCut`, `src/rectangle/dual_feasible_functions.hpp:43–65`. -/
structure Cut where
  found : Bool := false
  coefficients : List Int := []
  bound : Int := 0
  violation : Int := 0

/-- One iteration of the sweep of `find_most_violated_dual_feasible_function_cut`, lines 717–763.
(Simplification: sums of integers held in doubles are integers.) -/
def cutStep (inst : Instance) (bt : BinType) (selected : List (Nat × Int)) (best : Cut)
    (c : Combo) : Except Err Cut := do
  let fBin ← comboBin bt c
  if fBin ≤ 0 then return best
  else
    let terms ← selected.mapM fun p => do
      return p.2 * (← itemCoefficient bt c (inst.itemType p.1))
    let violation := terms.sum - fBin
    if violation > best.violation then
      return ⟨true, ← comboVolumes inst bt c, fBin, violation⟩
    else return best

/-- `find_most_violated_dual_feasible_function_cut`, lines 691–770. -/
def findMostViolatedCut (inst : Instance) (b : Nat) (selected : List (Nat × Int)) :
    Except Err Cut := do
  let tables ← dffTables inst (inst.binType b)
  (combos tables).foldlM (cutStep inst (inst.binType b) selected) {}

end PackingSolver.Rect
