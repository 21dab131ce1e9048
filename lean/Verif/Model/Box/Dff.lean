import Verif.Model.Dff
import Verif.Model.Box.Instance
import Mathlib.Data.Rat.Floor

/-!
# Dual feasible functions of the box solver

Models `src/box/dual_feasible_functions.cpp` (line numbers refer to this file).  Lines 18–67
(`f_ccm_0`, `f_ccm_1`, `f_ccm_2`) and 158–176 (`greedy_maximum_cardinality`) are textually identical
to the one-dimensional ones and are those of `Verif.Model.Dff`.
-/

namespace PackingSolver.Box

open Dff

/-- `axis_component`, lines 131–134. -/
def axisComponent (d : Dims) (axis : Nat) : Int :=
  if axis = 0 then d.x else if axis = 1 then d.y else d.z

/-- `possible_axis_values`, lines 140–150. -/
def possibleAxisValues (it : ItemType) (axis : Nat) : List Int :=
  sortUnique (it.rotations.map fun r => axisComponent (it.box.rotate r) axis)

/-- `medium_pool_length`, lines 190–202. -/
def mediumPoolLength (it : ItemType) (axis : Nat) (k half : Int) : Int :=
  (possibleAxisValues it axis).foldl
    (fun best v => if k ≤ v ∧ v ≤ half ∧ (best < 0 ∨ v < best) then v else best) (-1)

/-- The values of all the item types along an axis, in the order of the loops of lines 227–250 and
265–278. -/
def axisValues (inst : Instance) (axis : Nat) : List Int :=
  inst.itemTypes.flatMap fun it => possibleAxisValues it axis

/-- `tables.thresholds`, lines 223–259. -/
def axisThresholds (capacity : Int) (values : List Int) : List Int :=
  sortUnique (values.filterMap (foldLength capacity) ++ [capacity.tdiv 2])

/-- `big_values`, lines 264–280. -/
def axisBigValues (capacity : Int) (values : List Int) : List Int :=
  sortUnique (values.filter fun v => decide (v > capacity.tdiv 2 ∧ v ≤ capacity))

/-- The pool of a breakpoint, lines 286–295. -/
def axisPool (inst : Instance) (axis : Nat) (capacity k : Int) : List (Int × Int) :=
  inst.itemTypes.filterMap fun it =>
    let length := mediumPoolLength it axis k (capacity.tdiv 2)
    if length ≥ 0 then some (length, it.copies) else none

/-- `compute_axis_tables`, lines 216–305.  (Simplification: the three parallel vectors of the code
are one list.) -/
def axisTables (inst : Instance) (binLength : Int) (axis : Nat) :
    Except Err (List BreakpointTables) :=
  (axisThresholds binLength (axisValues inst axis)).mapM
    (breakpointTables binLength (axisBigValues binLength (axisValues inst axis))
      (axisPool inst axis binLength))

/-- `f_ccm_1_axis`, lines 313–336. -/
def fCcm1Axis (capacity : Int) (t : BreakpointTables) (length : Int) : Except Err Int :=
  if length ≥ capacity then fCcm1 capacity t.k capacity t.fullCardinality
  else if length > capacity.tdiv 2 then do
    let excluded ← excludedAt t.excludedCardinality length
    fCcm1 capacity t.k length (t.fullCardinality - excluded)
  else fCcm1 capacity t.k length 0

/-- `eval_axis`, lines 357–374. -/
def evalAxis (capacity : Int) (family : Nat) (t : BreakpointTables) (length : Int) :
    Except Err Int :=
  match family with
  | 0 => .ok (fCcm0 capacity t.k (min length capacity))
  | 1 => fCcm1Axis capacity t (min length capacity)
  | _ => fCcm2 capacity t.k (min length capacity)

/-- The breakpoints `k_pos`, `l_pos`, `m_pos` of the three axes with their tables, lines
422–433. -/
structure Triple where
  x : BreakpointTables
  y : BreakpointTables
  z : BreakpointTables

/-- The families `fx`, `fy`, `fz` of the three axes. -/
structure Families where
  x : Nat
  y : Nat
  z : Nat
deriving DecidableEq

/-- The families in the order of the loops, e.g. lines 504–506. -/
def allFamilies : List Families :=
  [0, 1, 2].flatMap fun fx => [0, 1, 2].flatMap fun fy => [0, 1, 2].map fun fz => ⟨fx, fy, fz⟩

/-- The value of one rotation, lines 377–381. -/
def rotationValue (bin : Dims) (t : Triple) (f : Families) (it : ItemType) (r : Rotation) :
    Except Err Int := do
  let a ← evalAxis bin.x f.x t.x (it.box.rotate r).x
  let b ← evalAxis bin.y f.y t.y (it.box.rotate r).y
  let c ← evalAxis bin.z f.z t.z (it.box.rotate r).z
  return 1 * a * b * c

/-- `item_coefficient`, lines 349–386. -/
def itemCoefficient (bin : Dims) (t : Triple) (f : Families) (it : ItemType) : Except Err Int :=
  it.rotations.foldlM (fun best r => do
    let value ← rotationValue bin t f it r
    return if best < 0 ∨ value < best then value else best) (-1)

/-- `f_bin[axis_id]`, lines 439–445. -/
def fBinAxis (capacity : Int) (t : BreakpointTables) : Except Err (List Int) := do
  let a ← binCoefficient capacity 0 t
  let b ← binCoefficient capacity 1 t
  let c ← binCoefficient capacity 2 t
  return [a, b, c]

/-- `f_bin[0][fx] * f_bin[1][fy] * f_bin[2][fz]` for all families, lines 438–445, 507 and 523: the
values of the three axes are computed first. -/
def fBin (bin : Dims) (t : Triple) : Except Err (Families → Int) := do
  let x ← fBinAxis bin.x t.x
  let y ← fBinAxis bin.y t.y
  let z ← fBinAxis bin.z t.z
  return fun f => x.getD f.x 0 * y.getD f.y 0 * z.getD f.z 0

/-- The coefficients of all the item types for given families, lines 467–500.  (The code runs over
the item types in its outer loop.) -/
def volumes (inst : Instance) (bin : Dims) (t : Triple) (f : Families) : Except Err (List Int) :=
  inst.itemTypes.mapM (itemCoefficient bin t f)

/-- `sum[fx][fy][fz]`, line 490. -/
def coefficientSum (inst : Instance) (volumes : List Int) : Int :=
  (List.zipWith (fun (it : ItemType) c => it.copies * c) inst.itemTypes volumes).sum

/-- One iteration of the sweep, lines 425–532 (BinPacking, Feasibility). -/
def binBoundStep (inst : Instance) (bin : Dims) (bound : Int) (t : Triple) : Except Err Int := do
  let b ← fBin bin t
  let vs ← allFamilies.mapM (volumes inst bin t)
  return (allFamilies.zip vs).foldl (fun bound p =>
    if b p.1 ≤ 0 then bound
    else max bound ⌈(coefficientSum inst p.2 : ℚ) / (b p.1 : ℚ)⌉) bound

/-- The iterations of the sweep, lines 422–424. -/
def triples (x y z : List BreakpointTables) : List Triple :=
  x.flatMap fun a => y.flatMap fun b => z.map fun c => ⟨a, b, c⟩

/-- The tables of the three axes, lines 415–417. -/
def allTriples (inst : Instance) (bin : Dims) : Except Err (List Triple) := do
  let x ← axisTables inst bin.x 0
  let y ← axisTables inst bin.y 1
  let z ← axisTables inst bin.z 2
  return triples x y z

/-- `bound`, lines 415–535. -/
def dffBins (inst : Instance) : Except Err Int := do
  let ts ← allTriples inst (inst.binType 0).box
  ts.foldlM (binBoundStep inst (inst.binType 0).box) 0

/-! ## Knapsack -/

/-- `fits_some_bin`, `src/box/instance.cpp:134–152`. -/
def Instance.fitsSomeBin (inst : Instance) (i : Nat) : Bool :=
  (List.range inst.numberOfBinTypes).any fun b => (inst.itemType i).rotations.any fun r =>
    decide (((inst.itemType i).box.rotate r).x ≤ (inst.binType b).box.x
      ∧ ((inst.itemType i).box.rotate r).y ≤ (inst.binType b).box.y
      ∧ ((inst.itemType i).box.rotate r).z ≤ (inst.binType b).box.z)

/-- The comparator of `dantzig_profit_bound`, lines 102–113. -/
def dantzigLt (inst : Instance) (volumes : List Int) (i j : Nat) : Bool :=
  decide ((inst.itemType i).profit * (volumes.getD j 0 : ℚ)
    > (inst.itemType j).profit * (volumes.getD i 0 : ℚ))

/-- The item types included for free, lines 85–101. -/
def dantzigFree (inst : Instance) (volumes : List Int) : ℚ :=
  (List.range inst.numberOfItemTypes).foldl (fun bound i =>
    if !inst.fitsSomeBin i then bound
    else if volumes.getD i 0 ≤ 0 then
      bound + (inst.itemType i).profit * ((inst.itemType i).copies : ℚ)
    else bound) 0

/-- The item types that are sorted, lines 85–101. -/
def dantzigItemTypes (inst : Instance) (volumes : List Int) : List Nat :=
  (List.range inst.numberOfItemTypes).filter fun i =>
    inst.fitsSomeBin i && decide (0 < volumes.getD i 0)

/-- The loop of `dantzig_profit_bound`, lines 114–127. -/
def dantzigFill (inst : Instance) (volumes : List Int) : List Nat → ℚ → ℚ → ℚ
  | [], _, bound => bound
  | i :: rest, remaining, bound =>
    if remaining ≤ 0 then bound
    else if (volumes.getD i 0 : ℚ) * ((inst.itemType i).copies : ℚ) ≤ remaining then
      dantzigFill inst volumes rest
        (remaining - (volumes.getD i 0 : ℚ) * ((inst.itemType i).copies : ℚ))
        (bound + (inst.itemType i).profit * ((inst.itemType i).copies : ℚ))
    else
      dantzigFill inst volumes rest 0
        (bound + (inst.itemType i).profit * (remaining / (volumes.getD i 0 : ℚ)))

/-- `dantzig_profit_bound`, lines 80–129; `sort volumes l` is the result of `std::sort`. -/
def dantzigProfitBound (inst : Instance) (sort : List Int → List Nat → List Nat)
    (volumes : List Int) (capacity : ℚ) : ℚ :=
  dantzigFill inst volumes (sort volumes (dantzigItemTypes inst volumes)) capacity
    (dantzigFree inst volumes)

/-- One iteration of the sweep, lines 425–517 (Knapsack). -/
def knapsackStep (inst : Instance) (sort : List Int → List Nat → List Nat) (bt : BinType)
    (bound : ExtQ) (t : Triple) : Except Err ExtQ := do
  let b ← fBin bt.box t
  let vs ← allFamilies.mapM (volumes inst bt.box t)
  return (allFamilies.zip vs).foldl (fun bound p =>
    if b p.1 ≤ 0 then bound
    else bound.min (.fin (dantzigProfitBound inst sort p.2 ((b p.1 : ℚ) * (bt.copies : ℚ))))) bound

/-- `negative_penalty_sum(instance)`, `common.hpp:346–357`. -/
def instNegativePenaltySum (inst : Instance) : ℚ :=
  (List.range inst.numberOfBinTypes).foldl
    (fun sum b => sum + ((inst.binType b).copies : ℚ)
      * negativePenaltySum (inst.binType b).resources) 0

/-- `knapsack_bound`, lines 415–535 and 546. -/
def knapsackBound (inst : Instance) (sort : List Int → List Nat → List Nat) :
    Except Err ExtQ := do
  let ts ← allTriples inst (inst.binType 0).box
  let bound ← ts.foldlM (knapsackStep inst sort (inst.binType 0)) .inf
  return bound.subQ (- instNegativePenaltySum inst)

/-- What `dual_feasible_functions` reports. -/
inductive DffOutput where
  | binPackingBound (bound : Int)
  | provenInfeasible (b : Bool)
  | knapsackBound (bound : ExtQ)
deriving DecidableEq

/-- `dual_feasible_functions`, lines 390–552. -/
def dualFeasibleFunctions (sort : List Int → List Nat → List Nat) (inst : Instance) :
    Except Err DffOutput :=
  if inst.objective ≠ .binPacking ∧ inst.objective ≠ .feasibility ∧ inst.objective ≠ .knapsack then
    .error .invalidArgument
  else if inst.numberOfBinTypes ≠ 1 then .error .invalidArgument
  else if inst.objective = .knapsack then do return .knapsackBound (← knapsackBound inst sort)
  else do
    let bound ← dffBins inst
    return if inst.objective = .binPacking then .binPackingBound bound
      else .provenInfeasible (decide (bound > (inst.numberOfBins : Int)))

end PackingSolver.Box
