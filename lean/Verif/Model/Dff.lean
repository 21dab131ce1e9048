import Verif.Model.Basic
import Mathlib.Data.List.Sort

/-!
# Dual feasible functions: the parts shared by the problem types

`src/onedimensional/dual_feasible_functions.cpp` and
`src/rectangle/dual_feasible_functions.cpp` contain textually identical copies of the
functions modelled here (line numbers: one-dimensional / rectangle).
-/

namespace PackingSolver.Dff

/-- `f_ccm_0`, lines 14–26 / 15–27. -/
def fCcm0 (capacity k length : Int) : Int :=
  if length > capacity - k then capacity
  else if length < k then 0
  else length

/-- `f_ccm_1`, lines 28–49 / 29–50. -/
def fCcm1 (capacity k length value : Int) : Except Err Int :=
  if length > capacity.tdiv 2 then
    if value < 0 then .error .invalidArgument else .ok value
  else if length < k then .ok 0
  else .ok 1

/-- `f_ccm_2`, lines 51–63 / 52–64.  All three branches divide by `k`. -/
def fCcm2 (capacity k length : Int) : Except Err Int :=
  if k = 0 then .error .ub
  else if length > capacity.tdiv 2 then
    .ok (2 * (capacity.tdiv k - (capacity - length).tdiv k))
  else if length = capacity.tdiv 2 ∧ capacity.tmod 2 = 0 then .ok (capacity.tdiv k)
  else .ok (2 * length.tdiv k)

/-- Loop of `greedy_maximum_cardinality`, lines 77–87 / 78–88. -/
def greedyLoop (capacity : Int) : List (Int × Int) → Int → Int → Except Err Int
  | [], _, count => .ok count
  | (length, copies) :: rest, used, count =>
    if used + copies * length < capacity then
      greedyLoop capacity rest (used + copies * length) (count + copies)
    else if length = 0 then .error .ub
    else .ok (count + (capacity - used).tdiv length)

/-- `greedy_maximum_cardinality`, lines 71–89 / 72–90. -/
def greedyMaximumCardinality (capacity : Int) (sortedPool : List (Int × Int)) : Except Err Int :=
  greedyLoop capacity sortedPool 0 0

/-- `operator<=` of `std::pair<Length, ItemPos>`. -/
def pairLe (a b : Int × Int) : Prop := a.1 < b.1 ∨ (a.1 = b.1 ∧ a.2 ≤ b.2)

instance : DecidableRel pairLe := fun a b => by unfold pairLe; infer_instance

/-- `sort(pool.begin(), pool.end())`.  The order of pairs is total, so the result of
`std::sort` is unique. -/
def sortPool (pool : List (Int × Int)) : List (Int × Int) := pool.insertionSort pairLe

/-- `std::unique` followed by `erase`: drops an element equal to the previous one kept. -/
def dropRepeats : List Int → List Int
  | [] => []
  | [a] => [a]
  | a :: b :: l => if a = b then dropRepeats (b :: l) else a :: dropRepeats (b :: l)

/-- `sort` then `unique` then `erase`. -/
def sortUnique (l : List Int) : List Int := dropRepeats (l.insertionSort (· ≤ ·))

/-- The breakpoint a length contributes, lines 158–165 / 243–251. -/
def foldLength (capacity length : Int) : Option Int :=
  if length > capacity then none
  else if length = capacity then none
  else if length ≤ capacity.tdiv 2 then some length
  else some (capacity - length)

/-- The breakpoints of one axis, lines 148–177 / 220–282; `lengths` are the lengths an item
may present along the axis. -/
def breakpoints (capacity : Int) (lengths : List Int) : List Int :=
  sortUnique (lengths.filterMap (foldLength capacity)
    ++ if capacity.tdiv 2 > 0 then [capacity.tdiv 2] else [])

/-- `big_values`, lines 182–192 / 288–306. -/
def bigValues (capacity : Int) (lengths : List Int) : List Int :=
  sortUnique (lengths.filter fun length => decide (length > capacity.tdiv 2))

/-- The tables of one breakpoint; `std::map` is an association list. -/
structure BreakpointTables where
  k : Int
  fullCardinality : Int
  excludedCardinality : List (Int × Int)

/-- The body of the loop over the breakpoints, lines 198–214 / 311–334. -/
def breakpointTables (capacity : Int) (bigs : List Int) (pool : Int → List (Int × Int))
    (k : Int) : Except Err BreakpointTables := do
  let sorted := sortPool (pool k)
  let full ← greedyMaximumCardinality capacity sorted
  let excluded ← bigs.mapM fun big => do
    return (big, ← greedyMaximumCardinality (capacity - big) sorted)
  return ⟨k, full, excluded⟩

/-- The tables of one axis, lines 142–218 / 217–363; `pool k` lists the medium lengths and
their copies for the breakpoint `k`.  (Simplification: the three parallel vectors of the code
are one list.) -/
def axisTables (capacity : Int) (lengths : List Int) (pool : Int → List (Int × Int)) :
    Except Err (List BreakpointTables) :=
  (breakpoints capacity lengths).mapM (breakpointTables capacity (bigValues capacity lengths) pool)

/-- `excluded_cardinality.at(length)`: throws `std::out_of_range` (a `std::logic_error`). -/
def excludedAt (m : List (Int × Int)) (length : Int) : Except Err Int :=
  match m.lookup length with
  | some v => .ok v
  | none => .error .logicError

/-- `item_coefficient` (one-dimensional), lines 109–127; `eval_w`/`eval_h` and
`f_ccm_1_axis` (rectangle), lines 136–148, 173–188. -/
def axisCoefficient (capacity : Int) (family : Nat) (t : BreakpointTables) (length : Int) :
    Except Err Int :=
  match family with
  | 0 => .ok (fCcm0 capacity t.k length)
  | 1 =>
    if length > capacity.tdiv 2 then do
      let excluded ← excludedAt t.excludedCardinality length
      fCcm1 capacity t.k length (t.fullCardinality - excluded)
    else fCcm1 capacity t.k length 0
  | _ => fCcm2 capacity t.k length

/-- `f_bin`, lines 315–318; `f_w_bin`/`f_h_bin` (rectangle), lines 600–607. -/
def binCoefficient (capacity : Int) (family : Nat) (t : BreakpointTables) : Except Err Int :=
  match family with
  | 0 => .ok (fCcm0 capacity t.k capacity)
  | 1 => fCcm1 capacity t.k capacity t.fullCardinality
  | _ => fCcm2 capacity t.k capacity

end PackingSolver.Dff
