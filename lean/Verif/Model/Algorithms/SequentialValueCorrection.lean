import Verif.Model.Basic
import Mathlib.Data.List.Sort
import Mathlib.Logic.Function.Basic

/-!
# Sequential value correction

Models `sequential_value_correction`, `src/algorithms/sequential_value_correction.hpp:86–555`,
which is a template over the problem type: only the quantities of bin and item types it reads
are modelled, and a packed bin is the list of the item types of its items.  The knapsack
sub-solver, the timer, and the profits handed to the sub-solver are external; an `Oracle` gives
every answer as a function of the iteration and of the state of the algorithm when it is called
(the state changes between any two calls of one iteration, so this covers every sequence of
answers).  A `std::vector` indexed by ids is a function of the index.
-/

namespace PackingSolver.Svc

/-- The fields of a bin type that the algorithm reads. -/
structure BinTypeData where
  copies : Int := 1
  copiesMin : Int := 0
  cost : ℚ := 1
  space : ℚ := 1
  fixedItems : List Nat := []
deriving DecidableEq, Repr

/-- The parts of the instance that the algorithm reads. -/
structure InstanceData where
  objective : Objective
  binTypes : List BinTypeData
  /-- Copies of each item type. -/
  itemCopies : List Int
deriving Repr

/-- `bin_type(bin_type_id)`. -/
def InstanceData.binType (inst : InstanceData) (t : Nat) : BinTypeData :=
  inst.binTypes.getD t {}

/-- `instance.number_of_items()`. -/
def InstanceData.numberOfItems (inst : InstanceData) : Int := inst.itemCopies.sum

/-- `instance.number_of_bins()`. -/
def InstanceData.numberOfBins (inst : InstanceData) : Int :=
  (inst.binTypes.map fun t => t.copies).sum

/-- `item_type.copies_fixed`, computed by `InstanceBuilder::build`
(for example `src/irregular/instance_builder.cpp:1050–1059`). -/
def InstanceData.copiesFixed (inst : InstanceData) (i : Nat) : Int :=
  (inst.binTypes.map fun t => t.copies * (t.fixedItems.count i : Int)).sum

/-- A bin of the solution: `SolutionBin`. -/
structure Bin where
  typeId : Nat
  copies : Int
  items : List Nat
deriving DecidableEq, Repr

/-- `solution.number_of_items()`. -/
def numberOfItems (bins : List Bin) : Int :=
  (bins.map fun b => b.copies * (b.items.length : Int)).sum

/-- `solution.number_of_bins()`. -/
def numberOfBins (bins : List Bin) : Int := (bins.map fun b => b.copies).sum

/-- `solution.bin_copies(bin_type_id)`. -/
def binCopies (bins : List Bin) (t : Nat) : Int :=
  (bins.map fun b => if b.typeId = t then b.copies else 0).sum

/-- `solution.item_copies(item_type_id)`. -/
def itemCopies (bins : List Bin) (i : Nat) : Int :=
  (bins.map fun b => b.copies * (b.items.count i : Int)).sum

/-- The variables of one iteration, and the solutions handed to `update_solution` so far. -/
structure State where
  /-- `solution`. -/
  bins : List Bin := []
  /-- `partial_fixed_copies`. -/
  partialFixed : Nat → Int := fun _ => 0
  /-- `solutions_cur`: items of the single bin, and profit. -/
  cur : Nat → List Nat × ℚ := fun _ => ([], 0)
  /-- Arguments of `update_solution`. -/
  emitted : List (List Bin) := []

/-- Whether the algorithm goes on, leaves the inner loop (`break`), returns, or throws. -/
inductive Status where
  | running
  | finished
  | returned
  | threw (e : Err)
deriving DecidableEq, Repr

/-- The external answers. -/
structure Oracle where
  /-- Best solution of the knapsack sub-instance with one bin of the given type and the given
  number of copies of each item type (`:267`); `none` when it has no bin (`:273`). -/
  kp : Nat → State → Nat → (Nat → Int) → Option (List Nat × ℚ)
  /-- The re-optimised last bin (`:315–342`); `none` when the previous one is kept. -/
  leftovers : Nat → State → Nat → (Nat → Int) → Option (List Nat × ℚ)
  /-- `parameters.timer.needs_to_end()`; the last argument is the place of the check: 0 at
  `:165`, `2 t + 1` at `:268`, `2 t + 2` at `:335`. -/
  ends : Nat → State → Nat → Bool
  /-- The goals that end the algorithm after an iteration, `:513–522`. -/
  goal : Nat → State → Bool

/-- Copies of an item type that no fixed item needs and that are not packed,
`sequential_value_correction.hpp:291–293`. -/
def freeRemaining (inst : InstanceData) (st : State) (i : Nat) : Int :=
  inst.itemCopies.getD i 0 - inst.copiesFixed i - (itemCopies st.bins i - st.partialFixed i)

/-- `bin_fixed_copies[item_type_id]` while bin type `t` is considered: the counters are raised
at `:214–215` and lowered again on each path. -/
def binFixed (inst : InstanceData) (t i : Nat) : Int :=
  ((inst.binType t).fixedItems.count i : Int)

/-- Copies available for a bin of type `t`, `:224–227` and `:253–256`. -/
def available (inst : InstanceData) (st : State) (t i : Nat) : Int :=
  freeRemaining inst st i + binFixed inst t i

/-- Number of copies of a bin to add, `:284–301` and `:431–447`; `ids` are the item types of
the loop (`kp2orig` in the first case, every item type in the second). -/
def numberOfCopies (inst : InstanceData) (st : State) (t : Nat) (items : List Nat)
    (ids : List Nat) : Int :=
  ids.foldl (fun n i =>
      let freePacked := (items.count i : Int) - binFixed inst t i
      if freePacked > 0 then min n ((freeRemaining inst st i).tdiv freePacked) else n)
    ((inst.binType t).copies - binCopies st.bins t)

/-- `bin_type_ids_by_position`, `:120–138`.  `std::stable_sort` is insertion sort. -/
def binTypeIdsByPosition (inst : InstanceData) : List Nat :=
  let order :=
    if inst.objective = .knapsack then
      (List.range inst.binTypes.length).insertionSort
        fun a b => (inst.binType a).space ≤ (inst.binType b).space
    else List.range inst.binTypes.length
  order.flatMap fun t => List.replicate (inst.binType t).copies.toNat t

/-- The loop over the bin types at `:180–192`: `smallest_mandatory_bin_type_id`. -/
def smallestMandatory (inst : InstanceData) (st : State) : Option Nat :=
  (List.range inst.binTypes.length).foldl (fun best t =>
      if binCopies st.bins t ≥ (inst.binType t).copiesMin then best
      else match best with
        | none => some t
        | some b => if (inst.binType t).space < (inst.binType b).space then some t else some b)
    none

/-- `bin_type_ids`, `:176–207`. -/
def candidates (inst : InstanceData) (st : State) : Except Err (List Nat) :=
  if inst.objective = .variableSizedBinPacking then
    match smallestMandatory inst st with
    | some t => .ok [t]
    | none => .ok ((List.range inst.binTypes.length).filter fun t =>
        binCopies st.bins t ≠ (inst.binType t).copies)
  else
    match (binTypeIdsByPosition inst)[(numberOfBins st.bins).toNat]? with
    | some t => .ok [t]
    | none => .error .ub

/-- One bin type, `:211–376`. -/
def tryBinType (inst : InstanceData) (o : Oracle) (it : Nat) (st : State) (t : Nat) :
    State × Status :=
  let nit := inst.itemCopies.length
  -- `:217–239`: keep the solution found earlier in this iteration.
  if inst.objective = .variableSizedBinPacking ∧ (st.cur t).1.length > 0
      ∧ ∀ i < nit, ¬ available inst st t i < ((st.cur t).1.count i : Int) then (st, .running)
  -- `:246–248`: `add_bin_type` copies `copies_min`, then `set_bin_type_copies` rejects one
  -- copy if `copies_min` is larger.
  else if (inst.binType t).copiesMin > 1 then (st, .threw .invalidArgument)
  else
    let query := fun i => max 0 (available inst st t i)
    let answer := o.kp it st t query
    if o.ends it st (2 * t + 1) then (st, .returned)
    else match answer with
    -- `:273–279`
    | none => ({ st with cur := Function.update st.cur t ([], 0) }, .running)
    | some p =>
      let kp2orig := (List.range nit).filter fun i => available inst st t i > 0
      let n := numberOfCopies inst st t p.1 kp2orig
      -- `:302–306`
      if n < 1 then (st, .threw .logicError)
      else
        -- `:308–343`
        let reoptimize : Bool := inst.objective = .binPackingWithLeftovers
          ∧ numberOfItems st.bins + n * (p.1.length : Int) = inst.numberOfItems
        let query2 := fun i =>
          if available inst st t i > 0 then
            (freeRemaining inst st i).tdiv n + binFixed inst t i else 0
        if reoptimize ∧ o.ends it st (2 * t + 2) then (st, .returned)
        else
          let p' := if reoptimize then (o.leftovers it st t query2).getD p else p
          -- `:345–350`
          let st' := { st with cur := Function.update st.cur t p' }
          -- `:352–371`
          if inst.objective = .variableSizedBinPacking
              ∧ numberOfItems st.bins + n * (p'.1.length : Int) = inst.numberOfItems then
            ({ st' with emitted := st'.emitted ++ [st.bins ++ [⟨t, n, p'.1⟩]] }, .running)
          else (st', .running)

/-- The loop over the bin types to try, `:210–376`. -/
def tryBinTypes (inst : InstanceData) (o : Oracle) (it : Nat) :
    State → List Nat → State × Status
  | st, [] => (st, .running)
  | st, t :: ts =>
    match tryBinType inst o it st t with
    | (st', .running) => tryBinTypes inst o it st' ts
    | (st', s) => (st', s)

/-- `solutions_cur[bin_type_id].second / bin_type.cost`, `:386`.  With a cost of zero the C++
quotient is an infinity or not a number; of these only `+∞` can win the comparison of `:392`. -/
def ratio (inst : InstanceData) (st : State) (t : Nat) : ExtQ :=
  if (inst.binType t).cost = 0 then
    if (st.cur t).2 > 0 then .inf else .fin 0
  else .fin ((st.cur t).2 / (inst.binType t).cost)

/-- `ratio_best < ratio`. -/
def ratioLt : ExtQ → ExtQ → Bool
  | .fin a, .fin b => decide (a < b)
  | .fin _, .inf => true
  | .inf, _ => false

/-- `bin_type_id_best`, `:380–396`. -/
def bestBinType (inst : InstanceData) (st : State) (ids : List Nat) : Option Nat :=
  (ids.foldl (fun acc t =>
      if ratioLt acc.1 (ratio inst st t) then (ratio inst st t, some t) else acc)
    ((.fin 0 : ExtQ), (none : Option Nat))).2

/-- One pass of the inner loop, `:162–489`.  (The corrected values `item_type_adjusted_space`
only influence the profits given to the sub-solver.) -/
def step (inst : InstanceData) (o : Oracle) (it : Nat) (st : State) : State × Status :=
  if o.ends it st 0 then (st, .returned)
  else if numberOfItems st.bins = inst.numberOfItems then (st, .finished)
  else if numberOfBins st.bins = inst.numberOfBins then (st, .finished)
  else match candidates inst st with
  | .error e => (st, .threw e)
  | .ok ids =>
    match tryBinTypes inst o it st ids with
    | (st1, .running) =>
      match bestBinType inst st1 ids with
      | none =>
        -- `:398–424`
        if inst.objective = .variableSizedBinPacking then (st1, .finished)
        else ({ st1 with bins := st1.bins ++ [⟨ids.getD 0 0, 1, []⟩] }, .running)
      | some t =>
        let items := (st1.cur t).1
        let n := numberOfCopies inst st1 t items (List.range inst.itemCopies.length)
        if n < 1 then (st1, .threw .logicError)
        else
          ({ st1 with
              partialFixed := fun i => st1.partialFixed i + n * binFixed inst t i
              bins := st1.bins ++ [⟨t, n, items⟩] }, .running)
    | (st1, s) => (st1, s)

/-- At most `fuel` passes of the inner loop. -/
def innerLoop (inst : InstanceData) (o : Oracle) (it : Nat) : Nat → State → State × Status
  | 0, st => (st, .running)
  | fuel + 1, st =>
    match step inst o it st with
    | (st', .running) => innerLoop inst o it fuel st'
    | (st', s) => (st', s)

/-- One iteration, `:140–160`, `:507–522`: everything but `update_solution` is forgotten
between two iterations (the profits are known to the oracle).  The inner loop is given one pass
more than there are bins; `inner_loop_ends` says that it never needs more. -/
def iteration (inst : InstanceData) (o : Oracle) (it : Nat) (emitted : List (List Bin)) :
    List (List Bin) × Status :=
  match innerLoop inst o it (inst.numberOfBins.toNat + 1) { emitted := emitted } with
  | (st, .finished) =>
    (st.emitted ++ [st.bins], if o.goal it st then .returned else .running)
  | (st, s) => (st.emitted, s)

/-- The loop over the iterations, at most `fuel` of them; `maximum` is
`maximum_number_of_iterations`, `none` for `-1`. -/
def outerLoop (inst : InstanceData) (o : Oracle) (maximum : Option Nat) :
    Nat → Nat → List (List Bin) → List (List Bin) × Status
  | 0, _, emitted => (emitted, .running)
  | fuel + 1, it, emitted =>
    if maximum = some it then (emitted, .returned)
    else match iteration inst o it emitted with
      | (emitted', .running) => outerLoop inst o maximum fuel (it + 1) emitted'
      | r => r

/-- `sequential_value_correction` with at most `fuel` iterations; the status is `running` if
more are needed. -/
def run (inst : InstanceData) (o : Oracle) (maximum : Option Nat) (fuel : Nat) :
    List (List Bin) × Status :=
  if inst.itemCopies.length = 0 then ([], .returned)
  else outerLoop inst o maximum fuel 0 []

end PackingSolver.Svc
