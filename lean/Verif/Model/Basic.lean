import Verif.Model.Num

/-!
# Shared vocabulary: outcomes, objectives, resources

Models `include/packingsolver/algorithms/common.hpp`.
-/

namespace PackingSolver

/-- Ways in which a C++ call may fail to return normally. `ub` marks undefined
behaviour (out-of-range vector access, integer division by zero), `exit` a call of
`exit(1)`, which ends the process; the other constructors are C++ exceptions. -/
inductive Err where
  | ub
  | invalidArgument
  | runtimeError
  | logicError
  | exit
deriving DecidableEq, Repr

/-- `enum class Objective`, `common.hpp:214–228`. -/
inductive Objective where
  | default
  | binPacking
  | binPackingWithLeftovers
  | openDimensionX
  | openDimensionY
  | openDimensionZ
  | openDimensionXY
  | knapsack
  | variableSizedBinPacking
  | sequentialOneDimensionalRectangleSubproblem
  | feasibility
  | binPackingCuttingCost
deriving DecidableEq, Repr

/-! ### Arithmetic on possibly infinite doubles -/

namespace ExtQ

/-- `q > e` for a finite `q`. -/
def gtBy (q : ℚ) : ExtQ → Bool
  | .fin m => decide (q > m)
  | .inf => false

/-- `e - q` (`∞ - q = ∞`). -/
def subQ : ExtQ → ℚ → ExtQ
  | .fin m, q => .fin (m - q)
  | .inf, _ => .inf

/-- `std::min(e, f)`. -/
def min : ExtQ → ExtQ → ExtQ
  | .fin a, .fin b => .fin (Min.min a b)
  | .fin a, .inf => .fin a
  | .inf, e => e

/-- `e < 0`. -/
def neg : ExtQ → Bool
  | .fin m => decide (m < 0)
  | .inf => false

/-- Specification-level order: `q ≤ e`. -/
def Ge (e : ExtQ) (q : ℚ) : Prop :=
  match e with
  | .fin m => q ≤ m
  | .inf => True

end ExtQ

/-- `struct Resource`, `common.hpp:270–300`. -/
structure Resource where
  capacity : ℚ := 0
  /-- `item_consumptions[item_type_id][copy]`. -/
  itemConsumptions : List (List ℚ) := []
  penalize : Bool := false
  penalty : ℚ := 0
deriving DecidableEq, Repr

/-- `Resource::item_consumption`, `common.hpp:303–315`. Item type ids and copy
numbers are natural numbers (negative ids are undefined behaviour in the
code). -/
def Resource.itemConsumption (r : Resource) (itemTypeId copy : Nat) : ℚ :=
  if itemTypeId ≥ r.itemConsumptions.length then 0
  else
    let schedule := r.itemConsumptions.getD itemTypeId []
    if schedule.isEmpty then 0
    else if copy < schedule.length then schedule.getD copy 0
    else schedule.getLastD 0

/-- `negative_penalty_sum(const std::vector<Resource>&)`,
`common.hpp:330–337`. -/
def negativePenaltySum (resources : List Resource) : ℚ :=
  resources.foldl
    (fun sum r => if r.penalize ∧ r.penalty < 0 then sum - r.penalty else sum) 0

/-- `v.resize(n, fill)` when `n` is larger than the current size
(`std::vector::resize`); used by `add_resource_consumption`. -/
def growTo {α : Type} (fill : α) (n : Nat) (l : List α) : List α :=
  l ++ List.replicate (n - l.length) fill

/-- The vector update of `InstanceBuilder::add_resource_consumption`,
`onedimensional/instance_builder.cpp:141–147` (the same lines appear in the
other problem types' builders). -/
def Resource.addConsumption (r : Resource) (itemTypeId itemCopy : Nat) (consumption : ℚ) :
    Resource :=
  let ic :=
    if itemTypeId ≥ r.itemConsumptions.length then growTo [] (itemTypeId + 1) r.itemConsumptions
    else r.itemConsumptions
  let schedule := ic.getD itemTypeId []
  let schedule :=
    if itemCopy ≥ schedule.length then growTo 0 (itemCopy + 1) schedule else schedule
  { r with itemConsumptions := ic.set itemTypeId (schedule.set itemCopy consumption) }

end PackingSolver
