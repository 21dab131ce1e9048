import Verif.Model.OneDim.Solution
import Verif.Model.OneDim.TrivialBound

/-!
# Dynamic programming for a single knapsack

Models `optimize_dynamic_programming`, `src/onedimensional/optimize.cpp:224–282`.
The external solver `knapsacksolver::dynamic_programming_primal_dual` is an
oracle: a function from the items `(profit, weight)` and the capacity to the
list telling which items its solution contains.
-/

namespace PackingSolver.OneDim

/-- The loop splitting the copies of an item type, `optimize.cpp:239–256`:
`weight` is the weight of one copy.  `fuel` bounds the number of iterations;
`total` grows at each iteration, so `copies` iterations are always enough
(`split_represents` would fail otherwise). -/
def splitLoop (copies weight capacity : Int) : Nat → Int → Int → List Int
  | 0, _, _ => []
  | fuel + 1, total, chunk =>
    if total < copies then
      -- lines 241–242
      let chunk := if total + chunk > copies then copies - total else chunk
      -- lines 243–247
      if chunk * weight > capacity then []
      else chunk :: splitLoop copies weight capacity fuel (total + chunk) (chunk * 2)
    else []

/-- The numbers of copies of the knapsack items of an item type, `optimize.cpp:237–256`. -/
def splitCopies (copies weight capacity : Int) : List Int :=
  splitLoop copies weight capacity copies.toNat 0 1

/-- `kp2ps`, `optimize.cpp:235–257`: the item type and the number of copies of every knapsack
item. -/
def kp2ps (inst : Instance) : List (Nat × Int) :=
  (inst.binType 0).itemTypeIds.flatMap fun i =>
    (splitCopies (inst.itemType i).copies (reducedLength (inst.itemType i))
      (inst.binType 0).length).map fun c => (i, c)

/-- The knapsack items: profit and weight, `optimize.cpp:243–251`. -/
def kpItems (inst : Instance) : List (ℚ × Int) :=
  (kp2ps inst).map fun x =>
    ((x.2 : ℚ) * (inst.itemType x.1).profit, x.2 * reducedLength (inst.itemType x.1))

/-- The elements of `l` marked by `mask` (`kp_output.solution.contains(j)`). -/
def marked {α : Type} (l : List α) (mask : List Bool) : List α :=
  ((l.zip mask).filter fun x => x.2).map fun x => x.1

/-- The item types packed by the solution, one entry per `add_item` call,
`optimize.cpp:267–277`. -/
def dpItems (inst : Instance) (mask : List Bool) : List Nat :=
  (marked (kp2ps inst) mask).flatMap fun x => List.replicate x.2.toNat x.1

/-- The builder calls, `optimize.cpp:265–278`. -/
def dpOps (inst : Instance) (mask : List Bool) : List BuilderOp :=
  .addBin 0 1 :: (dpItems inst mask).map fun i => .addItem 0 i

/-- `optimize_dynamic_programming`, `optimize.cpp:224–282`: the solution it reports, if any,
and the knapsack bound. -/
def dynamicProgramming (inst : Instance) (knapsack : List (ℚ × Int) → Int → List Bool) :
    Except Err (Option Solution × ℚ) := do
  let s ← SolutionBuilder.runOps inst
    (dpOps inst (knapsack (kpItems inst) (inst.binType 0).length))
  return (if s.feasible then some s else none, s.itemProfit)

end PackingSolver.OneDim
