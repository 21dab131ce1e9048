import Verif.Model.Guil.Builder
import Verif.Model.Guil.SolutionBuilder

/-!
# Shrinking the bound until no solution is found, guillotine

Models `src/rectangleguillotine/sequential_feasibility.cpp`: packing all items in few bins, or in a
small part of a bin, by solving feasibility problems with smaller and smaller bounds.
-/

namespace PackingSolver.Guil.SequentialFeasibility

open InstanceBuilder

/-- `current_number_of_bins`, `current_x`, `current_y`, `sequential_feasibility.cpp:26–28`. -/
structure Bounds where
  bins : Int := 0
  x : Int := 0
  y : Int := 0
deriving DecidableEq, Repr

/-- The loops of `sequential_feasibility.cpp:30–43,46–59`: bins are taken, in the order of their types,
until their area is `target`.  A type without area is a division by zero. -/
def startBins (target : Int) : List BinType → Int → Int → Except Err Int
  | [], _, n => .ok n
  | t :: ts, total, n =>
    if t.w * t.h = 0 then .error .ub
    else
      let used := min ((target - total + t.w * t.h - 1).tdiv (t.w * t.h)) t.copies
      if total + used * (t.w * t.h) ≥ target then .ok (n + used)
      else startBins target ts (total + used * (t.w * t.h)) (n + used)

/-- `instance.bin_type(instance.bin_type_id(pos))`: positions are not checked. -/
def binAt (inst : Instance) (pos : Int) : Except Err BinType :=
  if pos < 0 then .error .ub
  else match inst.binTypeIds[pos.toNat]? with
    | none => .error .ub
    | some t => .ok (inst.binType t)

/-- The bounds of the first problem, `sequential_feasibility.cpp:21–73`. -/
def start (inst : Instance) : Except Err Bounds := do
  let t ← binAt inst 0
  if inst.objective = .binPacking then
    let n ← startBins (2 * inst.itemArea) inst.binTypes 0 0
    .ok { bins := n }
  else if inst.objective = .binPackingWithLeftovers then
    let n ← startBins (2 * inst.itemArea) inst.binTypes 0 0
    let last ← binAt inst (n - 1)
    .ok { bins := n, x := last.w }
  else if inst.objective = .openDimensionX then
    if t.h = 0 then .error .ub
    else .ok { x := min ((2 * inst.itemArea + t.h - 1).tdiv t.h) t.w }
  else
    if t.w = 0 then .error .ub
    else .ok { y := min ((2 * inst.itemArea + t.w - 1).tdiv t.w) t.h }

/-- A bin type of the problem to solve; `orig` is the entry of `sub_to_orig_bin_type_ids`; `copies` is
`none` if `set_bin_type_copies` is not called. -/
structure SubBin where
  orig : Nat
  w : Int
  h : Int
  cost : ℚ
  copies : Option Int := none
deriving DecidableEq, Repr

/-- The loops of `sequential_feasibility.cpp:86–101,104–118`: the first `remaining` bins, with the given
width. -/
def takeBins (width : BinType → Int) : List BinType → Nat → Int → List SubBin
  | [], _, _ => []
  | t :: ts, id, remaining =>
    if remaining > 0 then
      { orig := id, w := width t, h := t.h, cost := t.cost, copies := some (min t.copies remaining) }
        :: takeBins width ts (id + 1) (remaining - min t.copies remaining)
    else []

/-- The bin types of the problem, `sequential_feasibility.cpp:85–129`. -/
def subBins (inst : Instance) (b : Bounds) : Except Err (List SubBin) :=
  if inst.objective = .binPacking then .ok (takeBins (·.w) inst.binTypes 0 b.bins)
  else if inst.objective = .binPackingWithLeftovers then
    .ok (takeBins (fun _ => b.x) inst.binTypes 0 b.bins)
  else do
    let t ← binAt inst 0
    if inst.objective = .openDimensionX then
      .ok [{ orig := 0, w := b.x, h := t.h, cost := t.cost }]
    else .ok [{ orig := 0, w := t.w, h := b.y, cost := t.cost }]

/-- The calls that add one bin type, `sequential_feasibility.cpp:93–99`. -/
def binOps (p : SubBin × Nat) : List BuilderOp :=
  [.addBinType p.1.w p.1.h, .setBinTypeCost p.2 p.1.cost]
    ++ (match p.1.copies with
      | none => []
      | some c => [.setBinTypeCopies p.2 c])

/-- All calls that describe the problem, `sequential_feasibility.cpp:81–134`: the parameters and the item
types are copied; trims, defects, resources and the feasibility callback are not. -/
def subOps (inst : Instance) (bins : List SubBin) : List BuilderOp :=
  [.setObjective .feasibility, .setParameters inst.parameters]
    ++ bins.zipIdx.flatMap binOps
    ++ (List.range inst.numberOfItemTypes).map (.addItemTypeFrom inst ·)

/-- The transfer to the instance, `sequential_feasibility.cpp:145–159`. -/
def transfer (inst : Instance) (bins : List SubBin) (best : Solution) : Except Err Solution :=
  if inst.objective = .binPacking ∨ inst.objective = .binPackingWithLeftovers then
    (Solution.init inst).appendBins inst best (bins.map (·.orig)) []
  else (Solution.init inst).appendBin inst best 0 1 [0] []

/-- A little less than a length: `min((Length)(0.99 * l), l - 1)`; the product is not rounded here
(simplification). -/
def less (l : Int) : Int := min ((99 * l).tdiv 100) (l - 1)

/-- The bounds of the next problem, `sequential_feasibility.cpp:170–199`; `none` ends the loop. -/
def update (inst : Instance) (b : Bounds) (best : Solution) : Except Err (Option Bounds) :=
  if inst.objective = .binPacking then
    .ok (if best.numberOfBins - 1 = 0 then none else some { b with bins := best.numberOfBins - 1 })
  else if inst.objective = .binPackingWithLeftovers then
    if best.numberOfBins < b.bins then do
      let t ← binAt inst (best.numberOfBins - 1)
      .ok (some { b with bins := best.numberOfBins, x := t.w })
    else if less best.width ≤ 0 then
      if b.bins - 1 = 0 then .ok none
      else do
        let t ← binAt inst (b.bins - 1 - 1)
        .ok (some { b with bins := b.bins - 1, x := t.w })
    else .ok (some { b with x := less best.width })
  else if inst.objective = .openDimensionX then
    .ok (if less best.width ≤ 0 then none else some { b with x := less best.width })
  else .ok (if less best.height ≤ 0 then none else some { b with y := less best.height })

/-- The loop, `sequential_feasibility.cpp:75–200`, with fuel: the solutions handed to `update_solution`,
and whether the loop ended.  `solver it` is the solver in iteration `it`, of which only the best solution
matters; `stop it` says whether the time is up then. -/
def loop (solver : Nat → Instance → Solution) (stop : Nat → Bool) (inst : Instance) :
    Nat → Nat → Bounds → Except Err (List Solution × Bool)
  | 0, _, _ => .ok ([], false)
  | fuel + 1, it, b =>
    if stop it then .ok ([], true)
    else do
      let bins ← subBins inst b
      let sub ← runOps inst.objective (subOps inst bins)
      if !(solver it sub).full sub then .ok ([], true)
      else
        let s ← transfer inst bins (solver it sub)
        if !s.itemCopiesFeasible then .error .logicError
        else
          match ← update inst b (solver it sub) with
          | none => .ok ([s], true)
          | some b' => do
            let r ← loop solver stop inst fuel (it + 1) b'
            .ok (s :: r.1, r.2)

/-- `sequential_feasibility`, `sequential_feasibility.cpp:11–204`. -/
def run (solver : Nat → Instance → Solution) (stop : Nat → Bool) (inst : Instance) (fuel : Nat) :
    Except Err (List Solution × Bool) := do
  let b ← start inst
  loop solver stop inst fuel 0 b

end PackingSolver.Guil.SequentialFeasibility
