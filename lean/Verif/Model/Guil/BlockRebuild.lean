import Verif.Model.Guil.BlockSearch
import Verif.Model.Guil.SolutionBuilder

/-!
# Rebuilding a guillotine solution from a block

Models `reconstruct_block` and `reconstruct_solution` of
`src/rectangleguillotine/tree_search_hypergraph.cpp`.  The calls made on the solution builder do not
depend on its state, so the recursion is modelled as the list of calls it makes; the first call that
throws ends it.
-/

namespace PackingSolver.Guil

/-- `cut_is_vertical`, `tree_search_hypergraph.cpp:295–296`. -/
def cutIsVertical (o : CutOrientation) (depth : Int) : Bool :=
  decide (o = .vertical) == decide (depth.tmod 2 = 1)

/-- `reconstruct_block`, `tree_search_hypergraph.cpp:283–378`.  `fuel` bounds the depth of the
recursion; without enough of it the model answers `logicError`, which the code never throws
here. -/
def blockOps (returned : List Block) (o : CutOrientation) (t : Int) :
    Nat → Block → (depth x y availW availH : Int) → Except Err (List Op)
  | 0, _, _, _, _, _, _ => .error .logicError
  | fuel + 1, block, depth, x, y, availW, availH =>
    if availW > block.w then
      if cutIsVertical o depth then do
        let l ← blockOps returned o t fuel block (depth + 1) x y block.w availH
        .ok (.addNode depth (x + block.w) :: l)
      else do
        let l ← blockOps returned o t fuel block (depth + 1) x y availW availH
        .ok (.addNode depth (y + availH) :: l)
    else if availH > block.h then
      if !cutIsVertical o depth then do
        let l ← blockOps returned o t fuel block (depth + 1) x y availW block.h
        .ok (.addNode depth (y + block.h) :: l)
      else do
        let l ← blockOps returned o t fuel block (depth + 1) x y availW availH
        .ok (.addNode depth (x + availW) :: l)
    else
      match block.content with
      | .simple id _ => .ok [.setItem id]
      | .pair i j =>
        if cutIsVertical o depth ≠ decide (block.firstCutOrientation = .vertical) then do
          let l ← blockOps returned o t fuel block (depth + 1) x y block.w block.h
          .ok (.addNode depth (if cutIsVertical o depth then x + block.w else y + block.h) :: l)
        else
          match returned[i]?, returned[j]? with
          | some p1, some p2 =>
            if block.firstCutOrientation = .vertical then do
              let l1 ← blockOps returned o t fuel p1 (depth + 1) x y p1.w block.h
              let l2 ← blockOps returned o t fuel p2 (depth + 1) (x + p1.w + t) y p2.w block.h
              .ok (.addNode depth (x + p1.w) :: l1 ++ .addNode depth (x + block.w) :: l2)
            else do
              let l1 ← blockOps returned o t fuel p1 (depth + 1) x y block.w p1.h
              let l2 ← blockOps returned o t fuel p2 (depth + 1) x (y + p1.h + t) block.w p2.h
              .ok (.addNode depth (y + p1.h) :: l1 ++ .addNode depth (y + block.h) :: l2)
          | _, _ => .error .ub

/-- The offset of the rebuilt solution in x, `tree_search_hypergraph.cpp:389`. -/
def offsetX (bt : BinType) : Int := if bt.leftTrimType = .hard then bt.leftTrim else 0

/-- The offset of the rebuilt solution in y, `tree_search_hypergraph.cpp:390`. -/
def offsetY (bt : BinType) : Int := if bt.bottomTrimType = .hard then bt.bottomTrim else 0

/-- The first cut orientation of the rebuilt bin, `tree_search_hypergraph.cpp:392–394`. -/
def rebuiltOrientation (p : Parameters) : CutOrientation :=
  if p.firstStageOrientation = .any then .vertical else p.firstStageOrientation

/-- Calls of the solution builder, one after the other; an exception ends the sequence. -/
def SolutionBuilder.runOrThrow (inst : Instance) (sb : SolutionBuilder) :
    List Op → Except Err SolutionBuilder
  | [] => .ok sb
  | op :: ops =>
    match sb.step inst op with
    | (_, some e) => .error e
    | (sb, none) => sb.runOrThrow inst ops

/-- The calls of `reconstruct_solution`, `tree_search_hypergraph.cpp:388–404`. -/
def solutionOps (inst : Instance) (returned : List Block) (root : Block) (fuel : Nat) :
    Except Err (List Op) :=
  match inst.binTypes with
  | [] => .error .ub
  | bt :: _ =>
    let o := rebuiltOrientation inst.parameters
    if root.profit > 0 then do
      let l ← blockOps returned o inst.parameters.cutThickness fuel root 2
        (offsetX bt) (offsetY bt) (effWidth bt) (effHeight bt)
      .ok (.addBin 0 1 o :: .addNode 1 (offsetX bt + effWidth bt) :: l)
    else .ok [.addBin 0 1 o]

/-- `reconstruct_solution`, `tree_search_hypergraph.cpp:380–418`. -/
def reconstructSolution (inst : Instance) (returned : List Block) (root : Block) (fuel : Nat) :
    Except Err Solution := do
  let ops ← solutionOps inst returned root fuel
  let sb ← (SolutionBuilder.new inst).runOrThrow inst ops
  let s ← sb.build inst
  if s.itemCopiesFeasible then .ok s else .error .logicError

end PackingSolver.Guil
