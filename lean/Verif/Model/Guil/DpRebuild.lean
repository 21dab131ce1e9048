import Verif.Model.Guil.BlockRebuild

/-!
# Rebuilding a guillotine solution from the table of best profits

Models `reconstruct_rec` and `reconstruct_solution` of
`src/rectangleguillotine/tree_search_hypergraph_infinite_copies.cpp`.  As in
`Verif.Model.Guil.BlockRebuild`, the recursion is modelled as the list of calls it makes on the
solution builder.
-/

namespace PackingSolver.Guil

/-- `fits_normal || fits_rotated`,
`tree_search_hypergraph_infinite_copies.cpp:114–117`. -/
def fillsBox (it : ItemType) (w h : Int) : Bool :=
  (it.w == w && it.h == h) || (!it.oriented && it.h == w && it.w == h)

/-- The first item type that fills the box with the profit of its entry,
`tree_search_hypergraph_infinite_copies.cpp:110–122`. -/
def findItem (items : List ItemType) (w h : Int) (cur : ℚ) : Option Nat :=
  items.findIdx? fun it => fillsBox it w h && decide (it.profit = cur)

/-- The loop over cuts, `tree_search_hypergraph_infinite_copies.cpp:129–132` and `151–154`: the
first cut `k + 1` whose two parts have together the profit of the entry. -/
def findCut (first second : Int → Except Err ℚ) (cur : ℚ) : List Nat → Except Err (Option Int)
  | [] => .ok none
  | k :: ks => do
    let a ← first ((k : Int) + 1)
    let b ← second ((k : Int) + 1)
    if a + b = cur then .ok (some ((k : Int) + 1)) else findCut first second cur ks

/-- `reconstruct_rec`, `tree_search_hypergraph_infinite_copies.cpp:91–173`.  `fuel` bounds the depth
of the recursion; without enough of it the model answers `logicError`, which the code never throws
here. -/
def dpOps (items : List ItemType) (dp : List ℚ) (effW t : Int) (o : CutOrientation) :
    Nat → (w h depth x y : Int) → Except Err (List Op)
  | 0, _, _, _, _, _ => .error .logicError
  | fuel + 1, w, h, depth, x, y => do
    let cur ← tableRead dp effW w h
    if cur = 0 then .ok []
    else match findItem items w h cur with
      | some i => .ok [.setItem i]
      | none =>
        if cutIsVertical o depth then do
          match ← findCut (fun c => tableRead dp effW c h) (fun c => tableRead dp effW (w - c - t) h)
              cur (List.range (halfCuts w t)) with
          | some c => do
            let l1 ← dpOps items dp effW t o fuel c h (depth + 1) x y
            let l2 ← dpOps items dp effW t o fuel (w - c - t) h (depth + 1) (x + c + t) y
            .ok (.addNode depth (x + c) :: l1 ++ .addNode depth (x + w) :: l2)
          | none => do
            let l ← dpOps items dp effW t o fuel w h (depth + 1) x y
            .ok (.addNode depth (x + w) :: l)
        else do
          match ← findCut (fun c => tableRead dp effW w c) (fun c => tableRead dp effW w (h - c - t))
              cur (List.range (halfCuts h t)) with
          | some c => do
            let l1 ← dpOps items dp effW t o fuel w c (depth + 1) x y
            let l2 ← dpOps items dp effW t o fuel w (h - c - t) (depth + 1) x (y + c + t)
            .ok (.addNode depth (y + c) :: l1 ++ .addNode depth (y + h) :: l2)
          | none => do
            let l ← dpOps items dp effW t o fuel w h (depth + 1) x y
            .ok (.addNode depth (y + h) :: l)

/-- The calls of `reconstruct_solution`,
`tree_search_hypergraph_infinite_copies.cpp:179–202`. -/
def dpSolutionOps (inst : Instance) (dp : List ℚ) (fuel : Nat) : Except Err (List Op) :=
  match inst.binTypes with
  | [] => .error .ub
  | bt :: _ => do
    let o := rebuiltOrientation inst.parameters
    let v ← tableRead dp (effWidth bt) (effWidth bt) (effHeight bt)
    if v > 0 then do
      let l ← dpOps inst.itemTypes dp (effWidth bt) inst.parameters.cutThickness o fuel
        (effWidth bt) (effHeight bt) 2 (offsetX bt) (offsetY bt)
      .ok (.addBin 0 1 o :: .addNode 1 (offsetX bt + effWidth bt) :: l)
    else .ok [.addBin 0 1 o]

/-- `reconstruct_solution`, `tree_search_hypergraph_infinite_copies.cpp:175–205`. -/
def dpReconstruct (inst : Instance) (dp : List ℚ) (fuel : Nat) : Except Err Solution := do
  let ops ← dpSolutionOps inst dp fuel
  let sb ← (SolutionBuilder.new inst).runOrThrow inst ops
  sb.build inst

/-- `tree_search_hypergraph_infinite_copies`,
`tree_search_hypergraph_infinite_copies.cpp:213–231`, up to line 225: the solution before
`minimize_number_of_stages`. -/
def treeSearchHypergraphInfiniteCopies (inst : Instance) (fuel : Nat) : Except Err Solution := do
  let dp ← computeDp inst
  dpReconstruct inst dp fuel

end PackingSolver.Guil
