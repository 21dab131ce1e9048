import Verif.Model.Guil.SpaceBlock
import Verif.Model.Guil.BlockRebuild

/-!
# Search over unused rectangles

Models `BranchingSchemeMaximalSpaces` of `src/rectangleguillotine/tree_search_maximal_spaces.hpp` and
`tree_search_maximal_spaces.cpp`: the states of the search, how a block is placed, the greedy
completion and the conversion of a state into a solution.

Simplifications: a state does not store the identifiers of nodes, the cached insertions, the position
of the next child and `number_of_blocks` (the number of placed blocks); the order in which insertions
are tried (`std::sort`) is not modelled, so that the theorems hold of every order; `guide` is an
exact fraction.  The beam search itself, from an external library, is not modelled: it only visits
states reached from the root by insertions.
-/

namespace PackingSolver.Guil.Spaces

/-- `cut_is_vertical`, `tree_search_maximal_spaces.cpp:32–41`. -/
def cutsVertically (depth : Int) (co : CutOrientation) : Bool :=
  if co = .vertical then decide (depth.tmod 2 = 0) else !decide (depth.tmod 2 = 0)

/-- `struct EmptySpace`, `tree_search_maximal_spaces.hpp:31–44`. -/
structure Space where
  x : Int
  y : Int
  w : Int
  h : Int
  depth : Int
  co : CutOrientation
deriving DecidableEq, Repr

/-- `area()`, `tree_search_maximal_spaces.hpp:43`. -/
def Space.area (s : Space) : Int := s.w * s.h

/-- `PlacedBlock`, `tree_search_maximal_spaces.hpp:107–111`. -/
structure Placed where
  blockId : Nat
  x : Int
  y : Int
  co : CutOrientation
deriving DecidableEq, Repr

/-- `struct Node`, `tree_search_maximal_spaces.hpp:105–130`. -/
structure State where
  placed : List Placed := []
  spaces : List Space := []
  copies : List Int := []
  itemArea : Int := 0
  profit : ℚ := 0
  numberOfItems : Int := 0
  valid : List Nat := []
deriving DecidableEq, Repr

/-- `struct Insertion`, `tree_search_maximal_spaces.hpp:88–103`. -/
structure Insertion where
  blockId : Nat
  spaceId : Nat
  co : CutOrientation
  guide : ℚ
deriving DecidableEq, Repr

/-- The members of the scheme, `tree_search_maximal_spaces.hpp:280–286`: the instance, the id
`bin_type_id(0)` of the only bin, its blocks and `parameters_.first_cut_orientation`. -/
structure Scheme where
  inst : Instance
  bin : Nat
  blocks : List Block
  first : CutOrientation

namespace Scheme

variable (sc : Scheme)

/-- `instance_.bin_type(instance_.bin_type_id(0))`, `tree_search_maximal_spaces.cpp:27–28`. -/
def bt : BinType := sc.inst.binType sc.bin

/-- `cut_thickness_`, `tree_search_maximal_spaces.cpp:26`. -/
def t : Int := sc.inst.parameters.cutThickness

/-- The space of the root, `tree_search_maximal_spaces.cpp:70–75` and `620–625`. -/
def rootSpace : Space := { x := 0, y := 0, w := sc.bt.w, h := sc.bt.h, depth := 0, co := sc.first }

/-- `root`, `tree_search_maximal_spaces.cpp:63–83`. -/
def root : State :=
  { copies := List.replicate sc.inst.numberOfItemTypes 0
    spaces := [sc.rootSpace]
    valid := List.range sc.blocks.length }

end Scheme

/-- `is_better`, `tree_search_maximal_spaces.cpp:52–53`; the best index so far comes with its area and
its distance. -/
def improves (s : Space) : Option (Nat × Int × Int) → Bool
  | none => true
  | some (_, area, dist) => decide (s.area < area ∨ (s.area = area ∧ s.x + s.y < dist))

/-- The loop of `find_best_space`. -/
def bestSpaceLoop : Nat → Option (Nat × Int × Int) → List Space → Option Nat
  | _, best, [] => best.map (·.1)
  | i, best, s :: l =>
    bestSpaceLoop (i + 1) (if improves s best then some (i, s.area, s.x + s.y) else best) l

/-- `find_best_space`, `tree_search_maximal_spaces.cpp:43–61`, and the same loop in `to_solution`,
`639–649`; `none` stands for `-1`. -/
def bestSpace (l : List Space) : Option Nat := bestSpaceLoop 0 none l

/-- The test of `tree_search_maximal_spaces.cpp:105` and `165`, and of `285–286`. -/
def fits (s : Space) (b : Block) : Bool := !(decide (b.w > s.w) || decide (b.h > s.h))

/-- `guide`, `tree_search_maximal_spaces.cpp:107–109` and `167–169`. -/
def guideOf (s : Space) (b : Block) : ℚ :=
  if s.area > 0 then b.itemProfit / (s.area : ℚ) else 0

namespace Scheme

variable (sc : Scheme)

/-- The block of an id. -/
def block (id : Nat) : Block := sc.blocks.getD id default

/-- `insertions`, `tree_search_maximal_spaces.cpp:85–142`, without the order. -/
def insertions (n : State) : List Insertion :=
  match bestSpace n.spaces with
  | none => []
  | some k =>
    match n.spaces[k]? with
    | none => []
    | some s =>
      n.valid.flatMap fun id =>
        let b := sc.block id
        if !fits s b then []
        else if s.co = .any then
          [{ blockId := id, spaceId := k, co := .vertical, guide := guideOf s b },
            { blockId := id, spaceId := k, co := .horizontal, guide := guideOf s b }]
        else [{ blockId := id, spaceId := k, co := s.co, guide := guideOf s b }]

/-- The loop of `best_insertion`, `tree_search_maximal_spaces.cpp:163–177`. -/
def bestInsertionLoop (s : Space) (k : Nat) (co : CutOrientation) :
    Option Insertion → ℚ → List Nat → Option Insertion
  | best, _, [] => best
  | best, bestGuide, id :: l =>
    let b := sc.block id
    if !fits s b then bestInsertionLoop s k co best bestGuide l
    else if guideOf s b > bestGuide then
      bestInsertionLoop s k co
        (some { blockId := id, spaceId := k, co := co, guide := guideOf s b }) (guideOf s b) l
    else bestInsertionLoop s k co best bestGuide l

/-- `best_insertion`, `tree_search_maximal_spaces.cpp:144–179`; `none` stands for a block id of
`-1`. -/
def bestInsertion (n : State) : Option Insertion :=
  match bestSpace n.spaces with
  | none => none
  | some k =>
    match n.spaces[k]? with
    | none => none
    | some s =>
      sc.bestInsertionLoop s k (if s.co = .any then .vertical else s.co) none (-1) n.valid

end Scheme

/-- The spaces left by a block of sides `w × h` at the corner of a space,
`tree_search_maximal_spaces.cpp:214–259` and, in `to_solution`, `664–724`. -/
def newSpaces (t : Int) (s : Space) (w h : Int) (co : CutOrientation) : List Space :=
  let right : Int × Int → List Space := fun (height, depth) =>
    if s.x + s.w > s.x + w + t then
      [{ x := s.x + w + t, y := s.y, w := s.x + s.w - s.x - w - t, h := height, depth := depth, co := co }]
    else []
  let above : Int × Int → List Space := fun (width, depth) =>
    if s.y + s.h > s.y + h + t then
      [{ x := s.x, y := s.y + h + t, w := width, h := s.y + s.h - s.y - h - t, depth := depth, co := co }]
    else []
  if cutsVertically s.depth co then right (s.h, s.depth + 1) ++ above (w, s.depth + 2)
  else above (s.w, s.depth + 1) ++ right (h, s.depth + 2)

/-- `item_number_of_copies[item_copy.first] += item_copy.second`,
`tree_search_maximal_spaces.cpp:202–204` and `734–735`. -/
def addCopies (copies : List Int) (l : List (Nat × Int)) : List Int :=
  l.foldl (fun copies p => copies.modify p.1 (· + p.2)) copies

/-- The removal of the elements that are not to be kept, each being replaced by the last one,
`tree_search_maximal_spaces.cpp:279–297` and `753–770`; at most as many iterations as there are
elements. -/
def pruneLoop {α : Type} (keep : α → Bool) : Nat → Nat → List α → List α
  | 0, _, l => l
  | n + 1, i, l =>
    match l[i]?, l.getLast? with
    | some a, some z =>
      if keep a then pruneLoop keep n (i + 1) l else pruneLoop keep n i (l.set i z).dropLast
    | _, _ => l

/-- The whole loop. -/
def prune {α : Type} (keep : α → Bool) (l : List α) : List α := pruneLoop keep l.length 0 l

namespace Scheme

variable (sc : Scheme)

/-- The blocks that can still be placed, `tree_search_maximal_spaces.cpp:261–277` and `736–751`. -/
def stillValid (copies : List Int) (valid : List Nat) : List Nat :=
  valid.filter fun id => (sc.block id).itemCopies.all fun p =>
    !decide (copies.getD p.1 0 + p.2 > (sc.inst.itemType p.1).copies)

/-- `has_fitting_block`, `tree_search_maximal_spaces.cpp:282–290` and `755–763`. -/
def hasFitting (valid : List Nat) (s : Space) : Bool := valid.any fun id => fits s (sc.block id)

/-- `apply_insertion`, `tree_search_maximal_spaces.cpp:181–298`. -/
def apply (n : State) (ins : Insertion) : Except Err State :=
  match n.spaces[ins.spaceId]?, sc.blocks[ins.blockId]? with
  | some s, some b =>
    let copies := addCopies n.copies b.itemCopies
    let valid := sc.stillValid copies n.valid
    .ok
      { placed := n.placed ++ [{ blockId := ins.blockId, x := s.x, y := s.y, co := ins.co }]
        copies := copies
        itemArea := n.itemArea + b.itemArea
        profit := n.profit + b.itemProfit
        numberOfItems := n.numberOfItems + b.numberOfItems
        valid := valid
        spaces := prune (sc.hasFitting valid)
          (n.spaces.eraseIdx ins.spaceId ++ newSpaces sc.t s b.w b.h ins.co) }
  | _, _ => .error .ub

/-- The loop of `compute_guide_greedy`, `tree_search_maximal_spaces.cpp:300–310`, and of
`to_solution`, `389–395`.  `fuel` bounds the number of iterations; without enough of it the model
answers `runtimeError`. -/
def greedy : Nat → State → Except Err State
  | 0, _ => .error .runtimeError
  | fuel + 1, n =>
    match sc.bestInsertion n with
    | none => .ok n
    | some ins => do
      let n ← sc.apply n ins
      greedy fuel n

/-- As many iterations as the greedy completion can make: one per copy of an item, and the last. -/
def greedyFuel : Nat := ((sc.inst.itemTypes.map ItemType.copies).sum).toNat + 1

/-- `compute_guide_greedy`, `tree_search_maximal_spaces.cpp:300–310`. -/
def greedyValue (n : State) : Except Err ℚ := do
  let g ← sc.greedy sc.greedyFuel n
  .ok g.profit

/-- `leaf`, `tree_search_maximal_spaces.hpp:201–204`. -/
def leaf (n : State) : Bool := decide (n.numberOfItems = sc.inst.numberOfItems)

/-- `better`, `tree_search_maximal_spaces.cpp:337–355`. -/
def better (n1 n2 : State) : Except Err Bool :=
  match sc.inst.objective with
  | .knapsack => .ok (decide (n1.profit > n2.profit))
  | .feasibility => .ok (decide (n1.profit > n2.profit))
  | _ => .error .logicError

/-- `bound`, `tree_search_maximal_spaces.cpp:357–379`. -/
def bound (_n1 n2 : State) : Except Err Bool :=
  match sc.inst.objective with
  | .knapsack => .ok (sc.leaf n2)
  | .feasibility => .ok (sc.leaf n2)
  | _ => .error .logicError

end Scheme

/-- The states that the search can meet: the root, and what an insertion makes of a state.  (The calls
of `next_child`, `tree_search_maximal_spaces.cpp:312–335`, and the greedy completions.) -/
inductive Reached (sc : Scheme) : State → Prop where
  | root : Reached sc sc.root
  | child {n n' : State} {ins : Insertion} (h : Reached sc n) (hi : ins ∈ sc.insertions n)
      (ha : sc.apply n ins = .ok n') : Reached sc n'

/-! ## Conversion into a solution

`to_solution` first builds a tree of cut nodes and then visits it in depth-first order, calling the
solution builder once for each node, and once more if the node holds an item.  The model keeps the
sequence of these calls only, with a mark where the calls of the children of the node of an unused
rectangle will go: the tree is only ever extended at nodes without children.  The coordinates `l` and
`b` of the cut nodes, which are not read, are left out. -/

/-- A call of the solution builder, or the place of the calls for an unused rectangle. -/
inductive Step where
  | op (o : Op)
  | space (id : Nat)

/-- The call for a cut node, `tree_search_maximal_spaces.cpp:782–786`. -/
def nodeOp (fco : CutOrientation) (depth r t : Int) : Op :=
  .addNode depth (if isVerticalAt fco depth then r else t)

/-- `place_simple_block`, `tree_search_maximal_spaces.cpp:428–511`.  It calls itself at most once;
without enough fuel the model answers `runtimeError`. -/
def simpleOps (inst : Instance) (fco : CutOrientation) :
    Nat → Block → (d x y : Int) → Except Err (List Op)
  | 0, _, _, _, _ => .error .runtimeError
  | fuel + 1, b, d, x, y =>
    match b.itemTypeId with
    | none => .error .ub
    | some i =>
      let t := inst.parameters.cutThickness
      let bw := (inst.itemType i).widthOf b.rotate
      let bh := (inst.itemType i).heightOf b.rotate
      let cx := if bw > 0 then (b.w + t).tdiv (bw + t) else 1
      let cy := if bh > 0 then (b.h + t).tdiv (bh + t) else 1
      if cx = 1 ∧ cy = 1 then .ok [.setItem i]
      else
        let vertical := cutsVertically d fco
        if cx = 1 then
          if vertical then do
            let l ← simpleOps inst fco fuel b (d + 1) x y
            .ok (nodeOp fco (d + 1) (x + bw) (y + b.h) :: l)
          else .ok ((List.range cy.toNat).flatMap fun (k : Nat) =>
            [nodeOp fco (d + 1) (x + bw) (y + k * (bh + t) + bh), .setItem i])
        else if cy = 1 then
          if !vertical then do
            let l ← simpleOps inst fco fuel b (d + 1) x y
            .ok (nodeOp fco (d + 1) (x + b.w) (y + bh) :: l)
          else .ok ((List.range cx.toNat).flatMap fun (k : Nat) =>
            [nodeOp fco (d + 1) (x + k * (bw + t) + bw) (y + bh), .setItem i])
        else if vertical then
          .ok ((List.range cx.toNat).flatMap fun (k : Nat) =>
            nodeOp fco (d + 1) (x + k * (bw + t) + bw) (y + b.h) ::
              (List.range cy.toNat).flatMap fun (m : Nat) =>
                [nodeOp fco (d + 2) (x + k * (bw + t) + bw) (y + m * (bh + t) + bh), .setItem i])
        else
          .ok ((List.range cy.toNat).flatMap fun (m : Nat) =>
            nodeOp fco (d + 1) (x + b.w) (y + m * (bh + t) + bh) ::
              (List.range cx.toNat).flatMap fun (k : Nat) =>
                [nodeOp fco (d + 2) (x + k * (bw + t) + bw) (y + m * (bh + t) + bh), .setItem i])

/-- `place_block`, `tree_search_maximal_spaces.cpp:517–610`.  `fuel` bounds the depth of the
recursion; without enough of it the model answers `runtimeError`. -/
def placeOps (inst : Instance) (blocks : List Block) (fco : CutOrientation) :
    Nat → (id : Nat) → (d x y availW availH : Int) → Except Err (List Op)
  | 0, _, _, _, _, _, _ => .error .runtimeError
  | fuel + 1, id, d, x, y, availW, availH =>
    let t := inst.parameters.cutThickness
    match blocks[id]? with
    | none => .error .ub
    | some b =>
      if availW > b.w + t then
        if !cutsVertically d fco then do
          let l ← placeOps inst blocks fco fuel id (d + 1) x y availW availH
          .ok (nodeOp fco (d + 1) (x + availW) (y + availH) :: l)
        else do
          let l ← placeOps inst blocks fco fuel id (d + 1) x y b.w availH
          .ok (nodeOp fco (d + 1) (x + b.w) (y + availH) :: l
            ++ [nodeOp fco (d + 1) (x + availW) (y + availH)])
      else if availH > b.h + t then
        if cutsVertically d fco then do
          let l ← placeOps inst blocks fco fuel id (d + 1) x y availW availH
          .ok (nodeOp fco (d + 1) (x + availW) (y + availH) :: l)
        else do
          let l ← placeOps inst blocks fco fuel id (d + 1) x y availW b.h
          .ok (nodeOp fco (d + 1) (x + availW) (y + b.h) :: l
            ++ [nodeOp fco (d + 1) (x + availW) (y + availH)])
      else if b.isSimple then simpleOps inst fco 2 b d x y
      else
        match b.child1, b.child2 with
        | some i, some j =>
          match blocks[i]?, blocks[j]? with
          | some c1, some c2 =>
            if b.cutIsVertical ≠ cutsVertically d fco then do
              let l ← placeOps inst blocks fco fuel id (d + 1) x y b.w b.h
              .ok (nodeOp fco (d + 1) (x + b.w) (y + b.h) :: l)
            else if b.cutIsVertical then do
              let l1 ← placeOps inst blocks fco fuel i (d + 1) x y c1.w b.h
              let l2 ← placeOps inst blocks fco fuel j (d + 1) (x + c1.w + t) y c2.w b.h
              .ok (nodeOp fco (d + 1) (x + c1.w) (y + b.h) :: l1
                ++ nodeOp fco (d + 1) (x + b.w) (y + b.h) :: l2)
            else do
              let l1 ← placeOps inst blocks fco fuel i (d + 1) x y b.w c1.h
              let l2 ← placeOps inst blocks fco fuel j (d + 1) x (y + c1.h + t) b.w c2.h
              .ok (nodeOp fco (d + 1) (x + b.w) (y + c1.h) :: l1
                ++ nodeOp fco (d + 1) (x + b.w) (y + b.h) :: l2)
          | _, _ => .error .ub
        | _, _ => .error .ub

/-- The state of the replay: the calls so far, `urs_list` with the marks, the next mark,
`replay_item_copies` and `replay_valid_block_ids`. -/
structure Replay where
  steps : List Step
  urs : List (Space × Nat)
  next : Nat
  copies : List Int
  valid : List Nat

/-- The calls in the place of a mark. -/
def replaceMark (id : Nat) (seg : List Step) (steps : List Step) : List Step :=
  steps.flatMap fun
    | .op o => [.op o]
    | .space k => if k = id then seg else [.space k]

/-- The marked calls for a block in a space, with the new marks from `next` on in the order of the
new spaces, `tree_search_maximal_spaces.cpp:664–727`; `inner` are the calls of the block. -/
def segment (fco : CutOrientation) (t : Int) (s : Space) (w h : Int) (co : CutOrientation)
    (next : Nat) (inner : List Op) : List Step :=
  let d := s.depth
  let block := .op (nodeOp fco (d + 2) (s.x + w) (s.y + h)) :: inner.map .op
  if cutsVertically d co then
    let isRight := decide (s.x + s.w > s.x + w + t)
    let right := if isRight then [.op (nodeOp fco (d + 1) (s.x + s.w) (s.y + s.h)), .space next] else []
    let above := if s.y + s.h > s.y + h + t then
      [.op (nodeOp fco (d + 2) (s.x + w) (s.y + s.h)), .space (if isRight then next + 1 else next)]
      else []
    .op (nodeOp fco (d + 1) (s.x + w) (s.y + s.h)) :: block ++ above ++ right
  else
    let isAbove := decide (s.y + s.h > s.y + h + t)
    let above := if isAbove then [.op (nodeOp fco (d + 1) (s.x + s.w) (s.y + s.h)), .space next] else []
    let right := if s.x + s.w > s.x + w + t then
      [.op (nodeOp fco (d + 2) (s.x + s.w) (s.y + h)), .space (if isAbove then next + 1 else next)]
      else []
    .op (nodeOp fco (d + 1) (s.x + s.w) (s.y + h)) :: block ++ right ++ above

namespace Scheme

variable (sc : Scheme)

/-- Enough for `place_block` (proved). -/
def placeFuel : Nat := 6 * (sc.blocks.length + 1)

/-- The replay of a placed block, `tree_search_maximal_spaces.cpp:637–771`. -/
def replayStep (fco : CutOrientation) (r : Replay) (p : Placed) : Except Err Replay :=
  match bestSpace (r.urs.map (·.1)) with
  | none => .error .ub
  | some k =>
    match r.urs[k]?, sc.blocks[p.blockId]? with
    | some (s, mark), some b => do
      let inner ← placeOps sc.inst sc.blocks fco sc.placeFuel p.blockId (s.depth + 2) p.x p.y b.w b.h
      let new := newSpaces sc.t s b.w b.h p.co
      let copies := addCopies r.copies b.itemCopies
      let valid := sc.stillValid copies r.valid
      .ok
        { steps := replaceMark mark (segment fco sc.t s b.w b.h p.co r.next inner) r.steps
          urs := prune (fun e => sc.hasFitting valid e.1)
            (r.urs.eraseIdx k ++ new.zipIdx r.next)
          next := r.next + new.length
          copies := copies
          valid := valid }
    | _, _ => .error .ub

/-- The state before the replay, `tree_search_maximal_spaces.cpp:414–423` and `618–633`. -/
def replayStart : Replay :=
  { steps := [.space 0]
    urs := [(sc.rootSpace, 0)]
    next := 1
    copies := List.replicate sc.inst.numberOfItemTypes 0
    valid := List.range sc.blocks.length }

/-- The calls made by `dfs(0)`, `tree_search_maximal_spaces.cpp:779–795`: the marks that are left are
nodes without children. -/
def stepsOps (l : List Step) : List Op := l.filterMap fun
  | .op o => some o
  | .space _ => none

/-- `fco`, `tree_search_maximal_spaces.cpp:401–403`. -/
def orientation (_sc : Scheme) (n : State) : CutOrientation := (n.placed.head?.map (·.co)).getD .vertical

/-- The part of `to_solution` after the greedy completion, `tree_search_maximal_spaces.cpp:397–805`. -/
def convert (n : State) : Except Err Solution := do
  let fco := sc.orientation n
  let r ← n.placed.foldlM (sc.replayStep fco) sc.replayStart
  let sb ← (SolutionBuilder.new sc.inst).runOrThrow sc.inst
    (.addBin sc.bin 1 fco :: stepsOps r.steps)
  let s ← sb.build sc.inst
  if !s.itemCopiesFeasible then .error .logicError else .ok s

/-- `to_solution`, `tree_search_maximal_spaces.cpp:385–806`. -/
def toSolution (n : State) : Except Err Solution := do
  let g ← sc.greedy sc.greedyFuel n
  sc.convert g

end Scheme

/-- The scheme that `tree_search_maximal_spaces` makes for an instance with one bin,
`tree_search_maximal_spaces.cpp:875–883`; without a bin, `bin_type_id(0)` is undefined. -/
def scheme (inst : Instance) : Except Err Scheme :=
  match inst.binTypeIds.head? with
  | none => .error .ub
  | some b => do
    let blocks ← Block.computeBlocks inst (inst.binType b) 10000
    .ok ⟨inst, b, blocks, inst.parameters.firstStageOrientation⟩

end PackingSolver.Guil.Spaces
