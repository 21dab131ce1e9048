import Verif.Model.Box.Block
import Verif.Model.Rect.MaximalSpaces

/-!
# Tree search over maximal spaces, boxes

Models `src/box/tree_search_maximal_spaces.hpp` and `src/box/tree_search_maximal_spaces.cpp`.

Simplifications: the fitness of an insertion (`compute_insertion_guide`, a product of real powers
that depends on the last node expanded) is an arbitrary function of the node and the block; ids of
nodes and the cached insertions, which only organise the search, are left out.  The removal of list
elements by exchange with the last one has the same text as in `src/rectangle`: its model is shared.
-/

namespace PackingSolver.Box.MaximalSpaces

open Rect.MaximalSpaces (moveLast swapFilter)

/-- `struct EmptySpace`, `tree_search_maximal_spaces.hpp:18–61`. -/
structure Space where
  x : Int
  y : Int
  z : Int
  dx : Int
  dy : Int
  dz : Int
deriving DecidableEq, Repr

namespace Space

/-- `xe()`, `.hpp:26`. -/
def xe (s : Space) : Int := s.x + s.dx

/-- `ye()`, `.hpp:27`. -/
def ye (s : Space) : Int := s.y + s.dy

/-- `ze()`, `.hpp:28`. -/
def ze (s : Space) : Int := s.z + s.dz

/-- `box.volume()` of the space. -/
def volume (s : Space) : Int := s.dx * s.dy * s.dz

/-- `contains`, `.hpp:31–39`. -/
def contains (s t : Space) : Bool :=
  decide (s.x ≤ t.x) && decide (s.y ≤ t.y) && decide (s.z ≤ t.z) && decide (s.xe ≥ t.xe)
    && decide (s.ye ≥ t.ye) && decide (s.ze ≥ t.ze)

end Space

instance : Inhabited Space := ⟨⟨0, 0, 0, 0, 0, 0⟩⟩

/-- `struct AnchorInfo`, `.hpp:63–69`; the volume of the space is not read. -/
structure Anchor where
  distance : Int := 0
  dirX : Bool := false
  dirY : Bool := false
  dirZ : Bool := false
deriving DecidableEq, Repr

/-- `compute_anchor_info`, `.cpp:29–50`. -/
def anchorInfo (s : Space) (bin : Dims) : Anchor :=
  let distXStart := s.x
  let distXEnd := bin.x - s.xe
  let distYStart := s.y
  let distYEnd := bin.y - s.ye
  let distZStart := s.z
  let distZEnd := bin.z - s.ze
  { dirX := decide (distXEnd < distXStart)
    dirY := decide (distYEnd < distYStart)
    dirZ := decide (distZEnd < distZStart)
    distance := min distXStart distXEnd + min distYStart distYEnd + min distZStart distZEnd }

/-- A `Point`. -/
structure Corner where
  x : Int
  y : Int
  z : Int
deriving DecidableEq, Repr

/-- `compute_block_position`, `.cpp:52–62`. -/
def blockPosition (a : Anchor) (s : Space) (b : Dims) : Corner :=
  { x := if a.dirX then s.xe - b.x else s.x
    y := if a.dirY then s.ye - b.y else s.y
    z := if a.dirZ then s.ze - b.z else s.z }

/-- `overlaps`, `.cpp:742–750`. -/
def overlaps (s : Space) (c : Corner) (b : Dims) : Bool :=
  decide (c.x < s.xe) && decide (c.x + b.x > s.x) && decide (c.y < s.ye) && decide (c.y + b.y > s.y)
    && decide (c.z < s.ze) && decide (c.z + b.z > s.z)

/-- `add_empty_space`, `.cpp:752–762`, on the spaces `kept ++ todo`. -/
def addSpace (kept todo : List Space) (s : Space) : List Space :=
  if s.dx = 0 ∨ s.dy = 0 ∨ s.dz = 0 then todo
  else if (kept ++ todo).any fun e => e.contains s then todo
  else todo ++ [s]

/-- The sub-spaces of a space around a box, in the order in which they are added,
`.cpp:782–848`. -/
def cuts (s : Space) (c : Corner) (b : Dims) : List Space :=
  (if c.x > s.x then [⟨s.x, s.y, s.z, c.x - s.x, s.dy, s.dz⟩] else [])
  ++ (if c.x + b.x < s.xe then [⟨c.x + b.x, s.y, s.z, s.xe - (c.x + b.x), s.dy, s.dz⟩] else [])
  ++ (if c.y > s.y then [⟨s.x, s.y, s.z, s.dx, c.y - s.y, s.dz⟩] else [])
  ++ (if c.y + b.y < s.ye then [⟨s.x, c.y + b.y, s.z, s.dx, s.ye - (c.y + b.y), s.dz⟩] else [])
  ++ (if c.z > s.z then [⟨s.x, s.y, s.z, s.dx, s.dy, c.z - s.z⟩] else [])
  ++ (if c.z + b.z < s.ze then [⟨s.x, s.y, c.z + b.z, s.dx, s.dy, s.ze - (c.z + b.z)⟩] else [])

/-- `cut_spaces`, `.cpp:764–851`: the spaces before position `i`, and those from position `i` on. -/
def cutLoop (c : Corner) (b : Dims) : Nat → List Space → List Space → List Space
  | 0, kept, todo => kept ++ todo
  | _ + 1, kept, [] => kept
  | n + 1, kept, s :: todo =>
    if !overlaps s c b then cutLoop c b n (kept ++ [s]) todo
    else cutLoop c b n kept ((cuts s c b).foldl (addSpace kept) (moveLast todo))

/-- `cut_spaces`, `.cpp:764–851`; the loop takes at most seven steps for every space (proved). -/
def cutSpaces (l : List Space) (c : Corner) (b : Dims) : List Space :=
  cutLoop c b (7 * l.length) [] l

/-- `struct Node`, `.hpp:131–190`. -/
structure Node where
  /-- Block id and position. -/
  placedBlocks : List (Nat × Corner) := []
  emptySpaces : List Space := []
  itemNumberOfCopies : List Int := []
  itemVolume : Int := 0
  blockVolume : Int := 0
  weight : ℚ := 0
  numberOfItems : Int := 0
  numberOfBlocks : Int := 0
  profit : ℚ := 0
  validBlockIds : List Nat := []
  greedyValue : ℚ := 0
deriving DecidableEq, Repr

/-- The branching scheme, `.hpp:93–639`: `blocks` is `blocks_[bin_type_id(0)]`, `binBox` is
`bin_box_`. -/
structure Scheme where
  inst : Instance
  binTypeId : Nat
  blocks : List Block
  binBox : Dims

namespace Scheme

variable (s : Scheme)

/-- `instance_.bin_type(bin_type_id)`. -/
def binType : BinType := s.inst.binType s.binTypeId

/-- `blocks_[bin_type_id][block_id]`. -/
def block (i : Nat) : Block := s.blocks.getD i default

end Scheme

/-- The beginning of `tree_search_maximal_spaces` and the constructor, `.cpp:106–123,857–880`;
`bin_type_id(0)` is undefined behaviour if there is no bin. -/
def makeScheme (inst : Instance) (maximum : Nat) : Except Err Scheme :=
  match inst.binTypeIds with
  | [] => .error .ub
  | b :: _ => do
    let blocks ← Block.computeBlocks inst b maximum
    .ok { inst := inst
          binTypeId := b
          blocks := blocks
          binBox := { x := maxReachable inst .x (inst.binType b).box.x.toNat
                      y := maxReachable inst .y (inst.binType b).box.y.toNat
                      z := maxReachable inst .z (inst.binType b).box.z.toNat } }

variable (s : Scheme)

/-- A block fits in a space, `.cpp:313–316,608–610`. -/
def fitsSpace (b : Block) (e : Space) : Bool :=
  decide (b.box.x ≤ e.dx) && decide (b.box.y ≤ e.dy) && decide (b.box.z ≤ e.dz)

/-- The removal of the spaces in which no block fits, `.cpp:601–623`. -/
def removeUnusable (n : Node) : Node :=
  { n with
    emptySpaces := swapFilter
      (fun e => n.validBlockIds.any fun i => fitsSpace (s.block i) e) n.emptySpaces }

/-- `root`, `.cpp:125–139`. -/
def root : Node :=
  { itemNumberOfCopies := List.replicate s.inst.numberOfItemTypes 0
    emptySpaces := [⟨0, 0, 0, s.binBox.x, s.binBox.y, s.binBox.z⟩]
    validBlockIds := List.range s.blocks.length }

/-- One candidate of `find_best_space`, `.cpp:153–167`. -/
def bestStep (best : Option (Space × Anchor)) (e : Space) : Option (Space × Anchor) :=
  let a := anchorInfo e s.binBox
  let corner (a : Anchor) : Nat :=
    (if a.dirX then 4 else 0) + (if a.dirY then 2 else 0) + (if a.dirZ then 1 else 0)
  match best with
  | none => some (e, a)
  | some (b, ab) =>
    if a.distance < ab.distance ∨ (a.distance = ab.distance ∧ e.volume > b.volume)
        ∨ (a.distance = ab.distance ∧ e.volume = b.volume ∧ corner a > corner ab) then some (e, a)
    else some (b, ab)

/-- `find_best_space`, `.cpp:141–170`, with the space itself instead of its position. -/
def findBestSpace (n : Node) : Option (Space × Anchor) := n.emptySpaces.foldl (bestStep s) none

/-- `struct Insertion`, `.hpp:102–129`. -/
structure Insertion where
  blockId : Nat
  corner : Corner
deriving DecidableEq, Repr

/-- The maximum weight is respected, `.cpp:317,359`. -/
def weightOk (n : Node) (b : Block) : Bool :=
  match s.binType.maximumWeight with
  | .fin m => !decide (n.weight + b.weight > m)
  | .inf => true

/-- `insertions`, `.cpp:287–334`, before the insertions are sorted by their fitness. -/
def insertions (n : Node) : List Insertion :=
  match findBestSpace s n with
  | none => []
  | some (e, a) => n.validBlockIds.filterMap fun i =>
    if fitsSpace (s.block i) e && weightOk s n (s.block i) then
      some ⟨i, blockPosition a e (s.block i).box⟩
    else none

/-- `best_insertion`, `.cpp:336–375`: the first one of greatest positive fitness. -/
def bestInsertion (guide : Node → Nat → ℚ) (n : Node) : Option Insertion :=
  ((insertions s n).foldl (fun (best : Option Insertion × ℚ) i =>
    if guide n i.blockId > best.2 then (some i, guide n i.blockId) else best) (none, 0)).1

/-- The loop over the item types of a block, `.cpp:561–564`. -/
def addCopies (n : Node) (l : List (Nat × Int)) : Node :=
  l.foldl (fun n p => { n with
    itemNumberOfCopies := addAt n.itemNumberOfCopies p.1 p.2
    profit := n.profit + (s.inst.itemType p.1).profit * (p.2 : ℚ) }) n

/-- `apply_insertion`, `.cpp:553–624`. -/
def applyInsertion (n : Node) (i : Insertion) : Node :=
  let b := s.block i.blockId
  let n1 := addCopies s n b.itemCopies
  let n2 := { n1 with
    itemVolume := n1.itemVolume + b.itemVolume
    blockVolume := n1.blockVolume + b.box.volume
    weight := n1.weight + b.weight
    numberOfItems := n1.numberOfItems + b.items.length
    numberOfBlocks := n1.numberOfBlocks + 1
    placedBlocks := n1.placedBlocks ++ [(i.blockId, i.corner)] }
  let n3 := { n2 with
    validBlockIds := swapFilter (fun id => (s.block id).itemCopies.all fun p =>
      !decide (n2.itemNumberOfCopies.getD p.1 0 + p.2 > (s.inst.itemType p.1).copies))
      n2.validBlockIds
    emptySpaces := cutSpaces n2.emptySpaces i.corner b.box }
  removeUnusable s n3

/-- The loop of `to_solution` and `compute_guide_greedy`, `.cpp:672–678,703–709`. -/
def greedyLoop (guide : Node → Nat → ℚ) : Nat → Node → Option Node
  | 0, _ => none
  | k + 1, n =>
    match bestInsertion s guide n with
    | none => some n
    | some i => greedyLoop guide k (applyInsertion s n i)

/-- The loop of `to_solution` and `compute_guide_greedy`: every insertion adds an item, and there
are at most `copies` items of each type (proved), so that the loop ends. -/
def greedy (guide : Node → Nat → ℚ) (n : Node) : Option Node :=
  greedyLoop s guide ((s.inst.itemTypes.map fun t => t.copies.toNat).sum + 1) n

/-- `child`, `next_child` and `children`, `.hpp:275–283,293–309`, `.cpp:713–736`. -/
def child (guide : Node → Nat → ℚ) (n : Node) (i : Insertion) : Except Err Node :=
  let m := applyInsertion s n i
  match greedy s guide m with
  | none => .error .runtimeError
  | some g => .ok { m with greedyValue := g.profit }

/-- The items of the placed blocks, `.cpp:683–696`. -/
def placedItems (n : Node) : List PlacedItem :=
  n.placedBlocks.flatMap fun p => (s.block p.1).items.map fun it =>
    { it with x := p.2.x + it.x, y := p.2.y + it.y, z := p.2.z + it.z }

/-- `to_solution`, `.cpp:670–699`. -/
def toSolution (guide : Node → Nat → ℚ) (n : Node) : Except Err Solution :=
  match greedy s guide n with
  | none => .error .runtimeError
  | some g => SolutionBuilder.runOps s.inst (.addBin s.binTypeId 1
      :: (placedItems s g).map fun p => .addItem 0 p.itemTypeId p.x p.y p.z p.rotation)

/-- `leaf`, `.hpp:313–316`. -/
def leaf (n : Node) : Bool := decide (n.numberOfItems = s.inst.numberOfItems)

/-- `better`, `.cpp:626–644`. -/
def better (n₁ n₂ : Node) : Except Err Bool :=
  match s.inst.objective with
  | .knapsack => .ok (decide (n₂.greedyValue < n₁.greedyValue))
  | .feasibility => .ok (decide (n₂.greedyValue < n₁.greedyValue))
  | _ => .error .logicError

/-- `bound`, `.cpp:646–668`. -/
def bound (_n₁ n₂ : Node) : Except Err Bool :=
  match s.inst.objective with
  | .knapsack => .ok (leaf s n₂)
  | .feasibility => .ok (leaf s n₂)
  | _ => .error .logicError

/-- Two nodes are compared by `dominates` if they have the same key, `.hpp:339–364`. -/
def sameKey (n₁ n₂ : Node) : Bool := decide (n₁.itemNumberOfCopies = n₂.itemNumberOfCopies)

/-- `dominates`, `.hpp:366–371`. -/
def dominates (n₁ n₂ : Node) : Bool := decide (n₁.greedyValue ≥ n₂.greedyValue)

end PackingSolver.Box.MaximalSpaces
