import Verif.Model.Rect.Block

/-!
# Tree search over maximal spaces

Models `src/rectangle/tree_search_maximal_spaces.hpp` and
`src/rectangle/tree_search_maximal_spaces.cpp`.

Simplifications: the fitness of an insertion (`compute_insertion_guide`, a product of real powers
that depends on the last node expanded) is an arbitrary function of the node and the block; ids of
nodes and the cached insertions, which only organise the search, are left out.
-/

namespace PackingSolver.Rect.MaximalSpaces

/-- `struct EmptySpace`, `tree_search_maximal_spaces.hpp:19–59`. -/
structure Space where
  x : Int
  y : Int
  w : Int
  h : Int
deriving DecidableEq, Repr

namespace Space

/-- `xe()`, `.hpp:26`. -/
def xe (s : Space) : Int := s.x + s.w

/-- `ye()`, `.hpp:27`. -/
def ye (s : Space) : Int := s.y + s.h

/-- `contains`, `.hpp:30–36`. -/
def contains (s t : Space) : Bool :=
  decide (s.x ≤ t.x) && decide (s.y ≤ t.y) && decide (s.xe ≥ t.xe) && decide (s.ye ≥ t.ye)

end Space

instance : Inhabited Space := ⟨⟨0, 0, 0, 0⟩⟩

/-- `struct AnchorInfo`, `.hpp:61–66`. -/
structure Anchor where
  distance : Int := 0
  dirX : Bool := false
  dirY : Bool := false
deriving DecidableEq, Repr

/-- `compute_anchor_info`, `.cpp:20–33`. -/
def anchorInfo (s : Space) (binX binY : Int) : Anchor :=
  let distXStart := s.x
  let distXEnd := binX - s.xe
  let distYStart := s.y
  let distYEnd := binY - s.ye
  { dirX := decide (distXEnd < distXStart)
    dirY := decide (distYEnd < distYStart)
    distance := min distXStart distXEnd + min distYStart distYEnd }

/-- `compute_block_position`, `.cpp:35–44`. -/
def blockPosition (a : Anchor) (s : Space) (b : Block) : Int × Int :=
  (if a.dirX then s.xe - b.x else s.x, if a.dirY then s.ye - b.y else s.y)

/-- `overlaps`, `.cpp:597–604`. -/
def overlaps (s : Space) (x y w h : Int) : Bool :=
  decide (x < s.xe) && decide (x + w > s.x) && decide (y < s.ye) && decide (y + h > s.y)

/-- `add_empty_space`, `.cpp:606–616`, on the spaces `kept ++ todo`. -/
def addSpace (kept todo : List Space) (s : Space) : List Space :=
  if s.w = 0 ∨ s.h = 0 then todo
  else if (kept ++ todo).any fun e => e.contains s then todo
  else todo ++ [s]

/-- The sub-spaces of a space around a rectangle, in the order in which they are added,
`.cpp:632–667`. -/
def cuts (s : Space) (x y w h : Int) : List Space :=
  (if x > s.x then [⟨s.x, s.y, x - s.x, s.h⟩] else [])
  ++ (if x + w < s.xe then [⟨x + w, s.y, s.xe - (x + w), s.h⟩] else [])
  ++ (if y > s.y then [⟨s.x, s.y, s.w, y - s.y⟩] else [])
  ++ (if y + h < s.ye then [⟨s.x, y + h, s.w, s.ye - (y + h)⟩] else [])

/-- `v[i] = v.back(); v.pop_back();`, on the elements after position `i`. -/
def moveLast {α : Type} (l : List α) : List α :=
  match l.getLast? with
  | none => []
  | some z => z :: l.dropLast

/-- `cut_spaces`, `.cpp:618–670`: the spaces before position `i`, and those from position `i` on. -/
def cutLoop (x y w h : Int) : Nat → List Space → List Space → List Space
  | 0, kept, todo => kept ++ todo
  | _ + 1, kept, [] => kept
  | n + 1, kept, s :: todo =>
    if !overlaps s x y w h then cutLoop x y w h n (kept ++ [s]) todo
    else cutLoop x y w h n kept ((cuts s x y w h).foldl (addSpace kept) (moveLast todo))

/-- `cut_spaces`, `.cpp:618–670`; the loop takes at most five steps for every space (proved). -/
def cutSpaces (l : List Space) (x y w h : Int) : List Space :=
  cutLoop x y w h (5 * l.length) [] l

/-- Removal, by exchange with the last element, of the elements that fail a test,
`.cpp:433–452,463–480`. -/
def swapFilterLoop {α : Type} (p : α → Bool) : Nat → List α → List α → List α
  | 0, kept, _ => kept
  | _ + 1, kept, [] => kept
  | n + 1, kept, a :: todo =>
    if p a then swapFilterLoop p n (kept ++ [a]) todo
    else swapFilterLoop p n kept (moveLast todo)

/-- The whole loop. -/
def swapFilter {α : Type} (p : α → Bool) (l : List α) : List α := swapFilterLoop p l.length [] l

/-- `struct Node`, `.hpp:127–167`. -/
structure Node where
  /-- Block id and position. -/
  placedBlocks : List (Nat × Int × Int) := []
  emptySpaces : List Space := []
  itemNumberOfCopies : List Int := []
  itemArea : Int := 0
  blockArea : Int := 0
  weight : ℚ := 0
  numberOfItems : Int := 0
  numberOfBlocks : Int := 0
  profit : ℚ := 0
  validBlockIds : List Nat := []
  greedyValue : ℚ := 0
deriving DecidableEq, Repr

/-- The branching scheme, `.hpp:91–463`: `blocks` is `blocks_[bin_type_id(0)]`, `binX` and `binY`
are `bin_rect_`. -/
structure Scheme where
  inst : Instance
  binTypeId : Nat
  blocks : List Block
  binX : Int
  binY : Int

namespace Scheme

variable (s : Scheme)

/-- `instance_.bin_type(bin_type_id)`. -/
def binType : BinType := s.inst.binType s.binTypeId

/-- `blocks_[bin_type_id][block_id]`. -/
def block (i : Nat) : Block := s.blocks.getD i default

end Scheme

/-- The beginning of `tree_search_maximal_spaces` and the constructor, `.cpp:52–67,685–693`;
`bin_type_id(0)` is undefined behaviour if there is no bin. -/
def makeScheme (inst : Instance) (maximum : Nat) : Except Err Scheme :=
  match inst.binTypeIds with
  | [] => .error .ub
  | b :: _ => do
    let blocks ← Block.computeBlocks inst b maximum
    .ok { inst := inst
          binTypeId := b
          blocks := blocks
          binX := maxReachable inst true (inst.binType b).x.toNat
          binY := maxReachable inst false (inst.binType b).y.toNat }

variable (s : Scheme)

/-- A block fits in a space, `.cpp:235–236,468–469`. -/
def fitsSpace (b : Block) (e : Space) : Bool := decide (b.x ≤ e.w) && decide (b.y ≤ e.h)

/-- `remove_unusable_spaces`, `.cpp:458–481`. -/
def removeUnusable (n : Node) : Node :=
  { n with
    emptySpaces := swapFilter
      (fun e => n.validBlockIds.any fun i => fitsSpace (s.block i) e) n.emptySpaces }

/-- `root`, `.cpp:69–88`. -/
def root : Node :=
  let n : Node :=
    { itemNumberOfCopies := List.replicate s.inst.numberOfItemTypes 0
      emptySpaces := s.binType.defects.foldl (fun l d => cutSpaces l d.posX d.posY d.x d.y)
        [⟨0, 0, s.binX, s.binY⟩]
      validBlockIds := List.range s.blocks.length }
  if s.binType.defects.isEmpty then n else removeUnusable s n

/-- One candidate of `find_best_space`, `.cpp:98–115`. -/
def bestStep (best : Option (Space × Anchor)) (e : Space) : Option (Space × Anchor) :=
  let a := anchorInfo e s.binX s.binY
  let corner (a : Anchor) : Nat := (if a.dirX then 2 else 0) + (if a.dirY then 1 else 0)
  match best with
  | none => some (e, a)
  | some (b, ab) =>
    if a.distance < ab.distance ∨ (a.distance = ab.distance ∧ e.w * e.h > b.w * b.h)
        ∨ (a.distance = ab.distance ∧ e.w * e.h = b.w * b.h ∧ corner a > corner ab) then some (e, a)
    else some (b, ab)

/-- `find_best_space`, `.cpp:90–117`, with the space itself instead of its position. -/
def findBestSpace (n : Node) : Option (Space × Anchor) := n.emptySpaces.foldl (bestStep s) none

/-- `struct Insertion`, `.hpp:100–125`. -/
structure Insertion where
  blockId : Nat
  x : Int
  y : Int
deriving DecidableEq, Repr

/-- The maximum weight is respected, `.cpp:238,279`. -/
def weightOk (n : Node) (b : Block) : Bool :=
  match s.binType.maximumWeight with
  | .fin m => !decide (n.weight + b.weight > m)
  | .inf => true

/-- `insertions`, `.cpp:208–255`, before the insertions are sorted by their fitness. -/
def insertions (n : Node) : List Insertion :=
  match findBestSpace s n with
  | none => []
  | some (e, a) => n.validBlockIds.filterMap fun i =>
    if fitsSpace (s.block i) e && weightOk s n (s.block i) then
      some ⟨i, (blockPosition a e (s.block i)).1, (blockPosition a e (s.block i)).2⟩
    else none

/-- `best_insertion`, `.cpp:257–295`: the first one of greatest positive fitness. -/
def bestInsertion (guide : Node → Nat → ℚ) (n : Node) : Option Insertion :=
  ((insertions s n).foldl (fun (best : Option Insertion × ℚ) i =>
    if guide n i.blockId > best.2 then (some i, guide n i.blockId) else best) (none, 0)).1

/-- The loop over the item types of a block, `.cpp:417–420`. -/
def addCopies (n : Node) (l : List (Nat × Int)) : Node :=
  l.foldl (fun n p => { n with
    itemNumberOfCopies := addAt n.itemNumberOfCopies p.1 p.2
    profit := n.profit + (s.inst.itemType p.1).profit * (p.2 : ℚ) }) n

/-- `apply_insertion`, `.cpp:409–456`. -/
def applyInsertion (n : Node) (i : Insertion) : Node :=
  let b := s.block i.blockId
  let n1 := addCopies s n b.itemCopies
  let n2 := { n1 with
    itemArea := n1.itemArea + b.itemArea
    blockArea := n1.blockArea + b.area
    weight := n1.weight + b.weight
    numberOfItems := n1.numberOfItems + b.items.length
    numberOfBlocks := n1.numberOfBlocks + 1
    placedBlocks := n1.placedBlocks ++ [(i.blockId, i.x, i.y)] }
  let n3 := { n2 with
    validBlockIds := swapFilter (fun id => (s.block id).itemCopies.all fun p =>
      !decide (n2.itemNumberOfCopies.getD p.1 0 + p.2 > (s.inst.itemType p.1).copies))
      n2.validBlockIds
    emptySpaces := cutSpaces n2.emptySpaces i.x i.y b.x b.y }
  removeUnusable s n3

/-- The loop of `to_solution` and `compute_guide_greedy`, `.cpp:529–535,559–565`. -/
def greedyLoop (guide : Node → Nat → ℚ) : Nat → Node → Option Node
  | 0, _ => none
  | k + 1, n =>
    match bestInsertion s guide n with
    | none => some n
    | some i => greedyLoop guide k (applyInsertion s n i)

/-- The loop of `to_solution` and `compute_guide_greedy`: every insertion adds an item, and there
are at most `copies` items of each type (proved), so that the loop ends. -/
def greedy (guide : Node → Nat → ℚ) (n : Node) : Option Node :=
  greedyLoop s guide ((s.inst.itemTypes.map fun t => t.copies.toNat).sum + 1) n

/-- `child`, `next_child` and `children`, `.hpp:213–221,231–245`, `.cpp:580–590`. -/
def child (guide : Node → Nat → ℚ) (n : Node) (i : Insertion) : Except Err Node :=
  let m := applyInsertion s n i
  match greedy s guide m with
  | none => .error .runtimeError
  | some g => .ok { m with greedyValue := g.profit }

/-- The items of the placed blocks, `.cpp:540–552`. -/
def placedItems (n : Node) : List PlacedItem :=
  n.placedBlocks.flatMap fun p => (s.block p.1).items.map fun it =>
    { it with x := p.2.1 + it.x, y := p.2.2 + it.y }

/-- `to_solution`, `.cpp:527–555`. -/
def toSolution (guide : Node → Nat → ℚ) (n : Node) : Except Err Solution :=
  match greedy s guide n with
  | none => .error .runtimeError
  | some g => SolutionBuilder.runOps s.inst (.addBin s.binTypeId 1
      :: (placedItems s g).map fun p => .addItem 0 p.itemTypeId p.x p.y p.rotate)

/-- `leaf`, `.hpp:249–252`. -/
def leaf (n : Node) : Bool := decide (n.numberOfItems = s.inst.numberOfItems)

/-- `better`, `.cpp:483–501`. -/
def better (n₁ n₂ : Node) : Except Err Bool :=
  match s.inst.objective with
  | .knapsack => .ok (decide (n₂.greedyValue < n₁.greedyValue))
  | .feasibility => .ok (decide (n₂.greedyValue < n₁.greedyValue))
  | _ => .error .logicError

/-- `bound`, `.cpp:503–525`. -/
def bound (_n₁ n₂ : Node) : Except Err Bool :=
  match s.inst.objective with
  | .knapsack => .ok (leaf s n₂)
  | .feasibility => .ok (leaf s n₂)
  | _ => .error .logicError

/-- Two nodes are compared by `dominates` if they have the same key, `.hpp:275–298`. -/
def sameKey (n₁ n₂ : Node) : Bool := decide (n₁.itemNumberOfCopies = n₂.itemNumberOfCopies)

/-- `dominates`, `.hpp:302–307`. -/
def dominates (n₁ n₂ : Node) : Bool := decide (n₁.greedyValue ≥ n₂.greedyValue)

end PackingSolver.Rect.MaximalSpaces
