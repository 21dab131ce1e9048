import Verif.Model.Rect.Builder
import Verif.Model.Rect.Solution

/-!
# Blocks of rectangles

Models `src/rectangle/block.hpp` and `src/rectangle/block.cpp`: the blocks of items the tree search
over maximal spaces places, and the lengths reachable by putting items side by side.

Simplifications: the hash set of keys is a list; `efficiency()` and `fill_rate()` are exact
fractions; `maximum_number_of_blocks` is not negative (the code only uses the default, 10000).
-/

namespace PackingSolver.Rect

/-- `struct Block`, `block.hpp:19–57`. -/
structure Block where
  x : Int
  y : Int
  itemArea : Int
  itemProfit : ℚ
  weight : ℚ
  isSimple : Bool := false
  itemTypeId : Option Nat := none
  rotate : Bool := false
  /-- Item type ids with their numbers of copies, by increasing id. -/
  itemCopies : List (Nat × Int)
  /-- Positions are relative to the corner of the block. -/
  items : List PlacedItem
  numberOfItems : Int
deriving DecidableEq, Repr

instance : Inhabited Block := ⟨⟨0, 0, 0, 0, 0, false, none, false, [], [], 0⟩⟩

namespace Block

/-- `rect.area()`. -/
def area (b : Block) : Int := b.x * b.y

/-- `fill_rate()`, `block.hpp:54`. -/
def fillRate (b : Block) : ℚ := (b.itemArea : ℚ) / b.area

/-- `efficiency()`, `block.hpp:56`. -/
def efficiency (b : Block) : ℚ := b.itemProfit / b.area

/-- `BlockKey`, `make_key`, `block.cpp:31–69`. -/
abbrev Key := (Int × Int) × List (Nat × Int)

/-- `make_key`, `block.cpp:66–69`. -/
def key (b : Block) : Key := ((b.x, b.y), b.itemCopies)

/-- `merge_item_copies`, `block.cpp:98–123`; the loop ends after at most as many steps as there are
entries. -/
def mergeCopiesLoop : Nat → List (Nat × Int) → List (Nat × Int) → List (Nat × Int)
  | 0, _, _ => []
  | _ + 1, [], [] => []
  | n + 1, [], b :: bs => b :: mergeCopiesLoop n [] bs
  | n + 1, a :: as, [] => a :: mergeCopiesLoop n as []
  | n + 1, a :: as, b :: bs =>
    if a.1 < b.1 then a :: mergeCopiesLoop n as (b :: bs)
    else if a.1 > b.1 then b :: mergeCopiesLoop n (a :: as) bs
    else (a.1, a.2 + b.2) :: mergeCopiesLoop n as bs

/-- `merge_item_copies`, `block.cpp:98–123`. -/
def mergeCopies (as bs : List (Nat × Int)) : List (Nat × Int) :=
  mergeCopiesLoop (as.length + bs.length) as bs

/-- `is_valid_item_copies`, `block.cpp:71–96`: it computes the same merged list. -/
def validCopies (inst : Instance) (as bs : List (Nat × Int)) : Bool :=
  (mergeCopies as bs).all fun p => !decide (p.2 > (inst.itemType p.1).copies)

/-- `BlockFillRateLess`, `block.cpp:125–138`. -/
def less (a b : Block) : Bool :=
  if a.numberOfItems = 1 ∧ b.numberOfItems ≠ 1 then false
  else if a.numberOfItems ≠ 1 ∧ b.numberOfItems = 1 then true
  else if a.efficiency ≠ b.efficiency then decide (a.efficiency < b.efficiency)
  else decide (a.numberOfItems > b.numberOfItems)

/-- A block of `cx × cy` copies of an item, `block.cpp:181–200`. -/
def simple (inst : Instance) (i : Nat) (rotate : Bool) (cx cy : Nat) : Block :=
  let it := inst.itemType i
  let bx := it.width rotate
  let by' := it.height rotate
  { isSimple := true
    itemTypeId := some i
    rotate := rotate
    x := cx * bx
    y := cy * by'
    itemArea := cx * cy * it.area
    itemProfit := ((cx * cy : Int) : ℚ) * it.profit
    weight := ((cx * cy : Int) : ℚ) * it.weight
    itemCopies := [(i, cx * cy)]
    numberOfItems := cx * cy
    items := (List.range cx).flatMap fun (a : Nat) => (List.range cy).map fun (b : Nat) =>
      ⟨i, a * bx, b * by', rotate⟩ }

/-- The divisions of `block.cpp:175,179` have a divisor other than zero (otherwise the behaviour is
undefined). -/
def divides (inst : Instance) (bt : BinType) : Bool :=
  (List.range inst.numberOfItemTypes).all fun i =>
    let it := inst.itemType i
    decide (it.copies < 1) || (if it.oriented then [false] else [false, true]).all fun rotate =>
      decide (it.width rotate ≠ 0)
      && (decide (min it.copies (bt.x.tdiv (it.width rotate)) < 1)
        || decide (it.height rotate ≠ 0))

/-- The blocks of copies of a single item type, in the order in which they are generated,
`block.cpp:162–180`. -/
def simpleBlocks (inst : Instance) (bt : BinType) : List Block :=
  (List.range inst.numberOfItemTypes).flatMap fun i =>
    let it := inst.itemType i
    if it.copies < 1 then []
    else (if it.oriented then [false] else [false, true]).flatMap fun rotate =>
      let maxX := min it.copies (bt.x.tdiv (it.width rotate))
      (List.range' 1 maxX.toNat).flatMap fun (cx : Nat) =>
        let maxY := min (it.copies.tdiv cx) (bt.y.tdiv (it.height rotate))
        (List.range' 1 maxY.toNat).map fun (cy : Nat) => simple inst i rotate cx cy

/-- `blocks_to_process`, by increasing `BlockFillRateLess`, and `seen`. -/
structure Queue where
  blocks : List Block := []
  seen : List Key := []

/-- `std::multiset::insert`: after the elements that are not greater. -/
def insertSorted (b : Block) : List Block → List Block
  | [] => [b]
  | c :: l => if less b c then b :: c :: l else c :: insertSorted b l

/-- `enqueue`, `block.cpp:152–160`. -/
def Queue.enqueue (maximum : Nat) (q : Queue) (b : Block) : Queue :=
  let blocks := insertSorted b q.blocks
  if blocks.length > maximum then
    { blocks := blocks.tail, seen := q.seen.filter (fun k => k ≠ (blocks.headD default).key) }
  else { q with blocks := blocks }

/-- The insertion of a simple block, `block.cpp:201–205`. -/
def Queue.addSimple (maximum : Nat) (q : Queue) (b : Block) : Queue :=
  if b.key ∈ q.seen then q
  else ({ q with seen := b.key :: q.seen } : Queue).enqueue maximum b

/-- The two blocks side by side (`true`) or one above the other (`false`), `block.cpp:231–278`. -/
def combine (a b : Block) (alongX : Bool) : Block :=
  { x := if alongX then a.x + b.x else max a.x b.x
    y := if alongX then max a.y b.y else a.y + b.y
    itemArea := a.itemArea + b.itemArea
    itemProfit := a.itemProfit + b.itemProfit
    weight := a.weight + b.weight
    numberOfItems := a.numberOfItems + b.numberOfItems
    itemCopies := mergeCopies a.itemCopies b.itemCopies
    items := a.items ++ b.items.map fun p =>
      if alongX then { p with x := p.x + a.x } else { p with y := p.y + a.y } }

/-- One combination of a block with a returned block, `block.cpp:226–280`; the test of line 226 does not depend on the direction. -/
def Queue.tryCombine (inst : Instance) (bt : BinType) (maximum : Nat) (block existing : Block)
    (q : Queue) (alongX : Bool) : Queue :=
  let c := combine block existing alongX
  if block.isSimple && existing.isSimple && decide (block.itemTypeId = existing.itemTypeId)
      && decide (block.rotate = existing.rotate) then q
  else if c.x > bt.x ∨ c.y > bt.y then q
  else if q.blocks.length ≥ maximum ∧ !less (q.blocks.headD default) c then q
  else if !validCopies inst block.itemCopies existing.itemCopies then q
  else if c.key ∈ q.seen then q
  else ({ q with seen := c.key :: q.seen } : Queue).enqueue maximum c

/-- The loop over the returned blocks, `block.cpp:225–282`. -/
def Queue.combineAll (inst : Instance) (bt : BinType) (maximum : Nat) (block : Block) (q : Queue)
    (returned : List Block) : Queue :=
  returned.foldl (fun q e => [true, false].foldl (Queue.tryCombine inst bt maximum block e) q) q

/-- The main loop, `block.cpp:211–285`; `none` if it does not end within the given number of
iterations. -/
def mainLoop (inst : Instance) (bt : BinType) (maximum : Nat) :
    Nat → Queue → List Block → Option (List Block)
  | 0, _, _ => none
  | n + 1, q, returned =>
    match q.blocks.getLast? with
    | none => some returned
    | some block =>
      if returned.length ≥ maximum then some returned
      else
        let q : Queue := { q with blocks := q.blocks.dropLast }
        if inst.numberOfItemTypes ≤ 3 ∧ block.fillRate ≠ 1 then mainLoop inst bt maximum n q returned
        else mainLoop inst bt maximum n (q.combineAll inst bt maximum block returned)
          (returned ++ [block])

/-- `compute_blocks_for_bin`, `block.cpp:140–288`; the number of iterations of the main loop is at
most the one given here (proved), so that the last error does not occur. -/
def computeBlocks (inst : Instance) (binTypeId : Nat) (maximum : Nat) : Except Err (List Block) :=
  let bt := inst.binType binTypeId
  if !divides inst bt then .error .ub
  else
    let q := (simpleBlocks inst bt).foldl (Queue.addSimple maximum) {}
    match mainLoop inst bt maximum (q.blocks.length + maximum * maximum + 1) q [] with
    | some l => .ok l
    | none => .error .runtimeError

end Block

/-! ## Reachable lengths -/

/-- One copy of an item with the given possible lengths, `block.cpp:321–335`. -/
def reachStep (lengths : List Int) (r : List Bool) : List Bool :=
  r.mapIdx fun v x => x || lengths.any fun s => decide (s ≤ v) && r.getD ((v : Int) - s).toNat false

/-- All copies of an item type, `block.cpp:320–336`. -/
def reachItem (r : List Bool) (copies : Int) (lengths : List Int) : List Bool :=
  (List.range copies.toNat).foldl (fun r _ => reachStep lengths r) r

/-- `reachable_x` or `reachable_y`, `block.cpp:309–337`: which totals up to `max` are attained. -/
def reachTable (inst : Instance) (alongX : Bool) (max : Nat) : List Bool :=
  inst.itemTypes.foldl (fun r t => reachItem r t.copies
    ((if t.oriented then [false] else [false, true]).map fun rotate =>
      if alongX then t.width rotate else t.height rotate))
    (true :: List.replicate max false)

/-- `result.x[v]`, `block.cpp:339–345`. -/
def lastReachable (r : List Bool) : Nat → Nat
  | 0 => 0
  | v + 1 => if r.getD (v + 1) false then v + 1 else lastReachable r v

/-- The largest side of a bin type, `block.cpp:299–307`. -/
def largestSide (inst : Instance) (alongX : Bool) : Int :=
  inst.binTypes.foldl (fun m b => max m (if alongX then b.x else b.y)) 0

/-- `compute_max_reachable_lengths`, `block.cpp:296–347`, read at position `v`. -/
def maxReachable (inst : Instance) (alongX : Bool) (v : Nat) : Nat :=
  lastReachable (reachTable inst alongX (largestSide inst alongX).toNat) v

end PackingSolver.Rect
