import Verif.Model.Box.Builder
import Verif.Model.Box.Solution
import Verif.Model.Rect.Block

/-!
# Blocks of boxes

Models `src/box/block.hpp` and `src/box/block.cpp`: the blocks of items the tree search over maximal
spaces places, and the lengths reachable by putting items side by side.

Simplifications: the hash set of keys is a list; `efficiency()` and `fill_rate()` are exact
fractions; `maximum_number_of_blocks` is not negative (the code only uses the default, 10000).
`merge_item_copies` and the loops over one table of reachable lengths have the same text as in
`src/rectangle/block.cpp`: their models are shared.
-/

namespace PackingSolver.Box

/-- `Direction::X`, `Direction::Y`, `Direction::Z`, the three directions of the loop of
`block.cpp:268`. -/
inductive Axis where
  | x | y | z
deriving DecidableEq, Repr

/-- The side of a box along an axis. -/
def Dims.along (d : Dims) : Axis → Int
  | .x => d.x
  | .y => d.y
  | .z => d.z

/-- `struct Block`, `block.hpp:19–57`. -/
structure Block where
  box : Dims
  itemVolume : Int
  itemProfit : ℚ
  weight : ℚ
  isSimple : Bool := false
  itemTypeId : Option Nat := none
  /-- Not set, and not read, if the block is not simple. -/
  rotation : Option Rotation := none
  /-- Item type ids with their numbers of copies, by increasing id. -/
  itemCopies : List (Nat × Int)
  /-- Positions are relative to the corner of the block. -/
  items : List PlacedItem
  numberOfItems : Int
deriving DecidableEq, Repr

instance : Inhabited Block := ⟨⟨⟨0, 0, 0⟩, 0, 0, 0, false, none, none, [], [], 0⟩⟩

namespace Block

/-- `fill_rate()`, `block.hpp:54`. -/
def fillRate (b : Block) : ℚ := (b.itemVolume : ℚ) / b.box.volume

/-- `efficiency()`, `block.hpp:56`. -/
def efficiency (b : Block) : ℚ := b.itemProfit / b.box.volume

/-- `BlockKey`, `block.cpp:32–64`. -/
abbrev Key := Dims × List (Nat × Int)

/-- `make_key`, `block.cpp:67–70`. -/
def key (b : Block) : Key := (b.box, b.itemCopies)

/-- `merge_item_copies`, `block.cpp:99–130`: the same text as in `rectangle/block.cpp:98–123`. -/
def mergeCopies (as bs : List (Nat × Int)) : List (Nat × Int) := Rect.Block.mergeCopies as bs

/-- `is_valid_item_copies`, `block.cpp:72–97`: it computes the same merged list. -/
def validCopies (inst : Instance) (as bs : List (Nat × Int)) : Bool :=
  (mergeCopies as bs).all fun p => !decide (p.2 > (inst.itemType p.1).copies)

/-- `BlockFillRateLess`, `block.cpp:138–151`. -/
def less (a b : Block) : Bool :=
  if a.numberOfItems = 1 ∧ b.numberOfItems ≠ 1 then false
  else if a.numberOfItems ≠ 1 ∧ b.numberOfItems = 1 then true
  else if a.efficiency ≠ b.efficiency then decide (a.efficiency < b.efficiency)
  else decide (a.numberOfItems > b.numberOfItems)

/-- A block of `cx × cy × cz` copies of an item, `block.cpp:201–225`. -/
def simple (inst : Instance) (i : Nat) (r : Rotation) (cx cy cz : Nat) : Block :=
  let it := inst.itemType i
  let d := it.box.rotate r
  { isSimple := true
    itemTypeId := some i
    rotation := some r
    box := { x := cx * d.x, y := cy * d.y, z := cz * d.z }
    itemVolume := cx * cy * cz * it.volume
    itemProfit := ((cx * cy * cz : Int) : ℚ) * it.profit
    weight := ((cx * cy * cz : Int) : ℚ) * it.weight
    itemCopies := [(i, cx * cy * cz)]
    numberOfItems := cx * cy * cz
    items := (List.range cx).flatMap fun (a : Nat) => (List.range cy).flatMap fun (b : Nat) =>
      (List.range cz).map fun (c : Nat) => ⟨i, a * d.x, b * d.y, c * d.z, r⟩ }

/-- The divisions of `block.cpp:191,195,199` have a divisor other than zero (otherwise the behaviour
is undefined): those of the inner loops are reached for some numbers of copies exactly if they are
for one copy along each of the outer axes. -/
def divides (inst : Instance) (bt : BinType) : Bool :=
  (List.range inst.numberOfItemTypes).all fun i =>
    let it := inst.itemType i
    decide (it.copies < 1) || it.rotations.all fun r =>
      let d := it.box.rotate r
      decide (d.x ≠ 0)
      && (decide (min it.copies (bt.box.x.tdiv d.x) < 1)
        || (decide (d.y ≠ 0)
          && (decide (min it.copies (bt.box.y.tdiv d.y) < 1) || decide (d.z ≠ 0))))

/-- The blocks of copies of a single item type, in the order in which they are generated,
`block.cpp:180–200`. -/
def simpleBlocks (inst : Instance) (bt : BinType) : List Block :=
  (List.range inst.numberOfItemTypes).flatMap fun i =>
    let it := inst.itemType i
    if it.copies < 1 then []
    else it.rotations.flatMap fun r =>
      let d := it.box.rotate r
      let maxX := min it.copies (bt.box.x.tdiv d.x)
      (List.range' 1 maxX.toNat).flatMap fun (cx : Nat) =>
        let maxY := min (it.copies.tdiv cx) (bt.box.y.tdiv d.y)
        (List.range' 1 maxY.toNat).flatMap fun (cy : Nat) =>
          let maxZ := min (it.copies.tdiv (cx * cy)) (bt.box.z.tdiv d.z)
          (List.range' 1 maxZ.toNat).map fun (cz : Nat) => simple inst i r cx cy cz

/-- `blocks_to_process`, by increasing `BlockFillRateLess`, and `seen`. -/
structure Queue where
  blocks : List Block := []
  seen : List Key := []

/-- `std::multiset::insert`: after the elements that are not greater. -/
def insertSorted (b : Block) : List Block → List Block
  | [] => [b]
  | c :: l => if less b c then b :: c :: l else c :: insertSorted b l

/-- `enqueue`, `block.cpp:170–178`. -/
def Queue.enqueue (maximum : Nat) (q : Queue) (b : Block) : Queue :=
  let blocks := insertSorted b q.blocks
  if blocks.length > maximum then
    { blocks := blocks.tail, seen := q.seen.filter (fun k => k ≠ (blocks.headD default).key) }
  else { q with blocks := blocks }

/-- The insertion of a simple block, `block.cpp:226–230`. -/
def Queue.addSimple (maximum : Nat) (q : Queue) (b : Block) : Queue :=
  if b.key ∈ q.seen then q
  else ({ q with seen := b.key :: q.seen } : Queue).enqueue maximum b

/-- The item of the second block, moved beyond the first one, `block.cpp:317–323`. -/
def shiftItem (a : Dims) (d : Axis) (p : PlacedItem) : PlacedItem :=
  match d with
  | .x => { p with x := p.x + a.x }
  | .y => { p with y := p.y + a.y }
  | .z => { p with z := p.z + a.z }

/-- The box of two blocks put one after the other along an axis, `block.cpp:273–290`. -/
def combineBox (a b : Dims) : Axis → Dims
  | .x => { x := a.x + b.x, y := max a.y b.y, z := max a.z b.z }
  | .y => { x := max a.x b.x, y := a.y + b.y, z := max a.z b.z }
  | .z => { x := max a.x b.x, y := max a.y b.y, z := a.z + b.z }

/-- Two blocks put one after the other along an axis, `block.cpp:269–325`. -/
def combine (a b : Block) (d : Axis) : Block :=
  { box := combineBox a.box b.box d
    itemVolume := a.itemVolume + b.itemVolume
    itemProfit := a.itemProfit + b.itemProfit
    weight := a.weight + b.weight
    numberOfItems := a.numberOfItems + b.numberOfItems
    itemCopies := mergeCopies a.itemCopies b.itemCopies
    items := a.items ++ b.items.map (shiftItem a.box d) }

/-- One combination of a block with a returned block, `block.cpp:264–327`; the test of line 264 does
not depend on the direction. -/
def Queue.tryCombine (inst : Instance) (bt : BinType) (maximum : Nat) (block existing : Block)
    (q : Queue) (d : Axis) : Queue :=
  let c := combine block existing d
  if block.isSimple && existing.isSimple && decide (block.itemTypeId = existing.itemTypeId)
      && decide (block.rotation = existing.rotation) then q
  else if c.box.x > bt.box.x ∨ c.box.y > bt.box.y ∨ c.box.z > bt.box.z then q
  else if q.blocks.length ≥ maximum ∧ !less (q.blocks.headD default) c then q
  else if !validCopies inst block.itemCopies existing.itemCopies then q
  else if c.key ∈ q.seen then q
  else ({ q with seen := c.key :: q.seen } : Queue).enqueue maximum c

/-- The loop over the returned blocks, `block.cpp:263–329`. -/
def Queue.combineAll (inst : Instance) (bt : BinType) (maximum : Nat) (block : Block) (q : Queue)
    (returned : List Block) : Queue :=
  returned.foldl
    (fun q e => [Axis.x, .y, .z].foldl (Queue.tryCombine inst bt maximum block e) q) q

/-- The main loop, `block.cpp:240–332`; `none` if it does not end within the given number of
iterations. -/
def mainLoop (inst : Instance) (bt : BinType) (maximum : Nat) :
    Nat → Queue → List Block → Option (List Block)
  | 0, _, _ => none
  | n + 1, q, returned =>
    match q.blocks.getLast? with
    | none => some returned
    | some block =>
      if returned.length ≥ maximum then some returned
      else
        let q : Queue := { q with blocks := q.blocks.dropLast }
        if inst.numberOfItemTypes ≤ 3 ∧ block.fillRate ≠ 1 then mainLoop inst bt maximum n q returned
        else mainLoop inst bt maximum n (q.combineAll inst bt maximum block returned)
          (returned ++ [block])

/-- `compute_blocks_for_bin`, `block.cpp:153–335`; the number of iterations of the main loop is at
most the one given here (proved), so that the last error does not occur. -/
def computeBlocks (inst : Instance) (binTypeId : Nat) (maximum : Nat) : Except Err (List Block) :=
  let bt := inst.binType binTypeId
  if !divides inst bt then .error .ub
  else
    let q := (simpleBlocks inst bt).foldl (Queue.addSimple maximum) {}
    match mainLoop inst bt maximum (q.blocks.length + 2 * (maximum * maximum) + 1) q [] with
    | some l => .ok l
    | none => .error .runtimeError

end Block

/-! ## Reachable lengths -/

/-- `reachable_x`, `reachable_y` or `reachable_z`, `block.cpp:358–390`: which totals up to `max` are
attained.  The step for one item type has the same text, for each axis, as in
`rectangle/block.cpp:320–336`. -/
def reachTable (inst : Instance) (d : Axis) (max : Nat) : List Bool :=
  inst.itemTypes.foldl (fun r t => Rect.reachItem r t.copies
    (t.rotations.map fun rot => (t.box.rotate rot).along d))
    (true :: List.replicate max false)

/-- The largest side of a bin type, `block.cpp:346–356`. -/
def largestSide (inst : Instance) (d : Axis) : Int :=
  inst.binTypes.foldl (fun m b => max m (b.box.along d)) 0

/-- `compute_max_reachable_lengths`, `block.cpp:343–403`, read at position `v`; the last loop has the
same text as in `rectangle/block.cpp:339–345`. -/
def maxReachable (inst : Instance) (d : Axis) (v : Nat) : Nat :=
  Rect.lastReachable (reachTable inst d (largestSide inst d).toNat) v

end PackingSolver.Box
