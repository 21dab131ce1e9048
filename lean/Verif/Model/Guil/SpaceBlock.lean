import Verif.Model.Guil.Instance
import Verif.Model.Rect.Block

/-!
# Blocks of the search over unused rectangles

Models `src/rectangleguillotine/block.hpp` and `src/rectangleguillotine/block.cpp`: the blocks of
items that `tree_search_maximal_spaces` places.

Simplifications: the hash set of keys is a list; `efficiency()` and `fill_rate()` are exact
fractions; `maximum_number_of_blocks` is not negative (the code only uses the default, 10000); the
member `weight`, which is never written, is left out.
-/

namespace PackingSolver.Guil

/-- `ItemType::width(rotate)`, `rectangleguillotine/instance.hpp:324`. -/
def ItemType.widthOf (it : ItemType) (rotate : Bool) : Int := if rotate then it.h else it.w

/-- `ItemType::height(rotate)`, `rectangleguillotine/instance.hpp:327`. -/
def ItemType.heightOf (it : ItemType) (rotate : Bool) : Int := if rotate then it.w else it.h

namespace Spaces

/-- `struct Block`, `block.hpp:21–67`; `none` stands for the id `-1`. -/
structure Block where
  w : Int
  h : Int
  itemArea : Int
  itemProfit : ℚ
  numberOfItems : Int
  /-- Item type ids with their numbers of copies, by increasing id. -/
  itemCopies : List (Nat × Int)
  isSimple : Bool := false
  itemTypeId : Option Nat := none
  rotate : Bool := false
  cutIsVertical : Bool := false
  child1 : Option Nat := none
  child2 : Option Nat := none
deriving DecidableEq, Repr

instance : Inhabited Block := ⟨{ w := 0, h := 0, itemArea := 0, itemProfit := 0, numberOfItems := 0, itemCopies := [] }⟩

namespace Block

/-- `fill_rate()`, `block.hpp:54–59`. -/
def fillRate (b : Block) : ℚ :=
  if b.w > 0 ∧ b.h > 0 then (b.itemArea : ℚ) / ((b.w * b.h : Int) : ℚ) else 0

/-- `efficiency()`, `block.hpp:61–66`. -/
def efficiency (b : Block) : ℚ :=
  if b.w > 0 ∧ b.h > 0 then b.itemProfit / ((b.w * b.h : Int) : ℚ) else 0

/-- `BlockKey`, `block.cpp:15–20`. -/
abbrev Key := (Int × Int) × List (Nat × Int)

/-- `make_key`, `block.cpp:51–54`. -/
def key (b : Block) : Key := ((b.w, b.h), b.itemCopies)

/-- `merge_item_copies`, `block.cpp:83–107`; the same code as in `src/rectangle/block.cpp`. -/
def mergeCopies (as bs : List (Nat × Int)) : List (Nat × Int) := Rect.Block.mergeCopies as bs

/-- `is_valid_item_copies`, `block.cpp:56–81`: it computes the same merged list. -/
def validCopies (inst : Instance) (as bs : List (Nat × Int)) : Bool :=
  (mergeCopies as bs).all fun p => !decide (p.2 > (inst.itemType p.1).copies)

/-- `BlockFillRateLess`, `block.cpp:109–122`. -/
def less (a b : Block) : Bool :=
  if a.numberOfItems = 1 ∧ b.numberOfItems ≠ 1 then false
  else if a.numberOfItems ≠ 1 ∧ b.numberOfItems = 1 then true
  else if a.efficiency ≠ b.efficiency then decide (a.efficiency < b.efficiency)
  else decide (a.numberOfItems > b.numberOfItems)

/-- A grid of `cx × cy` copies of an item, `block.cpp:167–177`. -/
def simple (inst : Instance) (i : Nat) (rotate : Bool) (cx cy : Nat) : Block :=
  let it := inst.itemType i
  let t := inst.parameters.cutThickness
  { isSimple := true
    itemTypeId := some i
    rotate := rotate
    w := cx * it.widthOf rotate + (cx - 1) * t
    h := cy * it.heightOf rotate + (cy - 1) * t
    itemArea := cx * cy * it.area
    itemProfit := ((cx * cy : Int) : ℚ) * it.profit
    itemCopies := [(i, cx * cy)]
    numberOfItems := cx * cy }

/-- The divisions of `block.cpp:161,165` have a divisor other than zero (otherwise the behaviour is
undefined). -/
def divides (inst : Instance) (bt : BinType) : Bool :=
  let t := inst.parameters.cutThickness
  (List.range inst.numberOfItemTypes).all fun i =>
    let it := inst.itemType i
    decide (it.copies < 1) || (if it.oriented then [false] else [false, true]).all fun rotate =>
      decide (it.widthOf rotate + t ≠ 0)
      && (decide (min it.copies ((bt.w + t).tdiv (it.widthOf rotate + t)) < 1)
        || decide (it.heightOf rotate + t ≠ 0))

/-- The grids of a single item type, in the order in which they are generated,
`block.cpp:148–186`. -/
def simpleBlocks (inst : Instance) (bt : BinType) : List Block :=
  let t := inst.parameters.cutThickness
  (List.range inst.numberOfItemTypes).flatMap fun i =>
    let it := inst.itemType i
    if it.copies < 1 then []
    else (if it.oriented then [false] else [false, true]).flatMap fun rotate =>
      let maxX := min it.copies ((bt.w + t).tdiv (it.widthOf rotate + t))
      (List.range' 1 maxX.toNat).flatMap fun (cx : Nat) =>
        let maxY := min (it.copies.tdiv cx) ((bt.h + t).tdiv (it.heightOf rotate + t))
        (List.range' 1 maxY.toNat).map fun (cy : Nat) => simple inst i rotate cx cy

/-- `blocks_to_process`, by increasing `BlockFillRateLess`, and `seen`. -/
structure Queue where
  blocks : List Block := []
  seen : List Key := []

/-- `std::multiset::insert`: after the elements that are not greater. -/
def insertSorted (b : Block) : List Block → List Block
  | [] => [b]
  | c :: l => if less b c then b :: c :: l else c :: insertSorted b l

/-- `enqueue`, `block.cpp:138–146`. -/
def Queue.enqueue (maximum : Nat) (q : Queue) (b : Block) : Queue :=
  let blocks := insertSorted b q.blocks
  if blocks.length > maximum then
    { blocks := blocks.tail, seen := q.seen.filter (fun k => k ≠ (blocks.headD default).key) }
  else { q with blocks := blocks }

/-- The insertion of a grid, `block.cpp:178–182`. -/
def Queue.addSimple (maximum : Nat) (q : Queue) (b : Block) : Queue :=
  if b.key ∈ q.seen then q
  else ({ q with seen := b.key :: q.seen } : Queue).enqueue maximum b

/-- The two blocks with ids `i` and `j` on the two sides of a cut, `block.cpp:215–247`. -/
def combine (t : Int) (a b : Block) (i j : Nat) (vertical : Bool) : Block :=
  { w := if vertical then a.w + b.w + t else max a.w b.w
    h := if vertical then max a.h b.h else a.h + b.h + t
    itemArea := a.itemArea + b.itemArea
    itemProfit := a.itemProfit + b.itemProfit
    numberOfItems := a.numberOfItems + b.numberOfItems
    itemCopies := mergeCopies a.itemCopies b.itemCopies
    cutIsVertical := vertical
    child1 := some i
    child2 := some j }

/-- One combination of the block that will get the id `i` with the returned block of id `j`,
`block.cpp:209–249`; the test of line 209 does not depend on the direction. -/
def Queue.tryCombine (inst : Instance) (bt : BinType) (maximum : Nat) (block existing : Block)
    (i j : Nat) (q : Queue) (vertical : Bool) : Queue :=
  let c := combine inst.parameters.cutThickness block existing i j vertical
  if block.isSimple && existing.isSimple && decide (block.itemTypeId = existing.itemTypeId)
      && decide (block.rotate = existing.rotate) then q
  else if c.w > bt.w ∨ c.h > bt.h then q
  else if q.blocks.length ≥ maximum ∧ !less (q.blocks.headD default) c then q
  else if !validCopies inst block.itemCopies existing.itemCopies then q
  else if c.key ∈ q.seen then q
  else ({ q with seen := c.key :: q.seen } : Queue).enqueue maximum c

/-- The loop over the returned blocks, `block.cpp:205–251`, from the one of id `j`. -/
def Queue.combineAll (inst : Instance) (bt : BinType) (maximum : Nat) (block : Block) (i : Nat) :
    Nat → Queue → List Block → Queue
  | _, q, [] => q
  | j, q, e :: returned =>
    combineAll inst bt maximum block i (j + 1)
      ([true, false].foldl (Queue.tryCombine inst bt maximum block e i j) q) returned

/-- The main loop, `block.cpp:188–254`; `none` if it does not end within the given number of
iterations. -/
def mainLoop (inst : Instance) (bt : BinType) (maximum : Nat) :
    Nat → Queue → List Block → Option (List Block)
  | 0, _, _ => none
  | n + 1, q, returned =>
    match q.blocks.getLast? with
    | none => some returned
    | some block =>
      if returned.length ≥ maximum then some returned
      else
        let q : Queue := { q with blocks := q.blocks.dropLast }
        if inst.numberOfItemTypes ≤ 3 ∧ block.fillRate ≠ 1 then mainLoop inst bt maximum n q returned
        else mainLoop inst bt maximum n
          (q.combineAll inst bt maximum block returned.length 0 returned) (returned ++ [block])

/-- `compute_blocks_for_bin`, `block.cpp:124–257`; the number of iterations of the main loop is at
most the one given here (proved), so that the last error does not occur. -/
def computeBlocks (inst : Instance) (bt : BinType) (maximum : Nat) : Except Err (List Block) :=
  if !divides inst bt then .error .ub
  else
    let q := (simpleBlocks inst bt).foldl (Queue.addSimple maximum) {}
    match mainLoop inst bt maximum (q.blocks.length + maximum * maximum + 1) q [] with
    | some l => .ok l
    | none => .error .runtimeError

end Block

end Spaces

end PackingSolver.Guil
