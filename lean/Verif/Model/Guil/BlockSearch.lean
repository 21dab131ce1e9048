import Verif.Model.Guil.Hypergraph

/-!
# The block search for one guillotine bin

Models the search of `src/rectangleguillotine/tree_search_hypergraph.cpp`; the solutions it rebuilds
from blocks are in `Verif.Model.Guil.BlockRebuild`.
-/

namespace PackingSolver.Guil

/-! ## Blocks -/

/-- The part of `StateBlock` that tells how it was made: `is_simple`, `item_type_id`, `rotate`,
`parent_1_id`, `parent_2_id`, `tree_search_hypergraph.cpp:141–157`. -/
inductive BlockContent where
  | simple (itemTypeId : Nat) (rotate : Bool)
  | pair (parent1 parent2 : Nat)
deriving DecidableEq, Repr

/-- A sorted sparse list of pairs (item type, number of copies),
`tree_search_hypergraph.cpp:126–130`. -/
abbrev SparseCopies := List (Nat × Int)

/-- `struct StateBlock`, `tree_search_hypergraph.cpp:118–161`. -/
structure Block where
  w : Int
  h : Int
  profit : ℚ
  itemCopies : SparseCopies
  numberOfItems : Int
  firstCutOrientation : CutOrientation
  content : BlockContent
  priority : ℚ
deriving DecidableEq, Repr

instance : Inhabited Block :=
  ⟨{ w := 0, h := 0, profit := 0, itemCopies := [], numberOfItems := 0,
     firstCutOrientation := .vertical, content := .pair 0 0, priority := 0 }⟩

/-- `struct StateBlockKey`, `tree_search_hypergraph.cpp:167–172`; its equality (lines 194–203)
compares all members. -/
structure BlockKey where
  w : Int
  h : Int
  itemCopies : SparseCopies
  firstCutOrientation : CutOrientation
deriving DecidableEq, Repr

/-- `make_key`, `tree_search_hypergraph.cpp:208–211`. -/
def Block.key (b : Block) : BlockKey := ⟨b.w, b.h, b.itemCopies, b.firstCutOrientation⟩

/-- The loop of `merge_item_copies` while the first list starts with `p`; `next` is the loop after
`p`, `tree_search_hypergraph.cpp:253–266`. -/
def mergeFrom (p : Nat × Int) (l1 : SparseCopies) (next : SparseCopies → SparseCopies) :
    SparseCopies → SparseCopies
  | [] => p :: l1
  | q :: l2 =>
    if p.1 < q.1 then p :: next (q :: l2)
    else if p.1 > q.1 then q :: mergeFrom p l1 next l2
    else (p.1, p.2 + q.2) :: next l2

/-- `merge_item_copies`, `tree_search_hypergraph.cpp:246–268`. -/
def mergeCopies : SparseCopies → SparseCopies → SparseCopies
  | [], l2 => l2
  | p :: l1, l2 => mergeFrom p l1 (mergeCopies l1) l2

/-- `copies <= instance.item_type(item_type_id).copies`, `tree_search_hypergraph.cpp:240`. -/
def copiesOk (inst : Instance) (p : Nat × Int) : Bool := decide (p.2 ≤ (inst.itemType p.1).copies)

/-- The loop of `is_valid_item_copies` while the first list starts with `p`; `next` is the loop
after `p`, `tree_search_hypergraph.cpp:224–242`. -/
def validFrom (inst : Instance) (p : Nat × Int) (l1 : SparseCopies) (next : SparseCopies → Bool) :
    SparseCopies → Bool
  | [] => copiesOk inst p && l1.all (copiesOk inst)
  | q :: l2 =>
    if p.1 < q.1 then copiesOk inst p && next (q :: l2)
    else if p.1 > q.1 then copiesOk inst q && validFrom inst p l1 next l2
    else copiesOk inst (p.1, p.2 + q.2) && next l2

/-- `is_valid_item_copies`, `tree_search_hypergraph.cpp:217–244`. -/
def validCopies (inst : Instance) : SparseCopies → SparseCopies → Bool
  | [], l2 => l2.all (copiesOk inst)
  | p :: l1, l2 => validFrom inst p l1 (validCopies inst l1) l2

/-! ## The search -/

/-- The bucket queue, `tree_search_hypergraph.cpp:448–463` and `522`: the number of buckets,
`bucket_index` and `bucket_threshold`.  The code uses logarithms of doubles; see
`codeBucketing`. -/
structure Bucketing where
  count : Nat
  index : ℚ → Nat
  threshold : Nat → ℚ

/-- What the search needs of the instance, `tree_search_hypergraph.cpp:435–463`. -/
structure HyperContext where
  inst : Instance
  effW : Int
  effH : Int
  t : Int
  rdp : List (WithBot ℚ)
  bk : Bucketing
  /-- The answers of `parameters.timer.needs_to_end()`, in the order of the calls. -/
  timer : Nat → Bool

/-- The variables of the search, `tree_search_hypergraph.cpp:465–469`.  A bucket is a stack whose
top is the head of the list.  `reported` are the blocks for which a solution is rebuilt and handed
to `update_solution`, in order (simplification: `reconstructSolution` is a function of its own);
`ticks` counts the calls of the timer. -/
structure Search where
  buckets : List (List Block)
  seen : List BlockKey := []
  returned : List Block := []
  best : ℚ := 0
  reported : List Block := []
  ticks : Nat := 0
deriving DecidableEq, Repr

/-- Lines 503–509 (also 589–595 and 610–616): a block of larger profit than any before is
reported. -/
def Search.report (s : Search) (b : Block) : Search :=
  if b.profit > s.best then { s with best := b.profit, reported := s.reported ++ [b] } else s

/-- `blocks_to_process[bucket_index(priority)].push_back(block)`. -/
def Search.push (bk : Bucketing) (s : Search) (b : Block) : Search :=
  { s with buckets := s.buckets.modify (bk.index b.priority) (b :: ·) }

/-- The seed block of an item type, `tree_search_hypergraph.cpp:492–501`. -/
def seedBlock (it : ItemType) (id : Nat) (rotate : Bool) (priority : ℚ) : Block :=
  { w := if rotate then it.h else it.w
    h := if rotate then it.w else it.h
    profit := it.profit
    itemCopies := [(id, 1)]
    numberOfItems := 1
    firstCutOrientation := .vertical
    content := .simple id rotate
    priority := priority }

/-- One rotation of one item type, `tree_search_hypergraph.cpp:478–514`. -/
def seedRotation (c : HyperContext) (id : Nat) (rotate : Bool) (s : Search) : Except Err Search :=
  let it := c.inst.itemType id
  if rotate ∧ it.oriented then .ok s
  else if rotate ∧ it.w = it.h then .ok s
  else
    let w := if rotate then it.h else it.w
    let h := if rotate then it.w else it.h
    if w > c.effW ∨ h > c.effH then .ok s
    else do
      let r ← tableRead c.rdp c.effW w h
      match r with
      | none => .ok s
      | some v =>
        let priority := it.profit + v
        if priority ≤ s.best then .ok s
        else
          let block := seedBlock it id rotate priority
          let s := s.report block
          .ok (if block.priority > s.best then s.push c.bk block else s)

/-- One item type, `tree_search_hypergraph.cpp:475–514`. -/
def seedItem (c : HyperContext) (s : Search) (id : Nat) : Except Err Search :=
  if (c.inst.itemType id).copies < 1 then .ok s
  else do
    let s ← seedRotation c id false s
    seedRotation c id true s

/-- The seed loop, `tree_search_hypergraph.cpp:472–515`. -/
def seedAll (c : HyperContext) (s : Search) : Except Err Search :=
  (List.range c.inst.numberOfItemTypes).foldlM (seedItem c) s

/-- The priority of a combination, `tree_search_hypergraph.cpp:558–563`. -/
def combinedPriority (c : HyperContext) (profit : ℚ) (w h : Int) : Except Err (WithBot ℚ) :=
  if w ≤ c.effW ∧ h ≤ c.effH then do
    let r ← tableRead c.rdp c.effW w h
    .ok ((profit : WithBot ℚ) + r)
  else .ok ((-1 : ℚ) : WithBot ℚ)

/-- Lines 579–598, and 600–619: a combination of good enough priority is reported and queued. -/
def addCombined (c : HyperContext) (s : Search) (mk : ℚ → Block) : WithBot ℚ → Search
  | none => s
  | some p => if p > s.best then (s.report (mk p)).push c.bk (mk p) else s

/-- The combination of the blocks at positions `i` and `j`, cut vertically,
`tree_search_hypergraph.cpp:580–588`. -/
def verticalBlock (t : Int) (b e : Block) (i j : Nat) (p : ℚ) : Block :=
  { w := b.w + e.w + t
    h := max b.h e.h
    profit := b.profit + e.profit
    itemCopies := mergeCopies b.itemCopies e.itemCopies
    numberOfItems := b.numberOfItems + e.numberOfItems
    firstCutOrientation := .vertical
    content := .pair i j
    priority := p }

/-- The combination of the blocks at positions `i` and `j`, cut horizontally,
`tree_search_hypergraph.cpp:601–609`. -/
def horizontalBlock (t : Int) (b e : Block) (i j : Nat) (p : ℚ) : Block :=
  { w := max b.w e.w
    h := b.h + e.h + t
    profit := b.profit + e.profit
    itemCopies := mergeCopies b.itemCopies e.itemCopies
    numberOfItems := b.numberOfItems + e.numberOfItems
    firstCutOrientation := .horizontal
    content := .pair i j
    priority := p }

/-- The body of the loop over existing blocks, `tree_search_hypergraph.cpp:547–619`; `b` is the
block just returned, at position `i`. -/
def combineWith (c : HyperContext) (b : Block) (i : Nat) (s : Search) (j : Nat) :
    Except Err Search :=
  let e := s.returned.getD j default
  let profit := b.profit + e.profit
  do
    let pv ← combinedPriority c profit (b.w + e.w + c.t) (max b.h e.h)
    let ph ← combinedPriority c profit (max b.w e.w) (b.h + e.h + c.t)
    if pv ≤ (s.best : WithBot ℚ) ∧ ph ≤ (s.best : WithBot ℚ) then .ok s
    else if validCopies c.inst b.itemCopies e.itemCopies = false then .ok s
    else
      let s := addCombined c s (verticalBlock c.t b e i j) pv
      .ok (addCombined c s (horizontalBlock c.t b e i j) ph)

/-- `blocks_to_process[k].pop_back()`. -/
def Search.pop (s : Search) (k : Nat) : Search :=
  { s with buckets := s.buckets.modify k List.tail }

/-- A call of the timer. -/
def Search.tick (s : Search) : Search := { s with ticks := s.ticks + 1 }

/-- Lines 541–544: the block is marked as seen and returned. -/
def Search.accept (s : Search) (b : Block) : Search :=
  { s with seen := b.key :: s.seen, returned := s.returned ++ [b] }

/-- The loop over one bucket, `tree_search_hypergraph.cpp:526–621`.  `fuel` bounds the number of
iterations; `none` when it does not suffice. -/
def processBucket (c : HyperContext) (k : Nat) : Nat → Search → Except Err (Option Search)
  | 0, _ => .ok none
  | fuel + 1, s =>
    match s.buckets.getD k [] with
    | [] => .ok (some s)
    | b :: _ =>
      if c.timer s.ticks then .ok (some s.tick)
      else if c.bk.threshold k ≤ s.best then .ok (some s.tick)
      else
        let s := s.tick.pop k
        if b.priority ≤ s.best then processBucket c k fuel s
        else if b.key ∈ s.seen then processBucket c k fuel s
        else do
          let s' ← (List.range (s.returned.length + 1)).foldlM
            (combineWith c b s.returned.length) (s.accept b)
          processBucket c k fuel s'

/-- The loop over buckets, `tree_search_hypergraph.cpp:519–622`. -/
def processBuckets (c : HyperContext) (fuel : Nat) : List Nat → Search → Except Err (Option Search)
  | [], s => .ok (some s)
  | k :: ks, s =>
    if c.timer s.ticks then .ok (some s.tick)
    else if c.bk.threshold k ≤ s.best then .ok (some s.tick)
    else do
      match ← processBucket c k fuel s.tick with
      | none => .ok none
      | some s => processBuckets c fuel ks s

/-- `init_bound`, `tree_search_hypergraph.cpp:452`. -/
def initBound (dp : List ℚ) (effW effH : Int) : Except Err ℚ := tableRead dp effW effW effH

/-- The seed loop and the main loop, `tree_search_hypergraph.cpp:465–622`. -/
def runSearch (c : HyperContext) (fuel : Nat) : Except Err (Option Search) := do
  let s ← seedAll c { buckets := List.replicate c.bk.count [] }
  processBuckets c fuel (List.range c.bk.count) s

/-- `tree_search_hypergraph`, `tree_search_hypergraph.cpp:426–626`: the state of the search when
it stops.  `bk` gives the bucket queue for an initial bound, `timer` the answers of the timer. -/
def treeSearchHypergraph (inst : Instance) (bk : ℚ → Bucketing) (timer : Nat → Bool)
    (fuel : Nat) : Except Err (Option Search) :=
  match inst.binTypes with
  | [] => .error .ub
  | bt :: _ => do
    let effW := effWidth bt
    let effH := effHeight bt
    let t := inst.parameters.cutThickness
    let dp ← computeDp inst
    let rdp ← computeRdp dp effW effH t
    let bound ← initBound dp effW effH
    runSearch ⟨inst, effW, effH, t, rdp, bk bound, timer⟩ fuel

end PackingSolver.Guil
