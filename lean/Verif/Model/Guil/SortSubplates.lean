import Mathlib.Data.List.Sort
import Verif.Model.Guil.PostProcess

/-!
# Sorting the subplates of a guillotine solution

`src/rectangleguillotine/post_process.cpp:305–588` and
`include/packingsolver/rectangleguillotine/post_process.hpp:75–111`.  Lengths and areas are
unbounded integers, except in the multiplication of two areas, which is modelled on 64-bit words.
-/

namespace PackingSolver.Guil

namespace SortSubplates

/-- `SortSubplatesCriterion`, `post_process.hpp:76–90`. -/
inductive Criterion where
  | length1
  | length2
  | waste
  | density
deriving DecidableEq, Repr

/-- The default criteria, `post_process.hpp:107–111`. -/
def defaultCriteria : List Criterion := [.density, .length2, .length1]

/-- `NodeLengths`, `post_process.cpp:323–329`. -/
structure NodeLengths where
  length1 : Int := 0
  length2 : Int := 0
  waste : Int := 0
  area : Int := 0
deriving DecidableEq, Repr, Inhabited

/-- The loop over the children of a node that is cut, `post_process.cpp:366–372`. -/
def addChild (res : List NodeLengths) (x : NodeLengths) (child : Nat) : NodeLengths :=
  let c := res.getD child default
  { x with
    length1 := max x.length1 c.length2
    length2 := x.length2 + c.length1
    waste := x.waste + c.waste }

/-- The body of the loop of `compute_node_lengths`, `post_process.cpp:349–376`; `res` holds the
entries of the later nodes. -/
def lengthsOf (o : CutOrientation) (res : List NodeLengths) (n : Node) : NodeLengths :=
  let area := (n.r - n.l) * (n.t - n.b)
  if n.itemTypeId ≥ 0 then
    if PostProcess.isVerticalCut o n.d then
      { length1 := n.r - n.l, length2 := n.t - n.b, area := area }
    else { length1 := n.t - n.b, length2 := n.r - n.l, area := area }
  else if n.itemTypeId = -2 then n.children.foldl (addChild res) { area := area }
  else { waste := area, area := area }

/-- `compute_node_lengths`, `post_process.cpp:340–379`. -/
def computeNodeLengths (o : CutOrientation) (nodes : List Node) : List NodeLengths :=
  (List.range nodes.length).reverse.foldl
    (fun res id => res.set id (lengthsOf o res (nodes.getD id default)))
    (List.replicate nodes.length {})

/-- The number of values of a 64-bit word. -/
def word : Nat := 2 ^ 64

/-- `lo32`, `post_process.cpp:390`. -/
def lo32 (x : Nat) : Nat := x % 2 ^ 32

/-- `hi32`, `post_process.cpp:391`. -/
def hi32 (x : Nat) : Nat := x / 2 ^ 32

/-- `mul128`, `post_process.cpp:393–402`, on 64-bit words: the high and the low word.  The operands
of the bitwise or have no common bit, so that it is an addition. -/
def mul128 (x y : Nat) : Nat × Nat :=
  let p00 := lo32 x * lo32 y % word
  let p01 := lo32 x * hi32 y % word
  let p10 := hi32 x * lo32 y % word
  let p11 := hi32 x * hi32 y % word
  let mid := (hi32 p00 + lo32 p01 + lo32 p10) % word
  let lo := lo32 p00 + mid * 2 ^ 32 % word
  let hi := (p11 + hi32 p01 + hi32 p10 + hi32 mid) % word
  (hi, lo)

/-- The conversion of a signed to an unsigned word. -/
def toWord (x : Int) : Nat := (x % (word : Int)).toNat

/-- `mul_less`, `post_process.cpp:388–408`. -/
def mulLess (a b c d : Int) : Bool :=
  let lhs := mul128 (toWord a) (toWord b)
  let rhs := mul128 (toWord c) (toWord d)
  decide (lhs.1 < rhs.1) || (decide (lhs.1 = rhs.1) && decide (lhs.2 < rhs.2))

/-- The comparison in `sort_node_subtrees`, `post_process.cpp:435–462`. -/
def comesBefore : List Criterion → NodeLengths → NodeLengths → Bool
  | [], _, _ => false
  | .length1 :: cs, a, b =>
    if a.length1 ≠ b.length1 then decide (a.length1 > b.length1) else comesBefore cs a b
  | .length2 :: cs, a, b =>
    if a.length2 ≠ b.length2 then decide (a.length2 > b.length2) else comesBefore cs a b
  | .waste :: cs, a, b =>
    if a.waste ≠ b.waste then decide (a.waste < b.waste) else comesBefore cs a b
  | .density :: cs, a, b =>
    if mulLess a.waste b.area b.waste a.area then true
    else if mulLess b.waste a.area a.waste b.area then false
    else comesBefore cs a b

/-- The children of a node according to the fathers, `post_process.cpp:543–549`. -/
def childrenOf (nodes : List Node) (id : Nat) : List Nat :=
  (List.range nodes.length).filter fun j => (nodes.getD j default).f == some id

/-- `content_kids`, `post_process.cpp:426–431`. -/
def contentKids (nodes : List Node) (id : Nat) : List Nat :=
  (childrenOf nodes id).filter fun k =>
    decide ((nodes.getD k default).itemTypeId ≠ -1 ∧ (nodes.getD k default).itemTypeId ≠ -3)

/-- The children of a node after `sort_node_subtrees`, `post_process.cpp:417–469`.  The stable sort
is an insertion sort: for an order there is only one stable result.  Simplification:
the children of every node are sorted.  The code sorts those of the nodes that it reaches from the
first node through nodes with content; in a bin of the solution builder the others have no
children. -/
def sortedKids (nodes : List Node) (lengths : List NodeLengths) (criteria : List Criterion)
    (id : Nat) : List Nat :=
  (contentKids nodes id).insertionSort fun a b =>
    comesBefore criteria (lengths.getD b default) (lengths.getD a default) = false

/-- The loop of `replay_group`, `post_process.cpp:499–523`; `rec` is the recursive call for a node
that begins at a given position. -/
def replayLoop (rec : Nat → Int → Option (List Op)) (nodes : List Node) (v : Bool) (ct depth : Int) :
    List Nat → Int → Option (List Op)
  | [], _ => some []
  | kid :: kids, current =>
    let n := nodes.getD kid default
    let cutPos := current + (if v then n.r - n.l else n.t - n.b)
    match rec kid current, replayLoop rec nodes v ct depth kids (cutPos + ct) with
    | some sub, some rest =>
      some (.addNode depth cutPos
        :: ((if n.itemTypeId ≥ 0 then [.setItem n.itemTypeId.toNat] else []) ++ (sub ++ rest)))
    | _, _ => none

/-- The calls of `replay_group`, `post_process.cpp:484–524`; they do not depend on the builder.
`fuel` is the depth of the call stack. -/
def replayGroup (nodes : List Node) (kids : Nat → List Nat) (o : CutOrientation) (ct : Int) :
    Nat → List Nat → Int → Int → Int → Option (List Op)
  | 0, _, _, _, _ => none
  | fuel + 1, siblings, depth, cutStart, perpStart =>
    replayLoop
      (fun kid current => replayGroup nodes kids o ct fuel (kids kid) (depth + 1) perpStart current)
      nodes (PostProcess.isVerticalCut o depth) ct depth siblings cutStart

/-- `effective_root_id`, `post_process.cpp:555–565`. -/
def effectiveRoot (nodes : List Node) : Nat :=
  ((List.range nodes.length).find? fun id =>
    decide ((nodes.getD id default).d = 0) && (nodes.getD id default).f.isSome).getD 0

/-- The calls for a bin, `post_process.cpp:539–583`.  A bin without nodes or with a father or a
child out of range is undefined behaviour. -/
def binOps (ct : Int) (criteria : List Criterion) (bin : SolutionBin) : Option (List Op) :=
  let nodes := bin.nodes
  let inRange : Nat → Bool := fun i => decide (i < nodes.length)
  if nodes.isEmpty || nodes.any (fun n => !(n.f.toList ++ n.children).all inRange) then none
  else
    let kids := sortedKids nodes (computeNodeLengths bin.firstCutOrientation nodes) criteria
    let root := nodes.getD (effectiveRoot nodes) default
    let cutStart := if bin.firstCutOrientation = .vertical then root.l else root.b
    let perpStart := if bin.firstCutOrientation = .vertical then root.b else root.l
    replayGroup nodes kids bin.firstCutOrientation ct (nodes.length + 1)
      (kids (effectiveRoot nodes)) 1 cutStart perpStart

/-- One iteration of the loop of `sort_subplates`, `post_process.cpp:536–585`. -/
def sortStep (inst : Instance) (criteria : List Criterion) (result : Solution)
    (bin : SolutionBin) : Except Err Solution := do
  match binOps inst.parameters.cutThickness criteria bin with
  | none => .error .ub
  | some ops =>
    let sb ← (SolutionBuilder.new inst).runOrThrow inst
      (.addBin bin.binTypeId 1 bin.firstCutOrientation :: ops)
    let built ← sb.build inst
    result.appendBin inst built 0 bin.copies [] []

end SortSubplates

/-- `sort_subplates`, `post_process.cpp:528–588`. -/
def sortSubplates (inst : Instance) (criteria : List SortSubplates.Criterion) (s : Solution) :
    Except Err Solution :=
  s.bins.foldlM (SortSubplates.sortStep inst criteria) (.init inst)

end PackingSolver.Guil
