import Verif.Model.Guil.Solution

/-!
# Builder of guillotine solutions

Models `src/rectangleguillotine/solution_builder.cpp` (reading a certificate file is not modelled)
and `Solution::append_empty_bin`.  `add_node` may change the builder before it throws, so a call is
modelled as the state it leaves and the exception it throws, if any.
-/

namespace PackingSolver.Guil

/-- State of `SolutionBuilder`, `rectangleguillotine/solution_builder.hpp`: the solution under
construction. -/
structure SolutionBuilder where
  sol : Solution

/-- `SolutionBuilder::SolutionBuilder(const Instance&)`. -/
def SolutionBuilder.new (inst : Instance) : SolutionBuilder := ⟨.init inst⟩

/-! ## `add_bin` -/

/-- A new node without children and without item, e.g. `solution_builder.cpp:154–161`. -/
def childNode (f : Nat) (d l r b t : Int) : Node :=
  { f := some f, d := d, l := l, r := r, b := b, t := t, itemTypeId := -1 }

/-- A trim node, e.g. `solution_builder.cpp:51–61`. -/
def trimNode (l r b t : Int) : Node := childNode 0 (-1) l r b t

/-- `left_trim`, `solution_builder.cpp:39`. -/
def BinType.hardLeft (bt : BinType) : Bool := decide (bt.leftTrimType = .hard ∧ bt.leftTrim > 0)
/-- `right_trim`, `solution_builder.cpp:40`. -/
def BinType.hardRight (bt : BinType) : Bool := decide (bt.rightTrimType = .hard ∧ bt.rightTrim > 0)
/-- `bottom_trim`, `solution_builder.cpp:41`. -/
def BinType.hardBottom (bt : BinType) : Bool :=
  decide (bt.bottomTrimType = .hard ∧ bt.bottomTrim > 0)
/-- `top_trim`, `solution_builder.cpp:42`. -/
def BinType.hardTop (bt : BinType) : Bool := decide (bt.topTrimType = .hard ∧ bt.topTrim > 0)

/-- Left side of the bin after the hard trims, `solution_builder.cpp:157`. -/
def BinType.innerLeft (bt : BinType) : Int := if !bt.hardLeft then 0 else bt.leftTrim
/-- Right side of the bin after the hard trims, `solution_builder.cpp:158`. -/
def BinType.innerRight (bt : BinType) : Int := if !bt.hardRight then bt.w else bt.w - bt.rightTrim
/-- Bottom side of the bin after the hard trims, `solution_builder.cpp:159`. -/
def BinType.innerBottom (bt : BinType) : Int := if !bt.hardBottom then 0 else bt.bottomTrim
/-- Top side of the bin after the hard trims, `solution_builder.cpp:160`. -/
def BinType.innerTop (bt : BinType) : Int := if !bt.hardTop then bt.h else bt.h - bt.topTrim

/-- The trim nodes, `solution_builder.cpp:50–152`, in the order of the code.  The fourth corner
tests the length of the top trim, not whether it is hard. -/
def trimNodes (bt : BinType) : List Node :=
  (if bt.hardLeft && bt.hardBottom then [trimNode 0 bt.leftTrim 0 bt.bottomTrim] else [])
  ++ (if bt.hardLeft && bt.hardTop then [trimNode 0 bt.leftTrim (bt.h - bt.topTrim) bt.h] else [])
  ++ (if bt.hardRight && bt.hardBottom
      then [trimNode (bt.w - bt.rightTrim) bt.w 0 bt.bottomTrim] else [])
  ++ (if bt.hardRight && decide (bt.topTrim ≠ 0)
      then [trimNode (bt.w - bt.rightTrim) bt.w (bt.h - bt.topTrim) bt.h] else [])
  ++ (if bt.hardLeft then [trimNode 0 bt.leftTrim bt.innerBottom bt.innerTop] else [])
  ++ (if bt.hardBottom then [trimNode bt.innerLeft bt.innerRight 0 bt.bottomTrim] else [])
  ++ (if bt.hardRight
      then [trimNode (bt.w - bt.rightTrim) bt.w bt.innerBottom bt.innerTop] else [])
  ++ (if bt.hardTop then [trimNode bt.innerLeft bt.innerRight (bt.h - bt.topTrim) bt.h] else [])

/-- The nodes of a new bin, `solution_builder.cpp:29–164`.  The trims are appended to the children
of the local variable `root` after its copy into `bin.nodes`, so the root of the bin lists no
child. -/
def initialNodes (bt : BinType) (binTypeId : Nat) : List Node :=
  let root : Node :=
    { f := none, d := 0, l := 0, r := bt.w, b := 0, t := bt.h, itemTypeId := binTypeId }
  if bt.hardLeft || bt.hardRight || bt.hardBottom || bt.hardTop then
    [root] ++ trimNodes bt
      ++ [childNode 0 0 bt.innerLeft bt.innerRight bt.innerBottom bt.innerTop]
  else [root]

/-- `SolutionBuilder::add_bin`, `solution_builder.cpp:8–167`. -/
def SolutionBuilder.addBin (inst : Instance) (sb : SolutionBuilder) (binTypeId : Nat)
    (copies : Int) (o : CutOrientation) : SolutionBuilder × Option Err :=
  if binTypeId ≥ inst.numberOfBinTypes then (sb, some .invalidArgument)
  else (⟨{ sb.sol with bins := sb.sol.bins ++ [{
    binTypeId := binTypeId
    copies := copies
    firstCutOrientation := o
    nodes := initialNodes (inst.binType binTypeId) binTypeId }] }⟩, none)

/-! ## `set_last_node_item` -/

/-- The dimensions accepted for an item, `solution_builder.cpp:191–193`. -/
def dimensionsOk (it : ItemType) (n : Node) : Bool :=
  (decide (n.r - n.l = it.w) && decide (n.t - n.b = it.h))
    || (decide (n.r - n.l = it.h) && decide (n.t - n.b = it.w))

/-- Replace the last bin's nodes. -/
def SolutionBuilder.setNodes (sb : SolutionBuilder) (nodes : List Node) : SolutionBuilder :=
  ⟨{ sb.sol with
    bins := sb.sol.bins.modify (sb.sol.bins.length - 1) fun bin => { bin with nodes := nodes } }⟩

/-- `SolutionBuilder::set_last_node_item`, `solution_builder.cpp:169–208`. -/
def SolutionBuilder.setLastNodeItem (inst : Instance) (sb : SolutionBuilder) (itemTypeId : Nat) :
    SolutionBuilder × Option Err :=
  match sb.sol.bins.getLast? with
  | none => (sb, some .logicError)
  | some bin =>
    if itemTypeId ≥ inst.numberOfItemTypes then (sb, some .logicError)
    else
      match bin.nodes.getLast? with
      | none => (sb, some .ub)
      | some node =>
        if !dimensionsOk (inst.itemType itemTypeId) node then (sb, some .logicError)
        else (sb.setNodes (bin.nodes.set (bin.nodes.length - 1)
          { node with itemTypeId := itemTypeId }), none)

/-! ## `add_node` -/

/-- `parent.children.push_back(bin.nodes.size()); bin.nodes.push_back(child);`. -/
def pushChild (nodes : List Node) (id : Nat) (child : Node) : List Node :=
  (nodes.modify id (fun p => { p with children := p.children ++ [nodes.length] })) ++ [child]

/-- "Add a final child to the last node if necessary", `solution_builder.cpp:242–270` and
`477–505`. -/
def closeNode (ct : Int) (nodes : List Node) (id : Nat) : List Node :=
  let parent := nodes.getD id default
  match parent.children.getLast? with
  | none => nodes
  | some c =>
    let brother := nodes.getD c default
    if parent.r > brother.r + ct then
      pushChild nodes id
        (childNode id (parent.d + 1) (brother.r + ct) parent.r parent.b parent.t)
    else if parent.t > brother.t + ct then
      pushChild nodes id
        (childNode id (parent.d + 1) parent.l parent.r (brother.t + ct) parent.t)
    else nodes

/-- The loop of `add_node`, `solution_builder.cpp:240–273`: close nodes up to depth
`depth - 1`.  `none` as parent: the root has been passed (undefined behaviour).  The ids decrease,
so the number of nodes suffices as fuel. -/
def climb (ct depth : Int) : Nat → List Node → Option Nat → List Node × Option Nat
  | _, nodes, none => (nodes, none)
  | 0, nodes, some _ => (nodes, none)
  | fuel + 1, nodes, some id =>
    if (nodes.getD id default).d = depth - 1 then (nodes, some id)
    else
      let nodes := closeNode ct nodes id
      climb ct depth fuel nodes (nodes.getD id default).f

/-- The test of the cut orientation, `solution_builder.cpp:287–290`. -/
def isVerticalAt (o : CutOrientation) (depth : Int) : Bool :=
  (decide (o = .vertical) && decide (depth.tmod 2 = 1))
    || (decide (o = .horizontal) && decide (depth.tmod 2 = 0))

/-- The new child, `solution_builder.cpp:284–337`, and the error if the cut position is
rejected. -/
def newChild (ct depth pos : Int) (o : CutOrientation) (nodes : List Node) (id : Nat) :
    Except Err Node :=
  let parent := nodes.getD id default
  if isVerticalAt o depth then
    let l := match parent.children.getLast? with
      | none => parent.l
      | some c => (nodes.getD c default).r + ct
    if pos ≤ l then .error .logicError
    else if pos > parent.r then .error .logicError
    else .ok (childNode id (parent.d + 1) l pos parent.b parent.t)
  else
    let b := match parent.children.getLast? with
      | none => parent.b
      | some c => (nodes.getD c default).t + ct
    if pos ≤ b then .error .logicError
    else if pos > parent.t then .error .logicError
    else .ok (childNode id (parent.d + 1) parent.l parent.r b pos)

/-- `add_node` on the nodes of the last bin, `solution_builder.cpp:228–341`: the nodes left behind
and the exception thrown, if any. -/
def addNodeTo (ct : Int) (o : CutOrientation) (nodes : List Node) (depth pos : Int) :
    List Node × Option Err :=
  match nodes.getLast? with
  | none => (nodes, some .ub)
  | some last =>
    if depth > last.d + 1 then (nodes, some .logicError)
    else
      match climb ct depth nodes.length nodes (some (nodes.length - 1)) with
      | (nodes, none) => (nodes, some .ub)
      | (nodes, some id) =>
        let parent := nodes.getD id default
        if parent.f.isSome && decide (parent.itemTypeId ≥ 0) then (nodes, some .logicError)
        else
          let nodes := if parent.f.isSome
            then nodes.modify id (fun p => { p with itemTypeId := -2 }) else nodes
          match newChild ct depth pos o nodes id with
          | .error e => (nodes, some e)
          | .ok child => (pushChild nodes id child, none)

/-- `SolutionBuilder::add_node`, `solution_builder.cpp:210–341`. -/
def SolutionBuilder.addNode (inst : Instance) (sb : SolutionBuilder) (depth pos : Int) :
    SolutionBuilder × Option Err :=
  match sb.sol.bins.getLast? with
  | none => (sb, some .logicError)
  | some bin =>
    if depth < 1 then (sb, some .logicError)
    else
      let res := addNodeTo inst.parameters.cutThickness bin.firstCutOrientation bin.nodes depth pos
      (sb.setNodes res.1, res.2)

/-! ## `build` -/

/-- The loop of `build` on one bin, `solution_builder.cpp:474–508`: close every open node.  The ids
decrease, so the number of nodes suffices as fuel. -/
def closeUp (ct : Int) : Nat → List Node → Option Nat → List Node
  | _, nodes, none => nodes
  | 0, nodes, some _ => nodes
  | fuel + 1, nodes, some id =>
    let nodes := closeNode ct nodes id
    closeUp ct fuel nodes (nodes.getD id default).f

/-- All open nodes of a bin closed, `solution_builder.cpp:470–509`. -/
def finishNodes (ct : Int) (nodes : List Node) : List Node :=
  closeUp ct nodes.length nodes (if nodes.length = 0 then none else some (nodes.length - 1))

/-- The residual, `solution_builder.cpp:510–515`. -/
def setResidual (nodes : List Node) : List Node :=
  match nodes.getLast? with
  | none => nodes
  | some node =>
    if node.itemTypeId = -1 ∧ node.d = 1 then
      nodes.set (nodes.length - 1) { node with itemTypeId := -3 }
    else nodes

/-- The bins once finished, `solution_builder.cpp:468–515`. -/
def finishBins (ct : Int) (bins : List SolutionBin) : List SolutionBin :=
  let bins := bins.map fun bin => { bin with nodes := finishNodes ct bin.nodes }
  bins.modify (bins.length - 1) fun bin => { bin with nodes := setResidual bin.nodes }

/-- `SolutionBuilder::build`, `solution_builder.cpp:466–525`. -/
def SolutionBuilder.build (inst : Instance) (sb : SolutionBuilder) : Except Err Solution :=
  let s := { sb.sol with bins := finishBins inst.parameters.cutThickness sb.sol.bins }
  (List.range s.bins.length).foldlM (fun s pos => s.updateIndicators inst pos) s

/-- `Solution::append_empty_bin`, `solution.cpp:524–534`. -/
def Solution.appendEmptyBin (inst : Instance) (s : Solution) (binTypeId : Nat) (copies : Int) :
    Except Err Solution :=
  let o := if inst.parameters.firstStageOrientation ≠ .any
    then inst.parameters.firstStageOrientation else .vertical
  match (SolutionBuilder.new inst).addBin inst binTypeId copies o with
  | (_, some e) => .error e
  | (sb, none) =>
    match sb.build inst with
    | .error e => .error e
    | .ok other => s.appendBins inst other [] []

/-! ## A caller's use of the builder -/

/-- Calls of the builder. -/
inductive Op where
  | addBin (binTypeId : Nat) (copies : Int) (o : CutOrientation)
  | addNode (depth pos : Int)
  | setItem (itemTypeId : Nat)
deriving DecidableEq, Repr

/-- One call: the state it leaves and the exception it throws, if any. -/
def SolutionBuilder.step (inst : Instance) (sb : SolutionBuilder) : Op →
    SolutionBuilder × Option Err
  | .addBin b c o => sb.addBin inst b c o
  | .addNode d p => sb.addNode inst d p
  | .setItem i => sb.setLastNodeItem inst i

/-- The state after a sequence of calls; exceptions are caught by the caller, who goes on with the
builder as the failed call left it. -/
def SolutionBuilder.run (inst : Instance) (ops : List Op) : SolutionBuilder :=
  ops.foldl (fun sb op => (sb.step inst op).1) (SolutionBuilder.new inst)

end PackingSolver.Guil
