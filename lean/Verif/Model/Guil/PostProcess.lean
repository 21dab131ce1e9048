import Verif.Model.Guil.BlockRebuild

/-!
# Guillotine solutions from the places of their items

Models `build_guillotine_solutions`, `build_guillotine_solution` and `minimize_number_of_stages` of
`src/rectangleguillotine/post_process.cpp`.
-/

namespace PackingSolver.Guil

/-- `struct ItemPlacement`, `post_process.hpp:29–33`. -/
structure ItemPlacement where
  itemTypeId : Nat
  l : Int
  r : Int
  b : Int
  t : Int
deriving DecidableEq, Repr

namespace PostProcess

/-- `item_start`, `post_process.cpp:71`. -/
def itemStart (v : Bool) (p : ItemPlacement) : Int := if v then p.l else p.b

/-- `item_end`, `post_process.cpp:72`. -/
def itemEnd (v : Bool) (p : ItemPlacement) : Int := if v then p.r else p.t

/-- `struct CutGroup`, `post_process.cpp:31–35`. -/
structure CutGroup where
  cutPosition : Int
  items : List ItemPlacement
deriving DecidableEq, Repr

/-- The comparator of the two calls of `std::sort`, `post_process.cpp:54–64`. -/
def startsBefore (v : Bool) (p q : ItemPlacement) : Bool := decide (itemStart v p < itemStart v q)

/-- One iteration of the loop of `find_groups`, `post_process.cpp:70–87`: the finished groups and
the current one. -/
def groupStep (v : Bool) (ct : Int) (st : List CutGroup × CutGroup) (item : ItemPlacement) :
    List CutGroup × CutGroup :=
  if st.2.cutPosition < 0 then (st.1, ⟨itemEnd v item, st.2.items ++ [item]⟩)
  else if itemStart v item ≥ st.2.cutPosition + ct then
    (st.1 ++ [st.2], ⟨itemEnd v item, [item]⟩)
  else
    (st.1, ⟨if itemEnd v item > st.2.cutPosition then itemEnd v item else st.2.cutPosition,
      st.2.items ++ [item]⟩)

/-- `find_groups`, `post_process.cpp:48–93`.  `σ` is what `std::sort` does. -/
def findGroups (σ : Bool → List ItemPlacement → List ItemPlacement) (items : List ItemPlacement)
    (v : Bool) (ct : Int) : List CutGroup :=
  let st := (σ v items).foldl (groupStep v ct) ([], ⟨-1, []⟩)
  if st.2.items.isEmpty then st.1 else st.1 ++ [st.2]

/-- The calls of the solution builder that a recursion makes, and whether it ended: a recursion that
is too deep does not. -/
structure Calls where
  ops : List Op
  ended : Bool
deriving DecidableEq, Repr

/-- Where a group starts: `group_start`, `post_process.cpp:146–147`; a group is never empty. -/
def groupStart (v : Bool) (g : CutGroup) : Int :=
  match g.items.head? with
  | some item => itemStart v item
  | none => 0

/-- The loop over the groups in `build_region`, `post_process.cpp:140–172`; `rec` is the recursive
call, `prev` is `prev_pos`. -/
def groupsOps (rec : Int → Int → Int → Int → List ItemPlacement → Calls) (v : Bool) (ct : Int)
    (l r b t depth : Int) : List CutGroup → Int → Calls
  | [], _ => ⟨[], true⟩
  | g :: gs, prev =>
    let start := groupStart v g
    let gap := decide (start - ct > prev)
    let prev' := if gap then start else prev
    let head := (if gap then [Op.addNode depth (start - ct)] else [])
      ++ [Op.addNode depth g.cutPosition]
    let sub := rec (if v then prev' else l) (if v then g.cutPosition else r)
      (if v then b else prev') (if v then t else g.cutPosition) g.items
    if !sub.ended then ⟨head ++ sub.ops, false⟩
    else
      let rest := groupsOps rec v ct l r b t depth gs (g.cutPosition + ct)
      ⟨head ++ sub.ops ++ rest.ops, rest.ended⟩

/-- `items` is one item that fills the region, `post_process.cpp:122–128`. -/
def fillsRegion (l r b t : Int) (items : List ItemPlacement) : Option Nat :=
  match items with
  | [p] => if p.l = l ∧ p.r = r ∧ p.b = b ∧ p.t = t then some p.itemTypeId else none
  | _ => none

/-- `is_vertical`, `post_process.cpp:133–135`. -/
def isVerticalCut (o : CutOrientation) (depth : Int) : Bool :=
  if o = .vertical then decide (depth.tmod 2 = 1) else decide (depth.tmod 2 = 0)

/-- The calls of `build_region`, `post_process.cpp:105–175`, which never returns `false`.  What it
does next does not depend on the builder, so that the calls can be collected; an exception of the
builder ends everything (`tryBuild`).  `fuel` is the depth of the call stack. -/
def regionOps (σ : Bool → List ItemPlacement → List ItemPlacement) (ct : Int)
    (o : CutOrientation) : Nat → Int → Int → Int → Int → List ItemPlacement → Int → Calls
  | 0, _, _, _, _, _, _ => ⟨[], false⟩
  | fuel + 1, l, r, b, t, items, depth =>
    if items.isEmpty then ⟨[], true⟩
    else match (if depth > 1 then fillsRegion l r b t items else none) with
      | some i => ⟨[.setItem i], true⟩
      | none =>
        groupsOps (fun l r b t items => regionOps σ ct o fuel l r b t items (depth + 1))
          (isVerticalCut o depth) ct l r b t depth (findGroups σ items (isVerticalCut o depth) ct)
          (if isVerticalCut o depth then l else b)

/-- `try_build`, `post_process.cpp:183–212`.  A recursion that is too deep is undefined
behaviour. -/
def tryBuild (inst : Instance) (σ : Bool → List ItemPlacement → List ItemPlacement) (fuel : Nat)
    (binTypeId : Nat) (items : List ItemPlacement) (o : CutOrientation) : Except Err Solution :=
  if binTypeId ≥ inst.numberOfBinTypes then .error .ub
  else
    let bt := inst.binType binTypeId
    let l := if bt.leftTrimType = .hard then bt.leftTrim else 0
    let r := bt.w - (if bt.rightTrimType = .hard then bt.rightTrim else 0)
    let b := if bt.bottomTrimType = .hard then bt.bottomTrim else 0
    let t := bt.h - (if bt.topTrimType = .hard then bt.topTrim else 0)
    let calls := if items.isEmpty then ⟨[], true⟩
      else regionOps σ inst.parameters.cutThickness o fuel l r b t items 1
    match (SolutionBuilder.new inst).runOrThrow inst (.addBin binTypeId 1 o :: calls.ops) with
    | .error e => .error e
    | .ok sb => if !calls.ended then .error .ub else sb.build inst

/-- The orientations that are tried, `post_process.cpp:293–300`. -/
def orientations (inst : Instance) : List CutOrientation :=
  match inst.parameters.firstStageOrientation with
  | .vertical => [.vertical]
  | .horizontal => [.horizontal]
  | .any => [.vertical, .horizontal]

/-- `try_orientation`, `post_process.cpp:282–291`: exceptions are caught; undefined behaviour and
`exit` are not exceptions. -/
def tryOrientation (inst : Instance) (σ : Bool → List ItemPlacement → List ItemPlacement)
    (fuel : Nat) (binTypeId : Nat) (items : List ItemPlacement) (sols : List Solution)
    (o : CutOrientation) : Except Err (List Solution) :=
  match tryBuild inst σ fuel binTypeId items o with
  | .ok s => .ok (sols ++ [s])
  | .error .ub => .error .ub
  | .error .exit => .error .exit
  | .error _ => .ok sols

/-- `build_guillotine_solutions`, `post_process.cpp:274–303`. -/
def buildGuillotineSolutions (inst : Instance)
    (σ : Bool → List ItemPlacement → List ItemPlacement) (fuel : Nat) (binTypeId : Nat)
    (items : List ItemPlacement) : Except Err (List Solution) :=
  (orientations inst).foldlM (tryOrientation inst σ fuel binTypeId items) []

/-- `build_guillotine_solution`, `post_process.cpp:216–234`. -/
def buildGuillotineSolution (inst : Instance)
    (σ : Bool → List ItemPlacement → List ItemPlacement) (fuel : Nat) (binTypeId : Nat)
    (items : List ItemPlacement) : Except Err Solution := do
  match ← buildGuillotineSolutions inst σ fuel binTypeId items with
  | [] => .ok (.init inst)
  | [s] => .ok s
  | s0 :: s1 :: _ => .ok (if s0.numberOfStages ≤ s1.numberOfStages then s0 else s1)

/-- The item placements of a bin, `post_process.cpp:247–259`. -/
def placements (nodes : List Node) : List ItemPlacement :=
  (nodes.filter fun n => n.f.isSome && decide (n.itemTypeId ≥ 0)).map fun n =>
    ⟨n.itemTypeId.toNat, n.l, n.r, n.b, n.t⟩

/-- One iteration of `minimize_number_of_stages`, `post_process.cpp:242–269`. -/
def minimizeStep (inst : Instance) (σ : Bool → List ItemPlacement → List ItemPlacement)
    (fuel : Nat) (s : Solution) (result : Solution) (pos : Nat) : Except Err Solution := do
  let bin := s.bins.getD pos default
  let binSolution ← buildGuillotineSolution inst σ fuel bin.binTypeId (placements bin.nodes)
  if binSolution.bins.length > 0 then result.appendBin inst binSolution 0 bin.copies [] []
  else result.appendBin inst s pos bin.copies [] []

/-- `minimize_number_of_stages`, `post_process.cpp:236–272`. -/
def minimizeNumberOfStages (inst : Instance)
    (σ : Bool → List ItemPlacement → List ItemPlacement) (fuel : Nat) (s : Solution) :
    Except Err Solution :=
  (List.range s.bins.length).foldlM (minimizeStep inst σ fuel s) (.init inst)

end PostProcess

end PackingSolver.Guil
