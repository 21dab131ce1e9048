import Verif.Model.Box.Flipper
import Verif.Model.Rect.Solution
import Mathlib.Data.List.Sort

/-!
# Branching scheme for boxes

Models `src/box/tree_search.cpp` and `src/box/tree_search.hpp`: the nodes, the insertions offered in
a node, the child of a node, the comparisons used by the search and the export of a node.  The guides
(`operator()`), `id`, `ye_max` and `length`, which are never read, are not modelled: the property theorems
hold whatever nodes the search chooses to expand.  The chain of parent pointers is the list of the
fields that `to_solution` reads, oldest first.  Ids and positions are natural numbers (`none` for
`-1`).
-/

namespace PackingSolver.Box.TreeSearch

/-- `struct UncoveredItem`, `tree_search.hpp:30–51`. -/
structure UncoveredItem where
  x : Int
  xDominance : Int
  ys : Int
  ye : Int
  zs : Int
  ze : Int
deriving DecidableEq, Repr

instance : Inhabited UncoveredItem := ⟨⟨0, 0, 0, 0, 0, 0⟩⟩

/-- `struct Insertion`, `tree_search.hpp:53–93`. -/
structure Insertion where
  itemTypeId : Nat
  rotation : Rotation
  /-- 0: last bin; 1, 2, 3: new bin in direction X, Y, Z. -/
  newBin : Nat
  x : Int
  y : Int
  z : Int
  newBinPos : Option Nat := none
deriving DecidableEq, Repr

/-- What `to_solution` reads of a node and its ancestors. -/
structure Step where
  itemTypeId : Nat
  rotation : Rotation
  x : Int
  y : Int
  z : Int
  direction : Direction
  numberOfBins : Nat
deriving DecidableEq, Repr

/-- `struct Node`, `tree_search.hpp:98–182`. -/
structure Node where
  /-- This node and its ancestors except the root, oldest first. -/
  steps : List Step := []
  lastBinDirection : Direction := .x
  uncoveredItems : List UncoveredItem := []
  lastBinWeight : ℚ := 0
  itemNumberOfCopies : List Int := []
  numberOfBins : Nat := 0
  numberOfItems : Int := 0
  itemVolume : Int := 0
  itemWeight : ℚ := 0
  currentVolume : Int := 0
  waste : Int := 0
  guideVolume : Int := 0
  xeMax : Int := 0
  xsMax : Int := 0
  profit : ℚ := 0
  lastBinItemNumberOfCopies : List Nat := []
  lastBinResourceConsumption : List ℚ := []
deriving DecidableEq, Repr

/-- `struct Parameters`, `tree_search.hpp:184–191` (the guide is not modelled). -/
structure Parameters where
  direction : Direction := .x
deriving DecidableEq, Repr

/-- `class BranchingScheme`, `tree_search.hpp:335–360`: the private attributes that are read. -/
structure Scheme where
  inst : Instance
  flippedY : Instance
  flippedZ : Instance
  parameters : Parameters
  binTypeIds : List Nat
  previousBinsVolume : List Int
  predecessors : List (List Nat)

namespace Scheme

/-- `instance(Direction)`, `tree_search.hpp:384–400`; for `Any` it throws, which `child` and
`insertions` check. -/
def instanceOf (s : Scheme) : Direction → Instance
  | .y => s.flippedY
  | .z => s.flippedZ
  | _ => s.inst

/-- `direction(int new_bin)`, `tree_search.hpp:402–414`; `instance(int new_bin)`, lines 416–428, is
the instance in this direction. -/
def newBinDirection (newBin : Nat) : Direction :=
  if newBin % 3 = 1 then .x else if newBin % 3 = 2 then .y else .z

end Scheme

/-! ## Child of a node -/

/-- `update_uncovered_item`, `tree_search.cpp:105–202`: what is left of an uncovered item around the
rectangle of a new one.  The four branches of lines 140–196 differ only in which of the two ends of the
middle strip are moved. -/
def updateUncoveredItem (u : UncoveredItem) (ys ye zs ze : Int) : List UncoveredItem :=
  if ys ≥ u.ye ∨ ye ≤ u.ys ∨ zs ≥ u.ze ∨ ze ≤ u.zs then [u]
  else
    let middle : UncoveredItem :=
      { u with ys := if ys > u.ys then ys else u.ys, ye := if ye < u.ye then ye else u.ye }
    (if ys > u.ys then [{ u with ye := ys }] else [])
    ++ (if zs > u.zs then [{ middle with ze := zs }] else [])
    ++ (if ze < u.ze then [{ middle with zs := ze }] else [])
    ++ (if ye < u.ye then [{ u with ys := ye }] else [])

/-- `node.uncovered_items` before the update of `x_dominance`, `tree_search.cpp:260–286`. -/
def childUncovered (us : List UncoveredItem) (xe ys ye zs ze : Int) : List UncoveredItem :=
  us.flatMap (fun u => updateUncoveredItem u ys ye zs ze) ++ [⟨xe, xe, ys, ye, zs, ze⟩]

/-- `ui.x_dominance = std::max(ui.x_dominance, new_ui.x_dominance)` for the uncovered items in a
strip, `tree_search.cpp:295–317`. -/
def raiseIf (thin : Bool) (strip : UncoveredItem → Bool) (x : Int) (us : List UncoveredItem) :
    List UncoveredItem :=
  if thin then us.map fun u =>
    if strip u then { u with xDominance := max u.xDominance x } else u
  else us

/-- Update of `x_dominance`, `tree_search.cpp:288–318`.  The new uncovered item itself is in none of
the strips, so that its `x_dominance` stays `xe`. -/
def updateDominance (us : List UncoveredItem) (xe ys ye zs ze yi zi smallestY smallestZ : Int) :
    List UncoveredItem :=
  let us := raiseIf (decide (yi - ye < smallestY)) (fun u => decide (u.ys ≥ ye)) xe us
  let us := raiseIf (decide (ys < smallestY)) (fun u => decide (u.ye ≤ ys)) xe us
  let us := raiseIf (decide (zi - ze < smallestZ)) (fun u => decide (u.zs ≥ ze)) xe us
  raiseIf (decide (zs < smallestZ)) (fun u => decide (u.ze ≤ zs)) xe us

/-- State of the resource loops. -/
structure ResourceState where
  consumption : List ℚ
  profit : ℚ

/-- One iteration of the resource loop in a new bin, `tree_search.cpp:345–353`. -/
def newBinResourceStep (bt : BinType) (item : Nat) (st : ResourceState) (r : Nat) :
    ResourceState :=
  let resource := bt.resources.getD r {}
  let c := resource.itemConsumption item 0
  { consumption := st.consumption.set r c
    profit := if resource.penalize && decide (c > resource.capacity)
      then st.profit - resource.penalty else st.profit }

/-- One iteration of the resource loop in the same bin, `tree_search.cpp:359–369`. -/
def sameBinResourceStep (bt : BinType) (item copy : Nat) (st : ResourceState) (r : Nat) :
    ResourceState :=
  let resource := bt.resources.getD r {}
  let previous := st.consumption.getD r 0
  let consumption := addAtQ st.consumption r (resource.itemConsumption item copy)
  { consumption := consumption
    profit := if resource.penalize && decide (consumption.getD r 0 > resource.capacity)
        && decide (previous ≤ resource.capacity)
      then st.profit - resource.penalty else st.profit }

/-- `last_bin_item_number_of_copies`, `last_bin_resource_consumption` and the penalties in
`profit`, `tree_search.cpp:341–372`. -/
def childResources (inst : Instance) (bt : BinType) (bin item : Nat) (newBin : Bool)
    (parent : Node) (profit : ℚ) : List Nat × ResourceState :=
  if bt.resources.length > 0 then
    if newBin then
      let st := ((inst.itemType item).resourceIds.getD bin []).foldl
        (newBinResourceStep bt item) ⟨List.replicate bt.resources.length 0, profit⟩
      ((List.replicate inst.numberOfItemTypes 0).set item 1, st)
    else
      let copy := parent.lastBinItemNumberOfCopies.getD item 0
      let st := ((inst.itemType item).resourceIds.getD bin []).foldl
        (sameBinResourceStep bt item copy) ⟨parent.lastBinResourceConsumption, profit⟩
      (parent.lastBinItemNumberOfCopies.modify item (· + 1), st)
  else ([], ⟨[], profit⟩)

/-- The area of the rectangle of an uncovered item, `tree_search.cpp:382–383`. -/
def UncoveredItem.area (u : UncoveredItem) : Int := (u.ye - u.ys) * (u.ze - u.zs)

/-- `current_volume`, `tree_search.cpp:378–383`. -/
def currentVolume (previous : Int) (us : List UncoveredItem) : Int :=
  us.foldl (fun v u => v + u.xDominance * u.area) previous

/-- `guide_volume`, `tree_search.cpp:379,386–390`. -/
def guideVolume (previous xsMax : Int) (us : List UncoveredItem) : Int :=
  us.foldl (fun v u => if u.xDominance > xsMax then v + (u.xDominance - xsMax) * u.area else v)
    previous

/-- `xe_max`, `tree_search.cpp:384–385`. -/
def xeMax (us : List UncoveredItem) : Int := us.foldl (fun m u => if m < u.x then u.x else m) 0

/-- `number_of_bins` of a child, `tree_search.cpp:220–231`. -/
def nextBins (n : Node) (ins : Insertion) : Nat :=
  if ins.newBin > 0 then
    (match ins.newBinPos with
      | some p => p + 1
      | none => n.numberOfBins + 1)
  else n.numberOfBins

/-- `last_bin_direction` of a child, `tree_search.cpp:220–231`. -/
def nextDir (n : Node) (ins : Insertion) : Direction :=
  if ins.newBin > 0 then Scheme.newBinDirection ins.newBin else n.lastBinDirection

/-- The uncovered items of the bin before the insertion, `tree_search.cpp:269–284`: in a new bin, the
whole face. -/
def beforeUncovered (n : Node) (ins : Insertion) (bt : BinType) : List UncoveredItem :=
  if ins.newBin > 0 then [⟨0, 0, 0, bt.box.y, 0, bt.box.z⟩] else n.uncoveredItems

/-- `child_tmp`, `tree_search.cpp:204–403`.  Reading `bin_type_ids_` or `previous_bins_volume_` out
of range is undefined behaviour. -/
def child (s : Scheme) (n : Node) (ins : Insertion) : Except Err Node :=
  let bins := nextBins n ins
  let dir := nextDir n ins
  let inst := s.instanceOf dir
  if dir = .any then .error .invalidArgument
  else if bins = 0 ∨ bins > s.binTypeIds.length ∨ ins.itemTypeId ≥ inst.numberOfItemTypes then
    .error .ub
  else
  let bin := s.binTypeIds.getD (bins - 1) 0
  let bt := inst.binType bin
  let it := inst.itemType ins.itemTypeId
  let box := it.box.rotate ins.rotation
  if ins.z + box.z > bt.box.z then .error .runtimeError
  else
  let xe := ins.x + box.x
  let ye := ins.y + box.y
  let ze := ins.z + box.z
  let us := updateDominance (childUncovered (beforeUncovered n ins bt) xe ins.y ye ins.z ze)
    xe ins.y ye ins.z ze bt.box.y bt.box.z inst.smallestItemY inst.smallestItemZ
  let res := childResources inst bt bin ins.itemTypeId (decide (ins.newBin > 0)) n
    (n.profit + it.profit)
  let xsMax := if ins.newBin = 0 then max n.xsMax ins.x else ins.x
  let previous := s.previousBinsVolume.getD (bins - 1) 0
  let itemVolume := n.itemVolume + box.volume
  .ok {
    steps := n.steps ++ [⟨ins.itemTypeId, ins.rotation, ins.x, ins.y, ins.z, dir, bins⟩]
    lastBinDirection := dir
    uncoveredItems := us
    lastBinWeight := if ins.newBin = 0 then n.lastBinWeight + it.weight else it.weight
    itemNumberOfCopies := addAt n.itemNumberOfCopies ins.itemTypeId 1
    numberOfBins := bins
    numberOfItems := n.numberOfItems + 1
    itemVolume := itemVolume
    itemWeight := n.itemWeight + it.weight
    currentVolume := currentVolume previous us
    waste := currentVolume previous us - itemVolume
    guideVolume := guideVolume (previous + xsMax * bt.box.y * bt.box.z) xsMax us
    xeMax := xeMax us
    xsMax := xsMax
    profit := res.2.profit
    lastBinItemNumberOfCopies := res.1
    lastBinResourceConsumption := res.2.consumption }

/-! ## Insertions -/

/-- The resource check, `tree_search.cpp:588–610`: whether no hard resource is exceeded. -/
def resourcesOk (inst : Instance) (bt : BinType) (bin item : Nat) (newBin : Bool)
    (parent : Node) : Bool :=
  if bt.resources.length > 0 then
    ((inst.itemType item).resourceIds.getD bin []).all fun r =>
      let resource := bt.resources.getD r {}
      let c := if newBin then resource.itemConsumption item 0
        else parent.lastBinResourceConsumption.getD r 0
          + resource.itemConsumption item (parent.lastBinItemNumberOfCopies.getD item 0)
      resource.penalize || !decide (c > resource.capacity * pstol)
  else true

/-- `xs`, `tree_search.cpp:635–645`. -/
def firstX (us : List UncoveredItem) (ys ye zs ze : Int) : Int :=
  us.foldl (fun xs u =>
    if u.ye ≤ ys ∨ u.ys ≥ ye then xs
    else if u.ze ≤ zs ∨ u.zs ≥ ze then xs
    else if xs < u.x then u.x else xs) 0

/-- The end of an uncovered item an item is put next to, or the side of the bin,
`tree_search.cpp:561–562`. -/
def startAt (us : List UncoveredItem) (f : UncoveredItem → Int) : Option Nat → Int
  | none => 0
  | some p => f (us.getD p default)

/-- The contact with the uncovered items the item is put next to, `tree_search.cpp:613–632`. -/
def touches (us : List UncoveredItem) (ys ye zs ze : Int) (yPos zPos : Option Nat) : Bool :=
  (match zPos with
    | none => true
    | some p => !decide (ye ≤ (us.getD p default).ys) && !decide (ys ≥ (us.getD p default).ye))
  && (match yPos with
    | none => true
    | some p => !decide (ze ≤ (us.getD p default).zs) && !decide (zs ≥ (us.getD p default).ze))

/-- The uncovered items the item is put next to reach beyond it, `tree_search.cpp:655–666`. -/
def beside (us : List UncoveredItem) (xs : Int) (yPos zPos : Option Nat) : Bool :=
  (match yPos with
    | none => true
    | some p => !decide (xs ≥ (us.getD p default).x))
  && (match zPos with
    | none => true
    | some p => !decide (xs ≥ (us.getD p default).x))

/-- `insertion_item`, `tree_search.cpp:532–677`. -/
def insertionItem (s : Scheme) (n : Node) (item : Nat) (rotation : Rotation) (newBin : Nat)
    (newBinPos : Option Nat) (yPos zPos : Option Nat) : Option Insertion :=
  let d := if newBin = 0 then n.lastBinDirection else Scheme.newBinDirection newBin
  let inst := s.instanceOf d
  let it := inst.itemType item
  let bin := if newBin = 0 then s.binTypeIds.getD (n.numberOfBins - 1) 0
    else s.binTypeIds.getD (newBinPos.getD 0) 0
  let bt := inst.binType bin
  let box := it.box.rotate rotation
  let ys := startAt n.uncoveredItems (·.ye) yPos
  let zs := startAt n.uncoveredItems (·.ze) zPos
  let ye := ys + box.y
  let ze := zs + box.z
  if ye > bt.box.y then none
  else if ze > bt.box.z then none
  else if ExtQ.exceeded (if newBin = 0 then n.lastBinWeight + it.weight else it.weight)
      bt.maximumWeight then none
  else if !resourcesOk inst bt bin item (decide (newBin ≠ 0)) n then none
  else if !touches n.uncoveredItems ys ye zs ze yPos zPos then none
  else
  let xs := if newBin = 0 then firstX n.uncoveredItems ys ye zs ze else 0
  if xs + box.x > bt.box.x then none
  else if !beside n.uncoveredItems xs yPos zPos then none
  else some { itemTypeId := item, rotation := rotation, x := xs, y := ys, z := zs,
              newBin := newBin, newBinPos := newBinPos }

/-- `ok[item_type_id]`, `tree_search.cpp:422–430`: all copies of the predecessors are packed. -/
def allPacked (s : Scheme) (n : Node) (item : Nat) : Bool :=
  (s.predecessors.getD item []).all fun p =>
    !decide (n.itemNumberOfCopies.getD p 0 ≠ (s.inst.itemType p).copies)

/-- Whether an item type is considered, `tree_search.cpp:450–454,507–512`. -/
def considered (s : Scheme) (inst : Instance) (n : Node) (item : Nat) : Bool :=
  allPacked s n item
    && !decide (n.itemNumberOfCopies.getD item 0 = (inst.itemType item).copies)

/-- The positions `-1, 0, …` of the uncovered items. -/
def positions (us : List UncoveredItem) : List (Option Nat) :=
  none :: (List.range us.length).map some

/-- The insertions in the current bin, `tree_search.cpp:433–469`. -/
def currentBinInsertions (s : Scheme) (n : Node) : List Insertion :=
  let inst := s.instanceOf n.lastBinDirection
  (positions n.uncoveredItems).flatMap fun yPos =>
    (positions n.uncoveredItems).flatMap fun zPos =>
      (List.range inst.numberOfItemTypes).flatMap fun item =>
        if considered s inst n item then
          (inst.itemType item).rotations.filterMap fun r => insertionItem s n item r 0 none yPos zPos
        else []

/-- The direction of a new bin, `tree_search.cpp:477–494`. -/
def newBinOf (s : Scheme) (pos : Nat) : Nat :=
  match s.parameters.direction with
  | .x => 1
  | .y => 2
  | .z => 3
  | .any =>
    let box := (s.inst.binType (s.binTypeIds.getD pos 0)).box
    if box.x ≥ max box.y box.z then 1 else if box.y ≥ box.z then 2 else 3

/-- The insertions in the new bin at a position, `tree_search.cpp:497–523`. -/
def newBinInsertionsAt (s : Scheme) (n : Node) (pos : Nat) : List Insertion :=
  let newBin := newBinOf s pos
  let inst := s.instanceOf (Scheme.newBinDirection newBin)
  (List.range inst.numberOfItemTypes).flatMap fun item =>
    if considered s inst n item then
      (inst.itemType item).rotations.filterMap fun r =>
        insertionItem s n item r newBin (some pos) none none
    else []

/-- The loop over the new bins, `tree_search.cpp:474–524`: the insertions of the first bin that has
some. -/
def newBinInsertions (s : Scheme) (n : Node) : List Nat → Except Err (List Insertion)
  | [] => .ok []
  | pos :: rest =>
    if pos ≥ s.binTypeIds.length then .error .ub
    else
      let found := newBinInsertionsAt s n pos
      if found.isEmpty then newBinInsertions s n rest else .ok found

/-- `insertions`, `tree_search.cpp:415–530`. -/
def insertions (s : Scheme) (n : Node) : Except Err (List Insertion) :=
  if n.numberOfBins > 0 ∧ n.lastBinDirection = .any then .error .invalidArgument
  else if n.numberOfBins > s.binTypeIds.length then .error .ub
  else
  let found := if n.numberOfBins > 0 then currentBinInsertions s n else []
  if found.isEmpty then
    newBinInsertions s n (List.range' n.numberOfBins (s.inst.numberOfBins - n.numberOfBins))
  else .ok found

/-- `children`, `tree_search.cpp:405–413`. -/
def children (s : Scheme) (n : Node) : Except Err (List Node) := do
  let l ← insertions s n
  l.mapM (child s n)

/-! ## Root and constructor -/

/-- `root`, `tree_search.cpp:683–689`. -/
def Scheme.rootNode (s : Scheme) : Node :=
  { itemNumberOfCopies := List.replicate s.inst.numberOfItemTypes 0 }

/-- `bin_type_id_order`, `tree_search.cpp:47–58`; `std::stable_sort` is insertion sort, which is
stable. -/
def binTypeIdOrder (inst : Instance) : List Nat :=
  if inst.objective = .knapsack then
    (List.range inst.numberOfBinTypes).insertionSort
      (fun a b => (inst.binType a).volume ≤ (inst.binType b).volume)
  else List.range inst.numberOfBinTypes

/-- `bin_type_ids_`, `tree_search.cpp:60–67`. -/
def schemeBinTypeIds (inst : Instance) : List Nat :=
  (binTypeIdOrder inst).flatMap fun b => List.replicate (inst.binType b).copies.toNat b

/-- `previous_bins_volume_`, `tree_search.cpp:59–67`. -/
def schemePreviousBinsVolume (inst : Instance) (ids : List Nat) : List Int :=
  (List.range ids.length).map fun k =>
    ((ids.take k).map fun b => (inst.binType b).volume).sum

/-- `dominates(item_type_id_1, item_type_id_2)`, `tree_search.cpp:19–27`. -/
def itemTypeDominates (a b : ItemType) : Bool :=
  decide (a.profit ≥ b.profit) && decide (a.weight ≤ b.weight)

/-- Whether item type `j` is a predecessor of item type `i`, `tree_search.cpp:79–96`. -/
def isPredecessor (inst : Instance) (i j : Nat) : Bool :=
  let a := inst.itemType i
  let b := inst.itemType j
  decide (i ≠ j) && itemTypeDominates b a
    && !(decide (i < j) && itemTypeDominates a b)
    && (decide (a.box.x = b.box.x) && decide (a.box.y = b.box.y) && decide (a.box.z = b.box.z)
      && decide (a.rotations = b.rotations))

/-- `predecessors_`, `tree_search.cpp:70–98`. -/
def predecessorTable (inst : Instance) : List (List Nat) :=
  (List.range inst.numberOfItemTypes).map fun i =>
    (List.range inst.numberOfItemTypes).filter (isPredecessor inst i)

/-- `BranchingScheme::BranchingScheme`, `tree_search.cpp:29–99`.  `o` is the uninitialised objective of
the builders of the flippers. -/
def Scheme.new (o : Objective) (inst : Instance) (parameters : Parameters) : Except Err Scheme := do
  let flippedY ← Flipper.flip o inst .y
  let flippedZ ← Flipper.flip o inst .z
  .ok {
    inst := inst
    flippedY := flippedY
    flippedZ := flippedZ
    parameters := parameters
    binTypeIds := schemeBinTypeIds inst
    previousBinsVolume := schemePreviousBinsVolume inst (schemeBinTypeIds inst)
    predecessors := predecessorTable inst }

/-- The directions the driver tries, `tree_search.cpp:1065–1076`. -/
def directions (inst : Instance) : List Direction :=
  if inst.objective = .openDimensionX then [.x]
  else if inst.objective = .openDimensionY then [.y]
  else if inst.objective = .openDimensionZ then [.z]
  else if inst.numberOfBinTypes = 1 then [.x, .y, .z]
  else [.any]

/-! ## Comparisons -/

/-- `leaf`, `tree_search.hpp:231–235`. -/
def leaf (s : Scheme) (n : Node) : Bool := decide (n.numberOfItems = s.inst.numberOfItems)

/-- `better`, `tree_search.cpp:691–739`. -/
def better (s : Scheme) (n1 n2 : Node) : Except Err Bool :=
  match s.inst.objective with
  | .default =>
    .ok (if n2.profit > n1.profit then false
      else if n2.profit < n1.profit then true
      else decide (n2.waste > n1.waste))
  | .binPacking | .variableSizedBinPacking =>
    .ok (if !leaf s n1 then false
      else if !leaf s n2 then true
      else decide (n2.numberOfBins > n1.numberOfBins))
  | .binPackingWithLeftovers =>
    .ok (if !leaf s n1 then false
      else if !leaf s n2 then true
      else decide (n2.waste > n1.waste))
  | .openDimensionX | .openDimensionY =>
    .ok (if !leaf s n1 then false
      else if !leaf s n2 then true
      else decide (n2.xeMax > n1.xeMax))
  | .knapsack | .feasibility => .ok (decide (n2.profit < n1.profit))
  | _ => .error .logicError

/-- `ubkp`, `tree_search.hpp:508–520`. -/
def ubkp (s : Scheme) (n : Node) : ℚ :=
  let remainingItemVolume := s.inst.itemVolume - n.itemVolume
  let remainingPackable := s.inst.binVolume - n.currentVolume
  if remainingPackable ≥ remainingItemVolume then s.inst.itemProfit
  else
    let it := s.inst.itemType s.inst.largestEfficiencyItemTypeId.toNat
    n.profit + (remainingPackable : ℚ) * it.profit / (it.volume : ℚ)

/-- The loop of `bound`, `tree_search.cpp:757–767`: the number of bins whose volumes add up to at
least `a`, `none` if there are not enough. -/
def binsForVolume : List Int → Int → Nat → Option Nat
  | [], a, k => if a > 0 then none else some k
  | volume :: rest, a, k => if a > 0 then binsForVolume rest (a - volume) (k + 1) else some k

/-- `bound(node_1, node_2)`, `tree_search.cpp:741–798`: node 1 need not be explored once node 2 is
known. -/
def bound (s : Scheme) (n1 n2 : Node) : Except Err Bool :=
  match s.inst.objective with
  | .default =>
    .ok (if !leaf s n2 then decide (ubkp s n1 ≤ n2.profit)
      else if ubkp s n1 ≠ n2.profit then decide (ubkp s n1 ≤ n2.profit)
      else decide (n1.waste ≥ n2.waste))
  | .binPacking | .variableSizedBinPacking =>
    .ok (if !leaf s n2 then false
      else match binsForVolume (s.binTypeIds.map fun b => (s.inst.binType b).volume)
          (s.inst.itemVolume + n1.waste) 0 with
        | none => true
        | some k => decide (k ≥ n2.numberOfBins))
  | .binPackingWithLeftovers =>
    .ok (if !leaf s n2 then false else decide (n1.waste ≥ n2.waste))
  | .knapsack | .feasibility => .ok (leaf s n2)
  | .openDimensionX | .openDimensionY | .openDimensionZ =>
    .ok (if !leaf s n2 then false
      else decide (max n1.xeMax ((n1.waste + s.inst.itemVolume - 1).tdiv
        ((s.inst.binType 0).box.y * (s.inst.binType 0).box.z + 1)) ≥ n2.xeMax))
  | _ => .error .logicError

/-- `dominates(node_1, node_2)`, `tree_search.hpp:288–312`, called on nodes with the same numbers of
copies (`NodeHasher`, lines 260–284). -/
def dominates (n1 n2 : Node) : Bool :=
  if n1.numberOfBins < n2.numberOfBins then true
  else if n1.numberOfBins > n2.numberOfBins then false
  else n1.uncoveredItems.all fun u => n2.uncoveredItems.all fun v =>
    decide (u.ys ≥ v.ye) || decide (u.ye ≤ v.ys) || decide (u.zs ≥ v.ze) || decide (u.ze ≤ v.zs)
      || !decide (u.xDominance > v.xDominance)

/-! ## Export -/

/-- The empty bins added before an item, `tree_search.cpp:820–827`. -/
def addBinsUpTo (s : Scheme) (sb : SolutionBuilder) (k : Nat) : Except Err SolutionBuilder :=
  (List.range' sb.sol.bins.length (k - sb.sol.bins.length)).foldlM
    (fun sb pos => if pos < s.binTypeIds.length
      then sb.addBin s.inst (s.binTypeIds.getD pos 0) 1 else .error .ub) sb

/-- One node of the chain, `tree_search.cpp:818–850`; `bin_pos` is the last bin added. -/
def toSolutionStep (s : Scheme) (sb : SolutionBuilder) (st : Step) : Except Err SolutionBuilder := do
  let sb ← addBinsUpTo s sb st.numberOfBins
  let c ← Flipper.convertPointBack st.x st.y st.z st.direction
  let r ← Flipper.flippedRotation st.rotation st.direction
  if sb.sol.bins.length = 0 then .error .ub
  else sb.addItem s.inst (sb.sol.bins.length - 1) st.itemTypeId c.1 c.2.1 c.2.2 r

/-- `to_solution`, `tree_search.cpp:804–852`. -/
def toSolution (s : Scheme) (n : Node) : Except Err Solution := do
  let sb ← n.steps.foldlM (toSolutionStep s) (SolutionBuilder.new s.inst)
  sb.build s.inst

end PackingSolver.Box.TreeSearch
