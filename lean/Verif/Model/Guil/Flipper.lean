import Verif.Model.Guil.Builder
import Verif.Model.Guil.BlockRebuild

/-!
# Exchanging the axes of a guillotine instance

Models `src/rectangleguillotine/instance_flipper.cpp`.
-/

namespace PackingSolver.Guil

namespace Flipper

/-- Exchange the axes of a defect, `instance_flipper.cpp:45–52`. -/
def flipDefect (d : Defect) : Defect := { x := d.y, y := d.x, w := d.h, h := d.w }

/-- The trims handed to the flipped bin type, `instance_flipper.cpp:35–44`. -/
def flipTrims (t : BinType) : InstanceBuilder.Trims where
  left := t.bottomTrim
  leftType := t.bottomTrimType
  right := t.topTrim
  rightType := t.topTrimType
  bottom := t.leftTrim
  bottomType := t.leftTrimType
  top := t.rightTrim
  topType := t.rightTrimType

/-- One iteration of the loop over the bin types, `instance_flipper.cpp:20–65`. -/
def addBin (orig : Instance) (b : InstanceBuilder) (origId : Nat) : Except Err InstanceBuilder := do
  let t := orig.binType origId
  let id := b.inst.binTypes.length
  let b ← b.addBinType t.h t.w
  let b ← b.setBinTypeCost id t.cost
  let b ← b.setBinTypeCopies id t.copies
  let b ← b.setBinTypeCopiesMin id t.copiesMin
  let b ← b.addTrims id (flipTrims t)
  let b ← b.addDefects id (t.defects.map flipDefect)
  b.addResources id t.resources

/-- One iteration of the loop over the item types, `instance_flipper.cpp:66–82`. -/
def addItem (orig : Instance) (b : InstanceBuilder) (origId : Nat) :
    Except Err InstanceBuilder := do
  let t := orig.itemType origId
  let id := b.inst.itemTypes.length
  let b ← b.addItemType t.h t.w t.oriented t.stackId
  let b ← b.setItemTypeProfit id t.profit
  b.setItemTypeCopies id t.copies

/-- The loops copying the resource consumptions, `instance_flipper.cpp:86–110`. -/
def copyConsumptions (orig : Instance) (b : InstanceBuilder) : Except Err InstanceBuilder :=
  (List.range orig.numberOfBinTypes).foldlM
    (fun b t => (List.range (orig.binType t).resources.length).foldlM
      (fun b r =>
        let ic := ((orig.binType t).resources.getD r {}).itemConsumptions
        (List.range ic.length).foldlM (fun b i => b.writeSchedule t r i (ic.getD i [])) b) b) b

/-- `InstanceFlipper::flip`, `instance_flipper.cpp:9–112`.  `o` is what the objective of a new
builder holds before it is set. -/
def flip (o : Objective) (orig : Instance) : Except Err Instance := do
  let b := InstanceBuilder.new o
  let b := b.setObjective (if orig.objective = .openDimensionY then .openDimensionX
    else orig.objective)
  let b := b.setParameters { orig.parameters with firstStageOrientation := .vertical }
  let b ← (List.range orig.numberOfBinTypes).foldlM (addBin orig) b
  let b ← (List.range orig.numberOfItemTypes).foldlM (addItem orig) b
  let b ← copyConsumptions orig b
  b.build

/-- The calls for one node of the flipped solution, `instance_flipper.cpp:124–134`. -/
def nodeOps (n : Node) : List Op :=
  if n.d ≤ 0 then []
  else
    (if n.d.tmod 2 = 1 then Op.addNode n.d n.r else Op.addNode n.d n.t)
      :: (if n.itemTypeId ≥ 0 then [.setItem n.itemTypeId.toNat] else [])

/-- The calls for one bin of the flipped solution, `instance_flipper.cpp:117–135`. -/
def binOps (bin : SolutionBin) : List Op :=
  .addBin bin.binTypeId bin.copies .horizontal :: bin.nodes.flatMap nodeOps

/-- `InstanceFlipper::unflip_solution`, `instance_flipper.cpp:114–138`. -/
def unflipSolution (orig : Instance) (flipped : Solution) : Except Err Solution := do
  let sb ← (SolutionBuilder.new orig).runOrThrow orig (flipped.bins.flatMap binOps)
  sb.build orig

end Flipper

end PackingSolver.Guil
