import Verif.Model.Rect.Builder
import Verif.Model.Rect.Solution

/-!
# Exchanging the axes

Models `src/rectangle/instance_flipper.cpp`.
-/

namespace PackingSolver.Rect

/-- The unloading constraint of the flipped instance, `instance_flipper.cpp:19–27`. -/
def UnloadingConstraint.flip : UnloadingConstraint → UnloadingConstraint
  | .none => .none
  | .increasingX => .increasingY
  | .increasingY => .increasingX
  | .onlyXMovements => .onlyYMovements
  | .onlyYMovements => .onlyXMovements

namespace Flipper

/-- Exchange the axes of a defect, `instance_flipper.cpp:52–58`. -/
def flipDefect (d : Defect) : Defect := ⟨d.posY, d.posX, d.y, d.x⟩

/-- One iteration of the loop over the bin types, `instance_flipper.cpp:30–73`. -/
def addBin (orig : Instance) (b : InstanceBuilder) (origId : Nat) : Except Err InstanceBuilder := do
  let t := orig.binType origId
  let id := b.inst.binTypes.length
  let b ← b.addBinType t.y t.x
  let b ← b.setBinTypeCost id t.cost
  let b ← b.setBinTypeCopies id t.copies
  let b ← b.setBinTypeCopiesMin id t.copiesMin
  let b ← b.setBinTypeMaximumWeight id t.maximumWeight
  let b ← b.setBinTypeTruck id t.truck
  let b ← b.addDefects id (t.defects.map flipDefect)
  b.addResources id t.resources

/-- One iteration of the loop over the item types, `instance_flipper.cpp:74–96`. -/
def addItem (orig : Instance) (b : InstanceBuilder) (origId : Nat) :
    Except Err InstanceBuilder := do
  let t := orig.itemType origId
  let id := b.inst.itemTypes.length
  let b ← b.addItemType t.y t.x t.oriented
  let b ← b.setItemTypeProfit id t.profit
  let b ← b.setItemTypeCopies id t.copies
  let b ← b.setItemTypeGroup id t.groupId
  b.setItemTypeWeight id t.weight

/-- The loops copying the resource consumptions, `instance_flipper.cpp:100–124`. -/
def copyConsumptions (orig : Instance) (b : InstanceBuilder) : Except Err InstanceBuilder :=
  (List.range orig.numberOfBinTypes).foldlM
    (fun b t => (List.range (orig.binType t).resources.length).foldlM
      (fun b r =>
        let ic := ((orig.binType t).resources.getD r {}).itemConsumptions
        (List.range ic.length).foldlM (fun b i => b.writeSchedule t r i (ic.getD i [])) b) b) b

/-- `InstanceFlipper::flip`, `instance_flipper.cpp:9–126`. -/
def flip (orig : Instance) : Except Err Instance := do
  let b := InstanceBuilder.new
  let b := b.setObjective (if orig.objective = .openDimensionY then .openDimensionX
    else orig.objective)
  let b := b.setParameters { orig.parameters with
    unloadingConstraint := orig.parameters.unloadingConstraint.flip }
  let b ← (List.range orig.numberOfBinTypes).foldlM (addBin orig) b
  let b ← (List.range orig.numberOfItemTypes).foldlM (addItem orig) b
  let b ← copyConsumptions orig b
  b.build

/-- Exchange the coordinates of a placed item, `instance_flipper.cpp:143–144`. -/
def unflipItem (p : PlacedItem) : PlacedItem := { p with x := p.y, y := p.x }

/-- One bin of `unflip_solution`, `instance_flipper.cpp:132–147`. -/
def unflipBin (orig : Instance) (sb : SolutionBuilder) (bin : SolutionBin) :
    Except Err SolutionBuilder := do
  let pos := sb.sol.bins.length
  let sb ← sb.addBin orig bin.binTypeId bin.copies
  bin.items.foldlM (fun sb p => sb.addItem orig pos p.itemTypeId p.y p.x p.rotate) sb

/-- `InstanceFlipper::unflip_solution`, `instance_flipper.cpp:128–150`. -/
def unflipSolution (orig : Instance) (flipped : Solution) : Except Err Solution := do
  let sb ← flipped.bins.foldlM (unflipBin orig) (SolutionBuilder.new orig)
  sb.build orig

end Flipper

end PackingSolver.Rect
