import Verif.Model.Box.Builder
import Verif.Model.Box.Solution

/-!
# Exchanging the axes of a box instance

Models `src/box/instance_flipper.cpp` and `instance_flipper.hpp`.
-/

namespace PackingSolver.Box

/-- `enum class Direction`, `include/packingsolver/box/instance.hpp:13`. -/
inductive Direction where
  | x | y | z | any
deriving DecidableEq, Repr

namespace Flipper

/-- `convert_point_back`, `instance_flipper.cpp:9–22`. -/
def convertPointBack (x y z : Int) : Direction → Except Err (Int × Int × Int)
  | .x => .ok (x, y, z)
  | .y => .ok (y, x, z)
  | .z => .ok (z, y, x)
  | .any => .error .runtimeError

/-- The numbers of the enumerators of `Rotation`, `box/instance.hpp:30–38`. -/
def rotationIndex : Rotation → Nat
  | .xyz => 0
  | .yxz => 1
  | .zyx => 2
  | .yzx => 3
  | .xzy => 4
  | .zxy => 5

/-- `static_cast<Rotation>`; values above 5 do not occur. -/
def rotationOfIndex : Nat → Rotation
  | 0 => .xyz
  | 1 => .yxz
  | 2 => .zyx
  | 3 => .yzx
  | 4 => .xzy
  | _ => .zxy

/-- `map_y`, `instance_flipper.cpp:24`. -/
def mapY : List Nat := [1, 0, 3, 2, 5, 4]

/-- `map_z`, `instance_flipper.cpp:25`. -/
def mapZ : List Nat := [2, 5, 0, 4, 3, 1]

/-- `get_flipped_rotation`, `instance_flipper.cpp:27–40`. -/
def flippedRotation (r : Rotation) : Direction → Except Err Rotation
  | .x => .ok r
  | .y => .ok (rotationOfIndex (mapY.getD (rotationIndex r) 0))
  | .z => .ok (rotationOfIndex (mapZ.getD (rotationIndex r) 0))
  | .any => .error .runtimeError

/-- `flip_rotations`, `instance_flipper.cpp:42–49`. -/
def flipRotations (rs : List Rotation) (d : Direction) : Except Err (List Rotation) :=
  rs.mapM fun r => flippedRotation r d

/-- The dimensions of a flipped bin type, `instance_flipper.cpp:67–76`. -/
def flipDims (b : Dims) : Direction → Dims
  | .y => ⟨b.y, b.x, b.z⟩
  | .z => ⟨b.z, b.y, b.x⟩
  | _ => b

/-- One iteration of the loop over the bin types, `instance_flipper.cpp:63–90`. -/
def addBin (orig : Instance) (d : Direction) (b : InstanceBuilder) (origId : Nat) :
    Except Err InstanceBuilder := do
  let t := orig.binType origId
  let id := b.inst.binTypes.length
  let b ← b.addBinType (flipDims t.box d).x (flipDims t.box d).y (flipDims t.box d).z
  let b ← b.setBinTypeCost id t.cost
  let b ← b.setBinTypeCopies id t.copies
  b.setBinTypeMaximumWeight id t.maximumWeight

/-- One iteration of the loop over the item types, `instance_flipper.cpp:91–110`: the box is kept,
the rotations are flipped. -/
def addItem (orig : Instance) (d : Direction) (b : InstanceBuilder) (origId : Nat) :
    Except Err InstanceBuilder := do
  let t := orig.itemType origId
  let id := b.inst.itemTypes.length
  let b ← b.addItemType t.box.x t.box.y t.box.z
  let b ← b.setItemTypeProfit id t.profit
  let b ← b.setItemTypeCopies id t.copies
  let rs ← flipRotations t.rotations d
  let b ← b.addRotations id rs
  b.setItemTypeWeight id t.weight

/-- `InstanceFlipper::flip`, `instance_flipper.cpp:51–112`; the structure of parameters is
empty.  `o` is the uninitialised objective of the new builder. -/
def flip (o : Objective) (orig : Instance) (d : Direction) : Except Err Instance := do
  let b := InstanceBuilder.new o
  let b := b.setObjective
    (if orig.objective = .openDimensionY ∨ orig.objective = .openDimensionZ then .openDimensionX
    else orig.objective)
  let b ← (List.range orig.numberOfBinTypes).foldlM (addBin orig d) b
  let b ← (List.range orig.numberOfItemTypes).foldlM (addItem orig d) b
  b.build

/-- One item of `unflip_solution`, `instance_flipper.cpp:124–132`. -/
def unflipItem (orig : Instance) (d : Direction) (pos : Nat) (sb : SolutionBuilder)
    (p : PlacedItem) : Except Err SolutionBuilder := do
  let c ← convertPointBack p.x p.y p.z d
  let r ← flippedRotation p.rotation d
  sb.addItem orig pos p.itemTypeId c.1 c.2.1 c.2.2 r

/-- One bin of `unflip_solution`, `instance_flipper.cpp:117–133`. -/
def unflipBin (orig : Instance) (d : Direction) (sb : SolutionBuilder) (bin : SolutionBin) :
    Except Err SolutionBuilder := do
  let pos := sb.sol.bins.length
  let sb ← sb.addBin orig bin.binTypeId bin.copies
  bin.items.foldlM (unflipItem orig d pos) sb

/-- `InstanceFlipper::unflip_solution`, `instance_flipper.cpp:114–135`. -/
def unflipSolution (orig : Instance) (d : Direction) (flipped : Solution) : Except Err Solution := do
  let sb ← flipped.bins.foldlM (unflipBin orig d) (SolutionBuilder.new orig)
  sb.build orig

end Flipper

end PackingSolver.Box
