import Verif.Model.Truck
import Verif.Model.Rect.Instance
import Verif.Model.Box.Instance

/-!
# Instances of type boxstacks

Models `include/packingsolver/boxstacks/instance.hpp`.  `enum class Rotation` and `struct Box` of
that file (lines 30–38 and 70–90) are the same as those of type box, which are used here.
-/

namespace PackingSolver.Stacks

open PackingSolver.Box (Rotation Dims)

/-- `struct ItemType`, `boxstacks/instance.hpp:120–250`.  The default of `maximum_stackability` is the
largest 32-bit integer. -/
structure ItemType where
  box : Dims
  profit : ℚ := 0
  copies : Int := 1
  copiesMin : Int := -1
  groupId : Nat := 0
  rotations : List Rotation := []
  weight : ℚ := 0
  stackabilityId : Int := 0
  nestingHeight : Int := 0
  maximumStackability : Int := 2147483647
  maximumWeightAbove : ExtQ := .inf
  /-- Computed by `build`. -/
  copiesFixed : Int := 0
deriving DecidableEq, Repr

instance : Inhabited ItemType := ⟨{ box := ⟨0, 0, 0⟩, copies := 0 }⟩

namespace ItemType

/-- `ItemType::x(rotation)`, `boxstacks/instance.hpp:186–200` (the `default` branches, for values
outside of the enumeration, are not modelled). -/
def x (it : ItemType) : Rotation → Int
  | .xyz => it.box.x
  | .yxz => it.box.y
  | .zyx => it.box.z
  | .yzx => it.box.y
  | .xzy => it.box.x
  | .zxy => it.box.z

/-- `ItemType::y(rotation)`, `boxstacks/instance.hpp:202–216`. -/
def y (it : ItemType) : Rotation → Int
  | .xyz => it.box.y
  | .yxz => it.box.x
  | .zyx => it.box.y
  | .yzx => it.box.z
  | .xzy => it.box.z
  | .zxy => it.box.x

/-- `ItemType::z(rotation)`, `boxstacks/instance.hpp:218–232`. -/
def z (it : ItemType) : Rotation → Int
  | .xyz => it.box.z
  | .yxz => it.box.z
  | .zyx => it.box.x
  | .yzx => it.box.x
  | .xzy => it.box.y
  | .zxy => it.box.y

/-- `ItemType::volume`, `boxstacks/instance.hpp:235`. -/
def volume (it : ItemType) : Int := it.box.volume

/-- `ItemType::area`, `boxstacks/instance.hpp:237`. -/
def area (it : ItemType) : Int := it.box.x * it.box.y

/-- `ItemType::can_rotate`, `boxstacks/instance.hpp:241–246`. -/
def canRotate (it : ItemType) (r : Rotation) : Bool := it.rotations.any (· = r)

end ItemType

/-- `struct BinType`, `boxstacks/instance.hpp:275–323`.  The default of `maximum_stack_density` is the
largest `double`, here infinity.  Fixed items are not modelled. -/
structure BinType where
  box : Dims
  cost : ℚ := 0
  copies : Int := 1
  copiesMin : Int := 0
  defects : List Rect.Defect := []
  maximumWeight : ExtQ := .inf
  maximumStackDensity : ExtQ := .inf
  truck : TruckData := {}
deriving DecidableEq, Repr

instance : Inhabited BinType := ⟨{ box := ⟨0, 0, 0⟩, copies := 0 }⟩

/-- `BinType::area`, `boxstacks/instance.hpp:314`. -/
def BinType.area (b : BinType) : Int := b.box.x * b.box.y

/-- `BinType::volume`, `boxstacks/instance.hpp:317`. -/
def BinType.volume (b : BinType) : Int := b.box.volume

/-- The observable content of a stack: its place on the floor and its items from bottom to top, each
with its type and rotation. -/
structure PackedStack where
  xStart : Int
  xEnd : Int
  yStart : Int
  yEnd : Int
  items : List (Nat × Rotation)
deriving DecidableEq, Repr

/-- The observable content of one listed bin. -/
structure PackedBin where
  binTypeId : Nat
  copies : Int
  piles : List PackedStack
deriving DecidableEq, Repr

/-- `class Instance`, `boxstacks/instance.hpp:360–550`.  The feasibility callback sees the bins
(simplification, as for the other problem types); `bin_weight_`, a sum of possibly infinite doubles,
is not modelled, and of `groups_` only their number. -/
structure Instance where
  objective : Objective
  itemTypes : List ItemType
  binTypes : List BinType
  unloadingConstraint : Rect.UnloadingConstraint := .none
  checkWeightConstraintsList : List Bool := []
  callback : List PackedBin → Bool := fun _ => true
  /- Computed attributes. -/
  binTypeIds : List Nat := []
  numberOfGroups : Nat := 0
  numberOfItems : Int := 0

namespace Instance

/-- `item_type(item_type_id)`. -/
def itemType (inst : Instance) (i : Nat) : ItemType := inst.itemTypes.getD i default

/-- `bin_type(bin_type_id)`. -/
def binType (inst : Instance) (b : Nat) : BinType := inst.binTypes.getD b default

/-- `number_of_item_types()`. -/
def numberOfItemTypes (inst : Instance) : Nat := inst.itemTypes.length

/-- `number_of_bin_types()`. -/
def numberOfBinTypes (inst : Instance) : Nat := inst.binTypes.length

/-- `check_weight_constraints(group_id)`, `boxstacks/instance.hpp:386`. -/
def checkWeightConstraints (inst : Instance) (g : Nat) : Bool :=
  if g ≥ inst.checkWeightConstraintsList.length then true
  else inst.checkWeightConstraintsList.getD g true

end Instance

end PackingSolver.Stacks
