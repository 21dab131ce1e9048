import Verif.Model.Truck

/-!
# Instances of type box

Models `include/packingsolver/box/instance.hpp` and the getters of `src/box/instance.cpp`.
-/

namespace PackingSolver.Box

/-- `enum class Rotation`, `box/instance.hpp:30–38`. -/
inductive Rotation where
  | xyz | yxz | zyx | yzx | xzy | zxy
deriving DecidableEq, Repr

/-- `struct Box`, `box/instance.hpp:79–113`. -/
structure Dims where
  x : Int
  y : Int
  z : Int
deriving DecidableEq, Repr

/-- `Box::volume`, `box/instance.hpp:91`. -/
def Dims.volume (d : Dims) : Int := d.x * d.y * d.z

/-- `Box::max`, `box/instance.hpp:94`. -/
def Dims.max (d : Dims) : Int := Max.max (Max.max d.x d.y) d.z

/-- `Box::rotate`, `box/instance.hpp:96–111` (the `default` branch, for values outside of the
enumeration, is not modelled). -/
def Dims.rotate (d : Dims) : Rotation → Dims
  | .xyz => ⟨d.x, d.y, d.z⟩
  | .yxz => ⟨d.y, d.x, d.z⟩
  | .zyx => ⟨d.z, d.y, d.x⟩
  | .yzx => ⟨d.y, d.z, d.x⟩
  | .xzy => ⟨d.x, d.z, d.y⟩
  | .zxy => ⟨d.z, d.x, d.y⟩

/-- `struct ItemType`, `box/instance.hpp:129–185`. -/
structure ItemType where
  box : Dims
  profit : ℚ := 0
  copies : Int := 1
  copiesMin : Int := -1
  rotations : List Rotation := []
  weight : ℚ := 0
  /-- Computed by `build`. -/
  copiesFixed : Int := 0
  /-- Computed by `build`: `resource_ids[bin_type_id]`. -/
  resourceIds : List (List Nat) := []
deriving DecidableEq, Repr

instance : Inhabited ItemType := ⟨{ box := ⟨0, 0, 0⟩, copies := 0 }⟩

/-- `ItemType::volume`, `box/instance.hpp:160`. -/
def ItemType.volume (it : ItemType) : Int := it.box.volume

/-- `ItemType::can_rotate`, `box/instance.hpp:166–171`. -/
def ItemType.canRotate (it : ItemType) (r : Rotation) : Bool := it.rotations.any (· = r)

/-- `struct SolutionItem`, `box/solution.hpp:10–20`; `x`, `y`, `z` are the coordinates of
`bl_corner`. -/
structure PlacedItem where
  itemTypeId : Nat
  x : Int
  y : Int
  z : Int
  rotation : Rotation
deriving DecidableEq, Repr

/-- `struct FixedItem`, `box/instance.hpp:191–201`: the rotation is an integer. -/
structure FixedItem where
  itemTypeId : Nat
  x : Int
  y : Int
  z : Int
  rotation : Int
deriving DecidableEq, Repr

/-- `struct BinType`, `box/instance.hpp:206–247`. -/
structure BinType where
  box : Dims
  cost : ℚ := 0
  copies : Int := 1
  copiesMin : Int := 0
  maximumWeight : ExtQ := .inf
  fixedItems : List FixedItem := []
  resources : List Resource := []
deriving DecidableEq, Repr

instance : Inhabited BinType := ⟨{ box := ⟨0, 0, 0⟩, copies := 0 }⟩

/-- `BinType::area`, the floor area, `box/instance.hpp:234`. -/
def BinType.area (b : BinType) : Int := b.box.x * b.box.y

/-- `BinType::volume`, `box/instance.hpp:237`. -/
def BinType.volume (b : BinType) : Int := b.box.volume

/-- The observable content of one listed bin (`SolutionBin::bin_type_id`, `copies`, `items`,
`box/solution.hpp:25–44`). -/
structure PackedBin where
  binTypeId : Nat
  copies : Int
  items : List PlacedItem
deriving DecidableEq, Repr

/-- `class Instance`, `box/instance.hpp:274–512`.  The feasibility callback sees the bins
(simplification, as for the other problem types); `bin_weight_`, a sum of possibly infinite doubles,
is not modelled. -/
structure Instance where
  objective : Objective
  itemTypes : List ItemType
  binTypes : List BinType
  callback : List PackedBin → Bool := fun _ => true
  /- Computed attributes. -/
  binTypeIds : List Nat := []
  previousBinsVolume : List Int := []
  binVolume : Int := 0
  binArea : Int := 0
  largestBinCost : ℚ := 0
  numberOfItems : Int := 0
  itemVolume : Int := 0
  itemWeight : ℚ := 0
  itemProfit : ℚ := 0
  largestItemProfit : ℚ := 0
  largestEfficiencyItemTypeId : Int := -1
  smallestItemX : Int := 0
  smallestItemY : Int := 0
  smallestItemZ : Int := 0
  largestItemCopies : Int := 0
  allItemTypesInfiniteCopies : Bool := false

namespace Instance

/-- `item_type(item_type_id)`. -/
def itemType (inst : Instance) (i : Nat) : ItemType := inst.itemTypes.getD i default

/-- `bin_type(bin_type_id)`. -/
def binType (inst : Instance) (b : Nat) : BinType := inst.binTypes.getD b default

/-- `number_of_item_types()`. -/
def numberOfItemTypes (inst : Instance) : Nat := inst.itemTypes.length

/-- `number_of_bin_types()`. -/
def numberOfBinTypes (inst : Instance) : Nat := inst.binTypes.length

/-- `number_of_bins()`, size of `bin_type_ids_`. -/
def numberOfBins (inst : Instance) : Nat := inst.binTypeIds.length

end Instance

end PackingSolver.Box
