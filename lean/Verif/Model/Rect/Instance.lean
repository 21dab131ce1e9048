import Verif.Model.Truck

/-!
# Instances of type rectangle

Models `include/packingsolver/rectangle/instance.hpp` and the getters of
`src/rectangle/instance.cpp`.
-/

namespace PackingSolver.Rect

/-- `enum class LeftoverMode`, `rectangle/instance.hpp:23–31`. -/
inductive LeftoverMode where
  | area | x | y
deriving DecidableEq, Repr

/-- `enum class UnloadingConstraint`, `rectangle/instance.hpp:42–49`. -/
inductive UnloadingConstraint where
  | none | onlyXMovements | onlyYMovements | increasingX | increasingY
deriving DecidableEq, Repr

/-- `struct Parameters`, `rectangle/instance.hpp:300–313`. -/
structure Parameters where
  unloadingConstraint : UnloadingConstraint := .none
  leftoverMode : LeftoverMode := .area
  checkWeightConstraints : List Bool := []
deriving DecidableEq, Repr

/-- `struct ItemType`, `rectangle/instance.hpp:123–189`; `x`, `y` are the members of `rect`. -/
structure ItemType where
  x : Int
  y : Int
  profit : ℚ := 0
  copies : Int := 1
  copiesMin : Int := -1
  groupId : Nat := 0
  oriented : Bool := false
  weight : ℚ := 0
  eligibilityId : Int := -1
  /-- Computed by `build`. -/
  copiesFixed : Int := 0
  /-- Computed by `build`: `resource_ids[bin_type_id]`. -/
  resourceIds : List (List Nat) := []
deriving DecidableEq, Repr

instance : Inhabited ItemType := ⟨{ x := 0, y := 0, copies := 0 }⟩

/-- `ItemType::x(bool rotate)`, `rectangle/instance.hpp:167`. -/
def ItemType.width (it : ItemType) (rotate : Bool) : Int := if rotate then it.y else it.x

/-- `ItemType::y(bool rotate)`, `rectangle/instance.hpp:170`. -/
def ItemType.height (it : ItemType) (rotate : Bool) : Int := if rotate then it.x else it.y

/-- `ItemType::area`, `rectangle/instance.hpp:173`. -/
def ItemType.area (it : ItemType) : Int := it.x * it.y

/-- `struct Defect`, `rectangle/instance.hpp:198–224`. -/
structure Defect where
  posX : Int
  posY : Int
  x : Int
  y : Int
deriving DecidableEq, Repr

/-- `struct FixedItem`, `rectangle/instance.hpp:230–240`, and `struct SolutionItem`,
`rectangle/solution.hpp:10–20`. -/
structure PlacedItem where
  itemTypeId : Nat
  x : Int
  y : Int
  rotate : Bool
deriving DecidableEq, Repr

/-- `struct BinType`, `rectangle/instance.hpp:245–294`. -/
structure BinType where
  x : Int
  y : Int
  cost : ℚ := 0
  copies : Int := 1
  copiesMin : Int := 0
  maximumWeight : ExtQ := .inf
  truck : TruckData := {}
  eligibilityIds : List Int := []
  defects : List Defect := []
  fixedItems : List PlacedItem := []
  resources : List Resource := []
  /-- Computed by `build`. -/
  itemTypeIds : List Nat := []
deriving DecidableEq, Repr

instance : Inhabited BinType := ⟨{ x := 0, y := 0, copies := 0 }⟩

/-- `BinType::area`, `rectangle/instance.hpp:285`. -/
def BinType.area (b : BinType) : Int := b.x * b.y

/-- The observable content of one listed bin (`SolutionBin::bin_type_id`, `copies`, `items`,
`rectangle/solution.hpp:25–46`). -/
structure PackedBin where
  binTypeId : Nat
  copies : Int
  items : List PlacedItem
deriving DecidableEq, Repr

/-- `class Instance`, `rectangle/instance.hpp:332–601`; of the attributes computed by `build`
only those that the modelled code reads.  The feasibility callback sees the bins
(simplification, as for one-dimensional instances). -/
structure Instance where
  objective : Objective
  itemTypes : List ItemType
  binTypes : List BinType
  parameters : Parameters := {}
  callback : List PackedBin → Bool := fun _ => true
  /- Computed attributes. -/
  numberOfItems : Int := 0
  numberOfGroups : Nat := 1
  binTypeIds : List Nat := []
  previousBinsArea : List Int := []
  binArea : Int := 0
  largestBinCost : ℚ := 0
  numberOfDefects : Nat := 0
  itemArea : Int := 0
  totalItemWidth : Int := 0
  totalItemHeight : Int := 0
  smallestItemWidth : Int := 0
  smallestItemHeight : Int := 0
  itemWeight : ℚ := 0
  itemProfit : ℚ := 0
  largestItemProfit : ℚ := 0
  largestItemCopies : Int := 0
  largestEfficiencyItemTypeId : Int := -1
  allItemTypesInfiniteCopies : Bool := false

namespace Instance

/-- `item_type(item_type_id)`. -/
def itemType (inst : Instance) (i : Nat) : ItemType := inst.itemTypes.getD i default

/-- `bin_type(bin_type_id)`. -/
def binType (inst : Instance) (b : Nat) : BinType := inst.binTypes.getD b default

/-- `number_of_item_types()`. -/
def numberOfItemTypes (inst : Instance) : Nat := inst.itemTypes.length

/-- `number_of_bin_types()`. -/
def numberOfBinTypes (inst : Instance) : Nat := inst.binTypes.length

/-- `number_of_bins()`, size of `bin_type_ids_`. -/
def numberOfBins (inst : Instance) : Nat := inst.binTypeIds.length

/-- `check_weight_constraints(group_id)`, `rectangle/instance.hpp:360`. -/
def checkWeightConstraints (inst : Instance) (g : Nat) : Bool :=
  if g ≥ inst.parameters.checkWeightConstraints.length then true
  else inst.parameters.checkWeightConstraints.getD g true

/-- `item_type_fits_bin_type`, `rectangle/instance.cpp:222–244`. -/
def itemTypeFitsBinType (inst : Instance) (i b : Nat) : Bool :=
  let it := inst.itemType i
  let bt := inst.binType b
  if !(decide (it.x ≤ bt.x ∧ it.y ≤ bt.y)
      || (!it.oriented && decide (it.y ≤ bt.x ∧ it.x ≤ bt.y))) then false
  else if it.eligibilityId ≠ -1 ∧ it.eligibilityId ∉ bt.eligibilityIds then false
  else true

/-- `fits_some_bin`, `rectangle/instance.cpp:246–256`. -/
def fitsSomeBin (inst : Instance) (i : Nat) : Bool :=
  (List.range inst.numberOfBinTypes).any fun b => inst.itemTypeFitsBinType i b

/-- `all_item_types_oriented`, `rectangle/instance.cpp:258–267`. -/
def allItemTypesOriented (inst : Instance) : Bool := inst.itemTypes.all fun it => it.oriented

end Instance

end PackingSolver.Rect
