import Verif.Model.Basic

/-!
# One-dimensional instances

Models `include/packingsolver/onedimensional/instance.hpp`.
-/

namespace PackingSolver.OneDim

/-- `struct ItemType`, `onedimensional/instance.hpp:35–117`. -/
structure ItemType where
  length : Int
  profit : ℚ
  copies : Int
  copiesMin : Int := -1
  weight : ℚ := 0
  nestingLength : Int := 0
  maximumStackability : Int := 2147483647
  maximumWeightAfter : ExtQ := .inf
  eligibilityId : Int := -1
  dominatedPrecedenceIds : List Nat := []
  dominatingPrecedenceIds : List Nat := []
  /-- Computed by `build`. -/
  copiesFixed : Int := 0
  /-- Computed by `build`: `resource_ids[bin_type_id]`. -/
  resourceIds : List (List Nat) := []
deriving DecidableEq, Repr

instance : Inhabited ItemType := ⟨{ length := 0, profit := 0, copies := 0 }⟩

/-- `struct FixedItem`, `onedimensional/instance.hpp:123–130`. -/
structure FixedItem where
  itemTypeId : Nat
  start : Int
deriving DecidableEq, Repr

/-- `struct BinType`, `onedimensional/instance.hpp:147–188`. -/
structure BinType where
  length : Int
  cost : ℚ
  copies : Int
  copiesMin : Int
  maximumWeight : ExtQ := .inf
  eligibilityIds : List Int := []
  fixedItems : List FixedItem := []
  resources : List Resource := []
  /-- Computed by `build`. -/
  itemTypeIds : List Nat := []
deriving DecidableEq, Repr

instance : Inhabited BinType := ⟨{ length := 0, cost := 0, copies := 0, copiesMin := 0 }⟩

/-- The observable content of one listed bin: its type, its number of copies
and the sequence of item types packed in it (`SolutionBin::bin_type_id`,
`copies`, `items`, `onedimensional/solution.hpp:22–50`). -/
structure PackedBin where
  binTypeId : Nat
  copies : Int
  items : List Nat
deriving DecidableEq, Repr

/-- What the model hands to the user's feasibility callback: the bins.  The C++
callback receives the `Solution` object (`onedimensional/instance.hpp:204–210`).
Simplification: the callback cannot observe flags of the previous call. -/
abbrev BinsView := List PackedBin

/-- `class Instance`, `onedimensional/instance.hpp:215–409`. -/
structure Instance where
  objective : Objective
  itemTypes : List ItemType
  binTypes : List BinType
  precedences : List (Nat × Nat) := []
  callback : BinsView → Bool := fun _ => true
  /- Computed attributes. -/
  numberOfItems : Int := 0
  itemLength : Int := 0
  itemProfit : ℚ := 0
  largestItemProfit : ℚ := 0
  largestItemCopies : Int := 0
  largestEfficiencyItemTypeId : Int := -1
  allItemTypesInfiniteCopies : Bool := false
  binLength : Int := 0
  binTypeIds : List Nat := []
  previousBinsLength : List Int := []
  largestBinCost : ℚ := 0

namespace Instance

/-- `item_type(item_type_id)`; reading out of range is undefined behaviour and
guarded separately wherever it can happen. -/
def itemType (inst : Instance) (i : Nat) : ItemType := inst.itemTypes.getD i default

/-- `bin_type(bin_type_id)`. -/
def binType (inst : Instance) (b : Nat) : BinType := inst.binTypes.getD b default

/-- `number_of_item_types()`. -/
def numberOfItemTypes (inst : Instance) : Nat := inst.itemTypes.length

/-- `number_of_bin_types()`. -/
def numberOfBinTypes (inst : Instance) : Nat := inst.binTypes.length

/-- `number_of_bins()`, `onedimensional/instance.hpp:251` (size of
`bin_type_ids_`). -/
def numberOfBins (inst : Instance) : Nat := inst.binTypeIds.length

end Instance

/-- The eligibility test used by `update_indicators`
(`onedimensional/solution.cpp:58–65`), `build`
(`instance_builder.cpp:941–948`) and `item_type_fits_bin_type`
(`instance.cpp:48–65`). -/
def eligible (itemType : ItemType) (binType : BinType) : Bool :=
  !(decide (itemType.eligibilityId ≠ -1)
    && !(binType.eligibilityIds.contains itemType.eligibilityId))

end PackingSolver.OneDim
