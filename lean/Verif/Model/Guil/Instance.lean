import Verif.Model.Basic

/-!
# Instances of type rectangleguillotine

Models `include/packingsolver/rectangleguillotine/instance.hpp` and the node and bin structures of
`include/packingsolver/rectangleguillotine/solution.hpp`.
-/

namespace PackingSolver.Guil

/-- `enum class CutType`, `rectangleguillotine/instance.hpp:12`. -/
inductive CutType where
  | roadef2018 | nonExact | exact | homogenous
deriving DecidableEq, Repr

/-- `enum class CutOrientation`, `rectangleguillotine/instance.hpp:13`. -/
inductive CutOrientation where
  | horizontal | vertical | any
deriving DecidableEq, Repr

/-- `enum class TrimType`, `rectangleguillotine/instance.hpp:25`. -/
inductive TrimType where
  | soft | hard
deriving DecidableEq, Repr

/-- `struct CutCost`, `rectangleguillotine/instance.hpp:99–109`. -/
structure CutCost where
  fixed : Int := 0
  /-- `variable`. -/
  perUnit : Int := 0
deriving DecidableEq, Repr

/-- `struct Parameters`, `rectangleguillotine/instance.hpp:111–177`. -/
structure Parameters where
  numberOfStages : Int := 3
  cutType : CutType := .nonExact
  firstStageOrientation : CutOrientation := .vertical
  minimumDistance1Cuts : Int := 0
  maximumDistance1Cuts : Int := -1
  minimumDistance2Cuts : Int := 0
  maximumDistance2Cuts : Int := -1
  minimumWasteLength : Int := 0
  maximumNumber1Cuts : Int := -1
  maximumNumber2Cuts : Int := -1
  cutThroughDefects : Bool := false
  cutThickness : Int := 0
  cuttingCosts : List CutCost := []
  wasteCost : Int := 0
deriving DecidableEq, Repr

/-- `struct Defect`, `rectangleguillotine/instance.hpp:182–205`. -/
structure Defect where
  x : Int
  y : Int
  w : Int
  h : Int
deriving DecidableEq, Repr

/-- `struct BinType`, `rectangleguillotine/instance.hpp:220–281`; `w`, `h` are the members of
`rect`; of a fixed item only its type is stored by the code. -/
structure BinType where
  w : Int
  h : Int
  cost : ℚ := 0
  copies : Int := 1
  copiesMin : Int := 0
  defects : List Defect := []
  fixedItems : List Nat := []
  bottomTrim : Int := 0
  topTrim : Int := 0
  leftTrim : Int := 0
  rightTrim : Int := 0
  bottomTrimType : TrimType := .hard
  topTrimType : TrimType := .soft
  leftTrimType : TrimType := .hard
  rightTrimType : TrimType := .soft
  resources : List Resource := []
deriving DecidableEq, Repr

instance : Inhabited BinType := ⟨{ w := 0, h := 0, copies := 0 }⟩

/-- `BinType::area`, `rectangleguillotine/instance.hpp:272`. -/
def BinType.area (b : BinType) : Int :=
  (b.h - b.topTrim - b.bottomTrim) * (b.w - b.rightTrim - b.leftTrim)

/-- `struct ItemType`, `rectangleguillotine/instance.hpp:290–346`; `w`, `h` are the members of
`rect`. -/
structure ItemType where
  w : Int
  h : Int
  profit : ℚ := 0
  copies : Int := 1
  copiesMin : Int := -1
  stackId : Int := -1
  stackPos : Int := 0
  oriented : Bool := false
  copiesFixed : Int := 0
  /-- Computed by `build`: `resource_ids[bin_type_id]`. -/
  resourceIds : List (List Nat) := []
deriving DecidableEq, Repr

instance : Inhabited ItemType := ⟨{ w := 0, h := 0, copies := 0 }⟩

/-- `ItemType::area`, `rectangleguillotine/instance.hpp:330`. -/
def ItemType.area (it : ItemType) : Int := it.w * it.h

/-- `struct SolutionNode`, `rectangleguillotine/solution.hpp:22–33`; `f` is `none` for `-1`.
`item_type_id` is an item type, or `-1` (waste), `-2` (node with children), `-3` (residual). -/
structure Node where
  f : Option Nat
  d : Int
  l : Int
  r : Int
  b : Int
  t : Int
  children : List Nat := []
  itemTypeId : Int
deriving DecidableEq, Repr

instance : Inhabited Node := ⟨{ f := none, d := 0, l := 0, r := 0, b := 0, t := 0, itemTypeId := 0 }⟩

/-- `struct SolutionBin`, `rectangleguillotine/solution.hpp:38–73`. -/
structure SolutionBin where
  binTypeId : Nat
  copies : Int
  firstCutOrientation : CutOrientation
  nodes : List Node := []
  numberOfStages : Int := 0
  numberOfStagesReal : Int := 0
  cutTypeIsNonExact : Bool := false
  cutTypeIsRoadef2018 : Bool := false
  resourceConsumption : List ℚ := []
deriving DecidableEq, Repr

instance : Inhabited SolutionBin := ⟨{ binTypeId := 0, copies := 0, firstCutOrientation := .any }⟩

/-- `class Instance`, `rectangleguillotine/instance.hpp:369–651`.  The feasibility callback sees
the bins (simplification: the code hands it the whole solution). -/
structure Instance where
  objective : Objective
  itemTypes : List ItemType
  binTypes : List BinType
  parameters : Parameters := {}
  callback : List SolutionBin → Bool := fun _ => true
  /- Computed attributes. -/
  binTypeIds : List Nat := []
  previousBinsArea : List Int := []
  binArea : Int := 0
  largestBinCost : ℚ := 0
  numberOfDefects : Nat := 0
  numberOfItems : Int := 0
  itemTypeIds : List Nat := []
  stackOffsets : List Int := []
  itemArea : Int := 0
  itemProfit : ℚ := 0
  largestItemProfit : ℚ := 0
  largestEfficiencyItemTypeId : Int := -1
  largestItemCopies : Int := 0
  allItemTypesInfiniteCopies : Bool := false
  allItemTypesOriented : Bool := true

namespace Instance

/-- `item_type(item_type_id)`. -/
def itemType (inst : Instance) (i : Nat) : ItemType := inst.itemTypes.getD i default

/-- `bin_type(bin_type_id)`. -/
def binType (inst : Instance) (b : Nat) : BinType := inst.binTypes.getD b default

/-- `number_of_item_types()`. -/
def numberOfItemTypes (inst : Instance) : Nat := inst.itemTypes.length

/-- `number_of_bin_types()`. -/
def numberOfBinTypes (inst : Instance) : Nat := inst.binTypes.length

/-- `number_of_bins()`, size of `bin_type_ids_`. -/
def numberOfBins (inst : Instance) : Nat := inst.binTypeIds.length

/-- `number_of_stacks()`, `rectangleguillotine/instance.hpp:448`. -/
def numberOfStacks (inst : Instance) : Int := (inst.stackOffsets.length : Int) - 1

/-- `stack_size(s)`, `rectangleguillotine/instance.hpp:451`. -/
def stackSize (inst : Instance) (s : Nat) : Int :=
  inst.stackOffsets.getD (s + 1) 0 - inst.stackOffsets.getD s 0

/-- Position of `item(s, item_pos)` in the flat array, `rectangleguillotine/instance.hpp:454`. -/
def stackIndex (inst : Instance) (s pos : Int) : Int := inst.stackOffsets.getD s.toNat 0 + pos

/-- `item(s, item_pos)`, `rectangleguillotine/instance.hpp:454`. -/
def item (inst : Instance) (s pos : Int) : Nat :=
  inst.itemTypeIds.getD (inst.stackIndex s pos).toNat 0

end Instance

/-- `rect_intersects_defect`, `rectangleguillotine/instance.hpp:657–682`; only whether a defect is
found is modelled. -/
def rectIntersectsDefect (l r b t : Int) (bt : BinType) : Bool :=
  bt.defects.any fun d =>
    !decide (d.x ≥ r) && !decide (l ≥ d.x + d.w) && !decide (d.y ≥ t) && !decide (b ≥ d.y + d.h)

/-- `x_intersects_defect(x, b, t, bin_type)`, `rectangleguillotine/instance.hpp:722–745`; only
whether a defect is found is modelled. -/
def xIntersectsDefect (x b t : Int) (bt : BinType) : Bool :=
  bt.defects.any fun d =>
    !(decide (d.y + d.h ≤ b) || decide (d.y ≥ t)) && !(decide (d.x ≥ x) || decide (d.x + d.w ≤ x))

/-- `y_intersects_defect(l, r, y, bin_type)`, `rectangleguillotine/instance.hpp:697–720`; only
whether a defect is found is modelled. -/
def yIntersectsDefect (l r y : Int) (bt : BinType) : Bool :=
  bt.defects.any fun d =>
    !(decide (d.x + d.w ≤ l) || decide (d.x ≥ r)) && !(decide (d.y ≥ y) || decide (d.y + d.h ≤ y))

end PackingSolver.Guil
