import Verif.Model.Guil.Builder
import Verif.Spec.Describe

/-!
# What a history of calls of the builder of guillotine instances describes
-/

namespace PackingSolver.Guil.Spec

open PackingSolver.Guil InstanceBuilder
open PackingSolver.Spec (lastGiven allGiven consumptionOf)

/-- Calls that add a type or concern a single type (and not all types at once, nor a type of another
instance). -/
def Plain : BuilderOp → Prop
  | .setNumberOfStagesUnlimited
  | .setPredefined _
  | .setBinTypesInfiniteX
  | .setBinTypesInfiniteY
  | .setBinTypesInfiniteCopies
  | .setBinTypesUnweighted
  | .setItemTypesUnweighted
  | .setItemTypesOriented _
  | .setItemTypesInfiniteCopies
  | .multiplyItemTypesCopies _
  | .addBinTypeFrom _ _
  | .addItemTypeFrom _ _ => False
  | _ => True

def objectiveGiven : BuilderOp → Option Objective
  | .setObjective o => some o
  | _ => none

def callbackGiven : BuilderOp → Option (List SolutionBin → Bool)
  | .setCallback f => some f
  | _ => none

/-! ## Bin types -/

def binAdded : BuilderOp → Option (Int × Int)
  | .addBinType u v => some (u, v)
  | _ => none

/-- The cost given for bin type `i` of size `d`; -1 stands for its area. -/
def binCostGiven (i : Nat) (d : Int × Int) : BuilderOp → Option (ℚ)
  | .setBinTypeCost k c => if i = k then some (if c = -1 then d.1 * d.2 else c) else none
  | _ => none

def binTrimsGiven (i : Nat) : BuilderOp → Option (Trims)
  | .addTrims k r => if i = k then some r else none
  | _ => none

def binDefectsGiven (i : Nat) : BuilderOp → Option (Defect)
  | .addDefect k x y u v => if i = k then some { x := x, y := y, w := u, h := v } else none
  | _ => none

/-- Capacity, whether an excess is penalised, and penalty. -/
def binResourcesGiven (i : Nat) : BuilderOp → Option (ℚ × Bool × ℚ)
  | .addBinTypeResource k c p q => if i = k then some (c, p, q) else none
  | _ => none

def binCopiesGiven (i : Nat) : BuilderOp → Option (Int)
  | .setBinTypeCopies k c => if i = k then some c else none
  | _ => none

def binCopiesMinGiven (i : Nat) : BuilderOp → Option (Int)
  | .setBinTypeCopiesMin k c => if i = k then some c else none
  | _ => none

/-- Bin type `i`, added with size `d`, has the attributes given last, and the lists of those given, in
order. -/
structure BinAsGiven (ops : List BuilderOp) (i : Nat) (d : Int × Int) (t : BinType) : Prop where
  size : (t.w, t.h) = d
  cost : t.cost = (lastGiven (binCostGiven i d) ops).getD (d.1 * d.2)
  trims : trimsOf t = (lastGiven (binTrimsGiven i) ops).getD ⟨0, .hard, 0, .soft, 0, .hard, 0, .soft⟩
  defects : t.defects
    = allGiven (binDefectsGiven i) ops
  resources : (t.resources.map fun r => (r.capacity, r.penalize, r.penalty))
    = allGiven (binResourcesGiven i) ops
  copies : t.copies = (lastGiven (binCopiesGiven i) ops).getD 1
  copiesMin : t.copiesMin = (lastGiven (binCopiesMinGiven i) ops).getD 0

/-- The consumption given for item type `j` of resource `r` of bin type `i`: (copy, amount). -/
def consumptionGiven (i r j : Nat) : BuilderOp → Option (Nat × ℚ)
  | .addResourceConsumption i' r' j' c q =>
      if i = i' ∧ r = r' ∧ j = j' then some (c.toNat, q) else none
  | _ => none

/-! ## Item types -/

def itemAdded : BuilderOp → Option (Int × Int × Bool × Int)
  | .addItemType u v o s => some (u, v, o, s)
  | _ => none

def itemProfitGiven (i : Nat) : BuilderOp → Option ℚ
  | .setItemTypeProfit k p => if i = k then some p else none
  | _ => none

def itemCopiesGiven (i : Nat) : BuilderOp → Option Int
  | .setItemTypeCopies k c => if i = k then some c else none
  | _ => none

def itemCopiesMinGiven (i : Nat) : BuilderOp → Option Int
  | .setItemTypeCopiesMin k c => if i = k then some c else none
  | _ => none

/-- Item type `i`, added with size `d`, has the attributes given last. -/
structure ItemAsGiven (ops : List BuilderOp) (i : Nat) (d : Int × Int × Bool × Int) (t : ItemType) : Prop where
  size : (t.w, t.h, t.oriented, t.stackId) = d
  profit : t.profit = (lastGiven (itemProfitGiven i) ops).getD (d.1 * d.2.1)
  copies : t.copies = (lastGiven (itemCopiesGiven i) ops).getD 1
  copiesMin : t.copiesMin = (lastGiven (itemCopiesMinGiven i) ops).getD (-1)

/-! ## Accepted calls -/

/-- The calls a builder accepts: sides of bins are positive, those of items non-negative, ids exist,
costs and numbers of copies are positive or -1, and minima are consistent. -/
def Acceptable (inst : Instance) : BuilderOp → Prop
  | .addBinType u v => 0 < u ∧ 0 < v
  | .setBinTypeCost i c => i < inst.binTypes.length ∧ (0 < c ∨ c = -1)
  | .addTrims i r => i < inst.binTypes.length ∧ 0 ≤ r.bottom ∧ 0 ≤ r.top
      ∧ r.bottom + r.top < (inst.binType i).h ∧ 0 ≤ r.left ∧ 0 ≤ r.right
      ∧ r.left + r.right < (inst.binType i).w
  | .addDefect i _ _ _ _ => i < inst.binTypes.length
  | .addBinTypeResource i _ _ _ => i < inst.binTypes.length
  | .addResourceConsumption i r _ c _ => i < inst.binTypes.length ∧ r < (inst.binType i).resources.length ∧ 0 ≤ c
  | .setBinTypeCopies i c => i < inst.binTypes.length ∧ (c = -1 ∨ (0 < c ∧ (inst.binType i).copiesMin ≤ c))
  | .setBinTypeCopiesMin i c => i < inst.binTypes.length ∧ 0 ≤ c
      ∧ ((inst.binType i).copies = -1 ∨ c ≤ (inst.binType i).copies)
  | .addItemType u v _ _ => 0 ≤ u ∧ 0 ≤ v
  | .setItemTypeProfit i _ => i < inst.itemTypes.length
  | .setItemTypeCopies i c => i < inst.itemTypes.length ∧ (c = -1 ∨ 0 < c)
  | .setItemTypeCopiesMin i c => i < inst.itemTypes.length ∧ -1 ≤ c
  | .setFixedCuttingCost s _ => 0 ≤ s ∧ s < inst.parameters.cuttingCosts.length
  | .setVariableCuttingCost s _ => 0 ≤ s ∧ s < inst.parameters.cuttingCosts.length
  | _ => True

/-! ## Cutting parameters: set one by one, all at once, or by the preset of the ROADEF/EURO 2018
challenge -/

def firstStageOrientationGiven : BuilderOp → Option CutOrientation
  | .setFirstStageOrientation v => some v
  | .setParameters p => some p.firstStageOrientation
  | .setRoadef2018 => some .vertical
  | _ => none

def minimumDistance1CutsGiven : BuilderOp → Option Int
  | .setMinimumDistance1Cuts v => some v
  | .setParameters p => some p.minimumDistance1Cuts
  | .setRoadef2018 => some 100
  | _ => none

def maximumDistance1CutsGiven : BuilderOp → Option Int
  | .setMaximumDistance1Cuts v => some v
  | .setParameters p => some p.maximumDistance1Cuts
  | .setRoadef2018 => some 3500
  | _ => none

def minimumDistance2CutsGiven : BuilderOp → Option Int
  | .setMinimumDistance2Cuts v => some v
  | .setParameters p => some p.minimumDistance2Cuts
  | .setRoadef2018 => some 100
  | _ => none

def maximumDistance2CutsGiven : BuilderOp → Option Int
  | .setMaximumDistance2Cuts v => some v
  | .setParameters p => some p.maximumDistance2Cuts
  | _ => none

def minimumWasteLengthGiven : BuilderOp → Option Int
  | .setMinimumWasteLength v => some v
  | .setParameters p => some p.minimumWasteLength
  | .setRoadef2018 => some 20
  | _ => none

def maximumNumber1CutsGiven : BuilderOp → Option Int
  | .setMaximumNumber1Cuts v => some v
  | .setParameters p => some p.maximumNumber1Cuts
  | _ => none

def maximumNumber2CutsGiven : BuilderOp → Option Int
  | .setMaximumNumber2Cuts v => some v
  | .setParameters p => some p.maximumNumber2Cuts
  | _ => none

def cutThicknessGiven : BuilderOp → Option Int
  | .setCutThickness v => some v
  | .setParameters p => some p.cutThickness
  | _ => none

def wasteCostGiven : BuilderOp → Option Int
  | .setWasteCost v => some v
  | .setParameters p => some p.wasteCost
  | _ => none

def cutThroughDefectsGiven : BuilderOp → Option Bool
  | .setCutThroughDefects v => some v
  | .setParameters p => some p.cutThroughDefects
  | .setRoadef2018 => some false
  | _ => none

def numberOfStagesGiven : BuilderOp → Option Int
  | .setNumberOfStages v => some v
  | .setParameters p => some p.numberOfStages
  | .setRoadef2018 => some 3
  | _ => none

def cutTypeGiven : BuilderOp → Option CutType
  | .setCutType v => some v
  | .setParameters p => some p.cutType
  | .setRoadef2018 => some .roadef2018
  | _ => none

/-- The fixed cost given for the cuts of stage `s`. -/
def fixedCostGiven (s : Nat) : BuilderOp → Option Int
  | .setFixedCuttingCost k v => if k = (s : Int) then some v else none
  | .setParameters p => some (p.cuttingCosts.getD s {}).fixed
  | _ => none

/-- The cost per unit of length given for the cuts of stage `s`. -/
def perUnitCostGiven (s : Nat) : BuilderOp → Option Int
  | .setVariableCuttingCost k v => if k = (s : Int) then some v else none
  | .setParameters p => some (p.cuttingCosts.getD s {}).perUnit
  | _ => none

/-- The cutting parameters are those given last. -/
structure ParametersAsGiven (ops : List BuilderOp) (p : Parameters) : Prop where
  firstStageOrientation : p.firstStageOrientation = (lastGiven firstStageOrientationGiven ops).getD .vertical
  minimumDistance1Cuts : p.minimumDistance1Cuts = (lastGiven minimumDistance1CutsGiven ops).getD 0
  maximumDistance1Cuts : p.maximumDistance1Cuts = (lastGiven maximumDistance1CutsGiven ops).getD (-1)
  minimumDistance2Cuts : p.minimumDistance2Cuts = (lastGiven minimumDistance2CutsGiven ops).getD 0
  maximumDistance2Cuts : p.maximumDistance2Cuts = (lastGiven maximumDistance2CutsGiven ops).getD (-1)
  minimumWasteLength : p.minimumWasteLength = (lastGiven minimumWasteLengthGiven ops).getD 0
  maximumNumber1Cuts : p.maximumNumber1Cuts = (lastGiven maximumNumber1CutsGiven ops).getD (-1)
  maximumNumber2Cuts : p.maximumNumber2Cuts = (lastGiven maximumNumber2CutsGiven ops).getD (-1)
  cutThickness : p.cutThickness = (lastGiven cutThicknessGiven ops).getD 0
  wasteCost : p.wasteCost = (lastGiven wasteCostGiven ops).getD 0
  cutThroughDefects : p.cutThroughDefects = (lastGiven cutThroughDefectsGiven ops).getD false
  numberOfStages : p.numberOfStages = (lastGiven numberOfStagesGiven ops).getD 3
  cutType : p.cutType = (lastGiven cutTypeGiven ops).getD .nonExact
  fixed : ∀ s, (p.cuttingCosts.getD s {}).fixed = (lastGiven (fixedCostGiven s) ops).getD 0
  perUnit : ∀ s, (p.cuttingCosts.getD s {}).perUnit = (lastGiven (perUnitCostGiven s) ops).getD 0

end PackingSolver.Guil.Spec
