import Verif.Spec.GuillotineTotals

/-!
# Specification: number of stages of guillotine solutions, and tables of an instance
-/

namespace PackingSolver.Guil.Spec

/-- The node is the whole of its father: cutting it needs no cut. -/
def Whole (nodes : List Node) (n : Node) : Prop :=
  ∃ f, n.f = some f ∧ region n = region (nodes.getD f default)

instance (nodes : List Node) (n : Node) : Decidable (Whole nodes n) :=
  match h : n.f with
  | none => .isFalse (by rintro ⟨f, hf, _⟩; rw [h] at hf; cases hf)
  | some f =>
    if hr : region n = region (nodes.getD f default) then .isTrue ⟨f, h, hr⟩
    else .isFalse (by rintro ⟨g, hg, hr'⟩; rw [h] at hg; cases hg; exact hr hr')

/-- Depths of the pieces that are separated by a cut. -/
def cutDepths (nodes : List Node) : List Int :=
  (nodes.filter fun n => !decide (Whole nodes n)).map (·.d)

/-- The pieces a node is cut into, without the residual. -/
def pieces (nodes : List Node) (n : Node) : List Node :=
  (n.children.map fun i => nodes.getD i default).filter fun c => decide (c.itemTypeId ≠ -3)

/-- The items among the pieces a node is cut into. -/
def itemPieces (nodes : List Node) (n : Node) : List Node :=
  (pieces nodes n).filter fun c => decide (0 ≤ c.itemTypeId)

/-- One item and at most one other piece: the cut only trims an item. -/
def TrimsOne (nodes : List Node) (n : Node) : Prop :=
  (itemPieces nodes n).length = 1 ∧ (pieces nodes n).length ≤ 2

/-- At least two items, at most three pieces. -/
def SplitsTwo (nodes : List Node) (n : Node) : Prop :=
  2 ≤ (itemPieces nodes n).length ∧ (pieces nodes n).length ≤ 3

/-- The nodes that are cut by the last of `real` stages. -/
def lastCut (nodes : List Node) (real : Int) : List Node :=
  nodes.filter fun n => decide (n.itemTypeId = -2) && decide (n.d = real - 1)

/-- The last of `real` stages is not counted, because of the cut type. -/
def LastStageFree (ct : CutType) (nodes : List Node) (real : Int) : Prop :=
  0 < real ∧ lastCut nodes real ≠ []
    ∧ ((ct = .nonExact ∧ ∀ n ∈ lastCut nodes real, TrimsOne nodes n)
      ∨ (ct = .roadef2018 ∧ ∀ n ∈ lastCut nodes real, TrimsOne nodes n ∨ SplitsTwo nodes n))

variable (inst : Instance)

/-- What the tables of an instance must contain: resources of every item type for every bin type,
the item types of the stacks, and cutting costs if they are asked for. -/
structure TablesOk : Prop where
  resourceRows : ∀ i < inst.numberOfItemTypes,
    inst.numberOfBinTypes ≤ (inst.itemType i).resourceIds.length
  resourceIds : ∀ i < inst.numberOfItemTypes, ∀ b < inst.numberOfBinTypes,
    ∀ r ∈ (inst.itemType i).resourceIds.getD b [], r < (inst.binType b).resources.length
  predecessors : ∀ i < inst.numberOfItemTypes, 0 < (inst.itemType i).stackPos →
    0 ≤ (inst.itemType i).stackId
    ∧ (inst.itemType i).stackId < inst.stackOffsets.length
    ∧ 0 ≤ inst.stackIndex (inst.itemType i).stackId ((inst.itemType i).stackPos - 1)
    ∧ inst.stackIndex (inst.itemType i).stackId ((inst.itemType i).stackPos - 1)
        < inst.itemTypeIds.length
    ∧ inst.item (inst.itemType i).stackId ((inst.itemType i).stackPos - 1)
        < inst.numberOfItemTypes
  costs : inst.objective = .binPackingCuttingCost → inst.parameters.cuttingCosts ≠ []

end PackingSolver.Guil.Spec
