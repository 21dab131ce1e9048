import Verif.Model.Guil.PostProcess
import Verif.Spec.GuillotineTotals

/-!
# Specification: where the items of a bin are
-/

namespace PackingSolver.Guil.Spec

/-- The items among the nodes of a bin with their places, in the order of the nodes. -/
def places (nodes : List Node) : List (Nat × Region) :=
  (nodes.filter fun n => n.f.isSome && decide (0 ≤ n.itemTypeId)).map fun n =>
    (n.itemTypeId.toNat, region n)

/-- The same items at the same places, in any order. -/
def SamePlaces (P Q : List (Nat × Region)) : Prop := P.Perm Q

/-- The rectangle of an item to be placed. -/
def reg (p : ItemPlacement) : Region := ⟨p.l, p.r, p.b, p.t⟩

/-- An item to be placed, with its place. -/
def placeOf (p : ItemPlacement) : Nat × Region := (p.itemTypeId, reg p)

/-- The item type exists and the rectangle has its dimensions, rotated or not. -/
def Fits (inst : Instance) (p : ItemPlacement) : Prop :=
  p.itemTypeId < inst.numberOfItemTypes
    ∧ ((p.r - p.l = (inst.itemType p.itemTypeId).w ∧ p.t - p.b = (inst.itemType p.itemTypeId).h)
      ∨ (p.r - p.l = (inst.itemType p.itemTypeId).h ∧ p.t - p.b = (inst.itemType p.itemTypeId).w))

/-- The first cuts of a bin are vertical or horizontal, and as the parameters demand. -/
def OrientationOk (inst : Instance) (o : CutOrientation) : Prop :=
  o ≠ .any ∧ (inst.parameters.firstStageOrientation = .any
    ∨ o = inst.parameters.firstStageOrientation)

end PackingSolver.Guil.Spec
