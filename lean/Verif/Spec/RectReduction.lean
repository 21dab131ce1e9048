import Verif.Spec.RectSolution
import Verif.Model.Rect.Reduction

/-!
# Specification of the reduction of rectangle bin packing instances

What is assumed of the code the reduction calls.
-/

namespace PackingSolver.Rect.Spec

open PackingSolver.Rect

/-- A valid packing: bins of existing types, used once or more but not more often than there are,
whose items exist, lie in the bin, do not overlap, are rotated only if allowed, and are not used
more often than there are (never, if the number of copies is negative). -/
structure ValidPacking (inst : Instance) (p : Packing) : Prop where
  bins : ∀ b ∈ p, b.binTypeId < inst.numberOfBinTypes ∧ 0 < b.copies
    ∧ BinPacking inst b.binTypeId b.items
  items : ∀ i, i < inst.numberOfItemTypes → itemCopies p i ≤ max 0 (inst.itemType i).copies
  binCopies : ∀ t, t < inst.numberOfBinTypes → binCopies p t ≤ max 0 (inst.binType t).copies

/-- All copies of all item types are packed. -/
def PacksAll (inst : Instance) (p : Packing) : Prop :=
  ∀ i, i < inst.numberOfItemTypes → itemCopies p i = (inst.itemType i).copies

/-- What is assumed of the code around the reduction: its solver answers valid packings (which need
not be complete), and `std::sort` permutes.  Nothing is assumed of the timer. -/
structure Trusted (ar : Reduction.Around) : Prop where
  solve : ∀ t ops inst, InstanceBuilder.runOps ops = .ok inst → ValidPacking inst (ar.solve t inst)
  sort : ∀ lt l, (ar.sort lt l).Perm l

/-- Both sides of an `x × y` rectangle are larger than half of the sides of a `w × h` bin. -/
def LargerThanHalf (w h x y : Int) : Prop := w < 2 * x ∧ h < 2 * y

/-- Every item that may be rotated and that is larger than half of the `w × h` bin in one
orientation is so in both orientations in which it fits in the bin. -/
def NoTurning (inst : Instance) (w h : Int) : Prop :=
  ∀ t ∈ inst.itemTypes, t.oriented = false →
    (LargerThanHalf w h t.x t.y ∨ LargerThanHalf w h t.y t.x) →
    (t.x ≤ w → t.y ≤ h → LargerThanHalf w h t.x t.y)
      ∧ (t.y ≤ w → t.x ≤ h → LargerThanHalf w h t.y t.x)

end PackingSolver.Rect.Spec
