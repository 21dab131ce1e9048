import Verif.Spec.StacksSolution

/-!
# Which piles of items may be stacked in a bin
-/

namespace PackingSolver.Stacks.Spec

open PackingSolver.Stacks
open PackingSolver.Box (Rotation)
open PackingSolver.Box.Spec (rotated)

variable (inst : Instance)

/-- The weight of a list of items. -/
def pileWeight (l : List (Nat × Rotation)) : ℚ := (l.map fun i => (inst.itemType i.1).weight).sum

/-- A value is at most a possibly infinite maximum, up to the absolute tolerance `1e-6`. -/
def AtMost (q : ℚ) : ExtQ → Prop
  | .fin m => q ≤ m + 1 / 1000000
  | .inf => True

/-- The sum of the heights of the items *plus* the nesting heights of all but the lowest. -/
def heightNestingAdded (l : List (Nat × Rotation)) : Int :=
  (l.map (itemHeight inst)).sum + (l.tail.map fun i => (inst.itemType i.1).nestingHeight).sum

/-- A pile of items (the lowest first) of footprint `x × y` may be stacked in a bin: every item bears
the weight of those above it, no item tolerates fewer items in its stack, and the pile is not too dense.
(The height is dealt with separately.) -/
structure PileOk (b : BinType) (l : List (Nat × Rotation)) (x y : Int) : Prop where
  above : ∀ q i m, l = q ++ i :: m → m ≠ [] →
    AtMost (pileWeight inst m) (inst.itemType i.1).maximumWeightAbove
  stackability : ∀ i ∈ l, (l.length : Int) ≤ (inst.itemType i.1).maximumStackability
  density : AtMost (pileWeight inst l / x / y) b.maximumStackDensity

/-- The items of the pile have non-negative weights, heights and nesting heights and footprint
`x × y`. -/
def SoundPile (l : List (Nat × Rotation)) (x y : Int) : Prop :=
  0 < x ∧ 0 < y ∧ ∀ i ∈ l, 0 ≤ (inst.itemType i.1).weight ∧ 0 ≤ itemHeight inst i
    ∧ 0 ≤ (inst.itemType i.1).nestingHeight
    ∧ (rotated (inst.itemType i.1).box i.2).x = x ∧ (rotated (inst.itemType i.1).box i.2).y = y

end PackingSolver.Stacks.Spec
