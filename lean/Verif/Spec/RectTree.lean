import Verif.Spec.RectFlip
import Verif.Model.Rect.TreeSearch

/-!
# Specification: nodes of the rectangle branching scheme
-/

namespace PackingSolver.Rect.Spec

open PackingSolver.Rect
open PackingSolver.Rect.TreeSearch

/-- The nodes any tree search can reach: the root, and the children of reached nodes by the
insertions offered in them. -/
inductive Reached (s : Scheme) : Node → Prop
  | root : Reached s s.rootNode
  | child {n n' : Node} {l : List Insertion} {i : Insertion} (h : Reached s n)
      (hl : insertions s n = .ok l) (hi : i ∈ l) (hc : TreeSearch.child s n i = .ok n') :
      Reached s n'

/-- The nodes a search can reach from a node. -/
inductive Descends (s : Scheme) (n : Node) : Node → Prop
  | self : Descends s n n
  | child {m m' : Node} {l : List Insertion} {i : Insertion} (h : Descends s n m)
      (hl : insertions s m = .ok l) (hi : i ∈ l) (hc : TreeSearch.child s m i = .ok m') :
      Descends s n m'

/-- What a bin of type `b` may contain: items that exist, are rotated only if allowed, lie in the
bin, overlap neither one another nor a defect, weigh together no more than the maximum weight, and
never consume, in the order in which they are listed, more of a hard resource than its capacity;
the last two up to the relative tolerance of the solver, `1e-9`. -/
structure BinValid (inst : Instance) (b : Nat) (l : List PlacedItem) : Prop where
  packing : BinPacking inst b l
  defects : AvoidsDefects inst b l
  weight : l ≠ [] → ∀ m, (inst.binType b).maximumWeight = .fin m → binWeight inst l ≤ m * (1 + 1 / 10 ^ 9)
  resources : ∀ r ∈ (inst.binType b).resources, r.penalize = false →
    ∀ p, p <+: l → consumption inst r p ≤ r.capacity * (1 + 1 / 10 ^ 9)

/-- Two rectangles share a row. -/
def ShareRow (r s : Placed) : Prop := r.y < s.y + s.h ∧ s.y < r.y + r.h

/-- Two rectangles share a column. -/
def ShareColumn (r s : Placed) : Prop := r.x < s.x + s.w ∧ s.x < r.x + r.w

/-- The group of a placed item. -/
def groupOf (inst : Instance) (p : PlacedItem) : Nat := (inst.itemType p.itemTypeId).groupId

/-- The unloading constraint.  With `OnlyXMovements`, an item that lies to the right of another one
in a common row belongs to no later group.  With `IncreasingX`, an item of a later group starts no
further to the right.  The other two are the same along the y axis. -/
def UnloadingOk (c : UnloadingConstraint) (inst : Instance) (l : List PlacedItem) : Prop :=
  match c with
  | .none => True
  | .onlyXMovements => ∀ p ∈ l, ∀ q ∈ l, ShareRow (occupies inst p) (occupies inst q) →
      (occupies inst p).x + (occupies inst p).w ≤ (occupies inst q).x →
      groupOf inst q ≤ groupOf inst p
  | .onlyYMovements => ∀ p ∈ l, ∀ q ∈ l, ShareColumn (occupies inst p) (occupies inst q) →
      (occupies inst p).y + (occupies inst p).h ≤ (occupies inst q).y →
      groupOf inst q ≤ groupOf inst p
  | .increasingX => ∀ p ∈ l, ∀ q ∈ l, groupOf inst p < groupOf inst q →
      (occupies inst q).x ≤ (occupies inst p).x
  | .increasingY => ∀ p ∈ l, ∀ q ∈ l, groupOf inst p < groupOf inst q →
      (occupies inst q).y ≤ (occupies inst p).y

/-- No defect lies entirely to the left of the bin or entirely below it. -/
def DefectsReach (inst : Instance) : Prop :=
  ∀ b ∈ inst.binTypes, ∀ d ∈ b.defects, 0 ≤ d.posX + d.x ∧ 0 ≤ d.posY + d.y

/-- Every item type has a definite number of copies. -/
def CopiesDefinite (inst : Instance) : Prop := ∀ t ∈ inst.itemTypes, t.copies ≠ -1

/-- The solution contains every copy of every item type. -/
def AllPacked (inst : Instance) (p : Packing) : Prop :=
  ∀ i, i < inst.numberOfItemTypes → itemCopies p i = (inst.itemType i).copies

/-- The direction of the search suits the objective: an open dimension, or the leftover of the last
bin, along the axis the search fills bins along. -/
def SuitsObjective (d : TreeSearch.Direction) (inst : Instance) : Prop :=
  (inst.objective = .openDimensionX → d = .x) ∧ (inst.objective = .openDimensionY → d = .y)
  ∧ (inst.objective = .binPackingWithLeftovers →
    (inst.parameters.leftoverMode = .x → d = .x) ∧ (inst.parameters.leftoverMode = .y → d = .y))

/-- Two uncovered items share a row. -/
def RowsMeet (u v : UncoveredItem) : Prop := u.ys < v.ye ∧ v.ys < u.ye

/-- The positions the rows of a skyline (listed from the top) are compared by: `x` for the topmost
part, the raised positions for the other ones. -/
def frontier (l : List UncoveredItem) (x : Int) : List (UncoveredItem × Int) :=
  match l with
  | [] => []
  | u :: r => (u, x) :: r.map fun u => (u, u.xeDominance)

/-- The skyline `a` lies nowhere to the right of the skyline `b`. -/
def LeftOf (a b : List (UncoveredItem × Int)) : Prop :=
  ∀ p ∈ a, ∀ q ∈ b, RowsMeet p.1 q.1 → p.2 ≤ q.2

end PackingSolver.Rect.Spec
