import Verif.Spec.BoxBuild
import Verif.Spec.BoxFlip
import Verif.Model.Box.TreeSearch

/-!
# Specification: nodes of the box branching scheme
-/

namespace PackingSolver.Box.Spec

open PackingSolver.Box
open PackingSolver.Box.TreeSearch

/-- The nodes any tree search can reach: the root, and the children of reached nodes by the
insertions offered in them. -/
inductive Reached (s : Scheme) : Node → Prop
  | root : Reached s s.rootNode
  | child {n n' : Node} {l : List Insertion} {i : Insertion} (h : Reached s n)
      (hl : insertions s n = .ok l) (hi : i ∈ l) (hc : TreeSearch.child s n i = .ok n') :
      Reached s n'

/-- The nodes a search can reach from a node. -/
inductive Descends (s : Scheme) (n : Node) : Node → Prop
  | self : Descends s n n
  | child {m m' : Node} {l : List Insertion} {i : Insertion} (h : Descends s n m)
      (hl : insertions s m = .ok l) (hi : i ∈ l) (hc : TreeSearch.child s m i = .ok m') :
      Descends s n m'

/-- What a bin of type `b` may contain: items that exist, have an allowed rotation, lie in the bin,
do not overlap and weigh together no more than the maximum weight, the last up to the relative
tolerance of the solver, `1e-9`. -/
structure BinValid (inst : Instance) (b : Nat) (l : List PlacedItem) : Prop where
  packing : BinPacking inst b l
  weight : l ≠ [] → ∀ m, (inst.binType b).maximumWeight = .fin m →
    binWeight inst l ≤ m * (1 + 1 / 10 ^ 9)

/-- The items never consume, in the order in which they are listed, more of a hard resource than its
capacity, up to the relative tolerance of the solver, `1e-9`. -/
def ResourcesRespected (inst : Instance) (b : Nat) (l : List PlacedItem) : Prop :=
  ∀ r ∈ (inst.binType b).resources, r.penalize = false →
    ∀ p, p <+: l → consumption inst r p ≤ r.capacity * (1 + 1 / 10 ^ 9)

/-- No bin type has a resource. -/
def NoResources (inst : Instance) : Prop := ∀ b ∈ inst.binTypes, b.resources = []

/-- Every item type has a definite number of copies. -/
def CopiesDefinite (inst : Instance) : Prop := ∀ t ∈ inst.itemTypes, t.copies ≠ -1

/-- The solution contains every copy of every item type. -/
def AllPacked (inst : Instance) (p : Packing) : Prop :=
  ∀ i, i < inst.numberOfItemTypes → itemCopies p i = (inst.itemType i).copies

/-- Some item can be placed with a side of length 1 along the axis `f`. -/
def SlimAlong (inst : Instance) (f : Dims → Int) : Prop :=
  ∃ t ∈ inst.itemTypes, ∃ o ∈ orientations t, f o = 1

/-- Along every axis but the one in which the bins are filled, some item can have a side of length
1. -/
def Slim (inst : Instance) (d : Direction) : Prop :=
  (d = .x ∨ SlimAlong inst (·.x)) ∧ (d = .y ∨ SlimAlong inst (·.y))
    ∧ (d = .z ∨ SlimAlong inst (·.z))

/-- How far items block a bin along the direction `d`, on the line through the cell
`[c.1, c.1 + 1) × [c.2, c.2 + 1)` of the side from which the bin is filled: the largest end of an item
that meets the line, 0 if there is none. -/
def blockedUpTo (inst : Instance) (d : Direction) (l : List PlacedItem) (c : Int × Int) : Int :=
  (((l.map fun p => flipBox d (occupies inst p)).filter fun r =>
    decide (r.y ≤ c.1 ∧ c.1 < r.y + r.dy ∧ r.z ≤ c.2 ∧ c.2 < r.z + r.dz)).map
      fun r => r.x + r.dx).foldl max 0

/-- The objectives whose values the branching scheme ranks nodes by, with the directions in which it
does. -/
def RanksObjective (d : Direction) : Objective → Prop
  | .binPacking | .variableSizedBinPacking | .knapsack | .feasibility => True
  | .openDimensionX => d = .x
  | .openDimensionY => d = .y
  | _ => False

/-- Two uncovered items share a cell of the face of the bin. -/
def CellsMeet (u v : UncoveredItem) : Prop :=
  u.ys < v.ye ∧ v.ys < u.ye ∧ u.zs < v.ze ∧ v.zs < u.ze

end PackingSolver.Box.Spec
