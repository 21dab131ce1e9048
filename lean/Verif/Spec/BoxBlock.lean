import Verif.Spec.BoxSolution
import Verif.Spec.BoxPacking
import Verif.Model.Box.Block

/-!
# Specification: blocks of boxes and reachable lengths
-/

namespace PackingSolver.Box.Spec

open PackingSolver.Box

/-- A block is what it says it is: its items exist, are rotated only as allowed, do not overlap,
need no more copies than there are, and have the block as their bounding box; its totals are those
of its items. -/
structure BlockOk (inst : Instance) (b : Block) : Prop where
  exist : ∀ p ∈ b.items, p.itemTypeId < inst.numberOfItemTypes
  rotation : ∀ p ∈ b.items, p.rotation ∈ (inst.itemType p.itemTypeId).rotations
  inside : ∀ p ∈ b.items, Inside b.box (occupies inst p)
  startsX : ∃ p ∈ b.items, p.x = 0
  startsY : ∃ p ∈ b.items, p.y = 0
  startsZ : ∃ p ∈ b.items, p.z = 0
  touchesX : ∃ p ∈ b.items, rightEnd inst p = b.box.x
  touchesY : ∃ p ∈ b.items, rearEnd inst p = b.box.y
  touchesZ : ∃ p ∈ b.items, topEnd inst p = b.box.z
  separated : b.items.Pairwise fun p q => Separated (occupies inst p) (occupies inst q)
  copies : WithinCopies inst b.items
  volume : b.itemVolume = (b.items.map fun p => volumeOf (inst.itemType p.itemTypeId).box).sum
  profit : b.itemProfit = itemsProfit inst b.items
  weight : b.weight = binWeight inst b.items
  number : b.numberOfItems = (b.items.length : Int)
  /-- The list of numbers of copies holds the item types of the block, by increasing id, with their
  numbers of copies in the block. -/
  listed : ∀ i c, (i, c) ∈ b.itemCopies ↔ c = count b.items i ∧ 0 < c
  sorted : b.itemCopies.Pairwise fun p q => p.1 < q.1

/-- The length of an item along an axis in a given rotation. -/
def lengthAlong (inst : Instance) (d : Axis) (i : Nat) (r : Rotation) : Int :=
  match d with
  | .x => (rotated (inst.itemType i).box r).x
  | .y => (rotated (inst.itemType i).box r).y
  | .z => (rotated (inst.itemType i).box r).z

/-- A total length attained by items put side by side: a list of items, given by their types and
rotations, that are allowed, with at most as many of each type as there are copies. -/
def Attained (inst : Instance) (d : Axis) (v : Int) : Prop :=
  ∃ l : List (Nat × Rotation),
    (∀ p ∈ l, p.1 < inst.numberOfItemTypes ∧ p.2 ∈ (inst.itemType p.1).rotations)
    ∧ (∀ i, ((l.countP fun p => p.1 = i : Nat) : Int) ≤ max 0 (inst.itemType i).copies)
    ∧ v = (l.map fun p => lengthAlong inst d p.1 p.2).sum

/-- The same items in the same rotations, possibly at other places. -/
def SameItems (l l' : List PlacedItem) : Prop :=
  List.Forall₂ (fun p q => p.itemTypeId = q.itemTypeId ∧ p.rotation = q.rotation) l l'

end PackingSolver.Box.Spec
