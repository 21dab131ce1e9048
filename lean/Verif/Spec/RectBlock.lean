import Verif.Spec.RectSolution
import Verif.Model.Rect.Block

/-!
# Specification: blocks of rectangles and reachable lengths
-/

namespace PackingSolver.Rect.Spec

open PackingSolver.Rect

/-- A block is what it says it is: its items exist, are rotated only if allowed, do not overlap,
need no more copies than there are, and have the block as their bounding rectangle; its totals are
those of its items. -/
structure BlockOk (inst : Instance) (b : Block) : Prop where
  exist : ∀ p ∈ b.items, p.itemTypeId < inst.numberOfItemTypes
  rotation : ∀ p ∈ b.items, p.rotate = true → (inst.itemType p.itemTypeId).oriented = false
  inside : ∀ p ∈ b.items, Inside b.x b.y (occupies inst p)
  startsX : ∃ p ∈ b.items, p.x = 0
  startsY : ∃ p ∈ b.items, p.y = 0
  touchesX : ∃ p ∈ b.items, rightEnd inst p = b.x
  touchesY : ∃ p ∈ b.items, upperEnd inst p = b.y
  separated : b.items.Pairwise fun p q => Separated (occupies inst p) (occupies inst q)
  copies : WithinCopies inst b.items
  area : b.itemArea
    = (b.items.map fun p => (inst.itemType p.itemTypeId).x * (inst.itemType p.itemTypeId).y).sum
  profit : b.itemProfit = itemsProfit inst b.items
  weight : b.weight = binWeight inst b.items
  number : b.numberOfItems = (b.items.length : Int)
  /-- The list of numbers of copies holds the item types of the block, by increasing id, with their
  numbers of copies in the block. -/
  listed : ∀ i c, (i, c) ∈ b.itemCopies ↔ c = count b.items i ∧ 0 < c
  sorted : b.itemCopies.Pairwise fun p q => p.1 < q.1

/-- The length of an item along an axis. -/
def lengthAlong (inst : Instance) (alongX : Bool) (i : Nat) (rotate : Bool) : Int :=
  if alongX then (inst.itemType i).width rotate else (inst.itemType i).height rotate

/-- A total length attained by items put side by side: `n i r` items of type `i` in orientation
`r`, at most as many of each type as there are copies, in allowed orientations. -/
def Attained (inst : Instance) (alongX : Bool) (v : Int) : Prop :=
  ∃ n : Nat → Bool → Nat,
    (∀ i, i < inst.numberOfItemTypes → (inst.itemType i).oriented = true → n i true = 0)
    ∧ (∀ i, i < inst.numberOfItemTypes →
      ((n i false + n i true : Nat) : Int) ≤ max 0 (inst.itemType i).copies)
    ∧ v = ((List.range inst.numberOfItemTypes).map fun i =>
        (n i false : Int) * lengthAlong inst alongX i false
        + (n i true : Int) * lengthAlong inst alongX i true).sum

/-- The same items in the same orientations, possibly at other places. -/
def SameItems (l l' : List PlacedItem) : Prop :=
  List.Forall₂ (fun p q => p.itemTypeId = q.itemTypeId ∧ p.rotate = q.rotate) l l'

end PackingSolver.Rect.Spec
