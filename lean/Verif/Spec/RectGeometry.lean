import Verif.Model.Rect.Instance

/-!
# Geometric packings of rectangles

What it means to place rectangles in a rectangular bin, independently of any solver code.
-/

namespace PackingSolver.Rect.Spec

/-- An axis-parallel rectangle: `[x, x + w) × [y, y + h)`. -/
structure Placed where
  x : Int
  y : Int
  w : Int
  h : Int
deriving DecidableEq, Repr

/-- The rectangle lies in a bin of width `W` and height `H`. -/
def Inside (W H : Int) (r : Placed) : Prop :=
  0 ≤ r.x ∧ r.x + r.w ≤ W ∧ 0 ≤ r.y ∧ r.y + r.h ≤ H

/-- The interiors of two rectangles are disjoint: one lies left of, right of, below or above the
other. -/
def Separated (r s : Placed) : Prop :=
  r.x + r.w ≤ s.x ∨ s.x + s.w ≤ r.x ∨ r.y + r.h ≤ s.y ∨ s.y + s.h ≤ r.y

/-- The rectangle an item occupies: its dimensions are swapped if it is rotated. -/
def occupies (inst : Instance) (p : PlacedItem) : Placed :=
  ⟨p.x, p.y, (inst.itemType p.itemTypeId).width p.rotate,
    (inst.itemType p.itemTypeId).height p.rotate⟩

/-- Items placed in a bin of type `b`: they exist, are rotated only if allowed, lie in the bin
and do not overlap. -/
structure BinPacking (inst : Instance) (b : Nat) (items : List PlacedItem) : Prop where
  exist : ∀ p ∈ items, p.itemTypeId < inst.numberOfItemTypes
  rotation : ∀ p ∈ items, p.rotate = true → (inst.itemType p.itemTypeId).oriented = false
  inside : ∀ p ∈ items, Inside (inst.binType b).x (inst.binType b).y (occupies inst p)
  separated : items.Pairwise fun p q => Separated (occupies inst p) (occupies inst q)

/-- Number of items of type `i` in a list of placed items. -/
def count (items : List PlacedItem) (i : Nat) : Int := (items.countP fun p => p.itemTypeId = i : Nat)

/-- A packing lists the content of each used bin; all bins have type 0.  It packs all copies of
all items. -/
structure FullPacking (inst : Instance) (bins : List (List PlacedItem)) : Prop where
  each : ∀ items ∈ bins, BinPacking inst 0 items
  all : ∀ i, i < inst.numberOfItemTypes → count bins.flatten i = (inst.itemType i).copies

/-- No item type is used more often than it has copies. -/
def WithinCopies (inst : Instance) (items : List PlacedItem) : Prop :=
  ∀ i, i < inst.numberOfItemTypes → count items i ≤ (inst.itemType i).copies

/-- The instance has only rectangles with positive sides and nonnegative numbers of copies. -/
structure Positive (inst : Instance) : Prop where
  items : ∀ it ∈ inst.itemTypes, 0 < it.x ∧ 0 < it.y ∧ 0 ≤ it.copies
  bins : ∀ b ∈ inst.binTypes, 0 < b.x ∧ 0 < b.y

/-! ## Profit -/

/-- Total consumption of a resource by the items of a bin: the first, second, … copy of item type
`i` consumes the first, second, … entry of its schedule. -/
def consumption (inst : Instance) (r : Resource) (items : List PlacedItem) : ℚ :=
  ((List.range inst.numberOfItemTypes).map fun i =>
    ((List.range (count items i).toNat).map fun c => r.itemConsumption i c).sum).sum

/-- Penalties of a bin of type `b`: one for every penalized resource whose capacity is
exceeded. -/
def penalties (inst : Instance) (b : Nat) (items : List PlacedItem) : ℚ :=
  ((inst.binType b).resources.map fun r =>
    if r.penalize = true ∧ consumption inst r items > r.capacity then r.penalty else 0).sum

/-- Profits of the items. -/
def itemsProfit (inst : Instance) (items : List PlacedItem) : ℚ :=
  (items.map fun p => (inst.itemType p.itemTypeId).profit).sum

/-- An item type may go into a bin type: it has no eligibility id or the bin type lists it. -/
def EligibleIn (inst : Instance) (i b : Nat) : Prop :=
  (inst.itemType i).eligibilityId = -1
    ∨ (inst.itemType i).eligibilityId ∈ (inst.binType b).eligibilityIds

/-- A selection of items packed in at most as many bins of type 0 as there are. -/
structure KnapsackPacking (inst : Instance) (bins : List (List PlacedItem)) : Prop where
  each : ∀ items ∈ bins, BinPacking inst 0 items
  eligible : ∀ items ∈ bins, ∀ p ∈ items, EligibleIn inst p.itemTypeId 0
  copies : WithinCopies inst bins.flatten
  limit : (bins.length : Int) ≤ (inst.binType 0).copies

/-- The profit of a packing: profits of the items minus the penalties of the bins. -/
def profit (inst : Instance) (bins : List (List PlacedItem)) : ℚ :=
  (bins.map fun items => itemsProfit inst items - penalties inst 0 items).sum

end PackingSolver.Rect.Spec
