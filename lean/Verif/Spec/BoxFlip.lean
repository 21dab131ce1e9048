import Verif.Spec.BoxSolution
import Verif.Spec.BoxPacking
import Verif.Model.Box.Flipper

/-!
# Specification: exchanging the axes of a box instance

Direction `y` exchanges x and y, direction `z` exchanges x and z.
-/

namespace PackingSolver.Box.Spec

open PackingSolver.Box

/-- A triple of lengths or coordinates with two axes exchanged. -/
def exchange : Direction → Dims → Dims
  | .y, b => ⟨b.y, b.x, b.z⟩
  | .z, b => ⟨b.z, b.y, b.x⟩
  | _, b => b

/-- The name of a rotation with two letters exchanged: the first two for direction `y`, the first
and the last for direction `z`. -/
def exchangeRotation : Direction → Rotation → Rotation
  | .y, .xyz => .yxz
  | .y, .yxz => .xyz
  | .y, .zyx => .yzx
  | .y, .yzx => .zyx
  | .y, .xzy => .zxy
  | .y, .zxy => .xzy
  | .z, .xyz => .zyx
  | .z, .yxz => .zxy
  | .z, .zyx => .xyz
  | .z, .yzx => .xzy
  | .z, .xzy => .yzx
  | .z, .zxy => .yxz
  | _, r => r

/-- An item type with two axes exchanged: the box is described as before and the rotations turn it
differently. -/
structure FlippedItem (d : Direction) (t t' : ItemType) : Prop where
  box : t'.box = t.box
  rotations : t'.rotations = t.rotations.map (exchangeRotation d)
  profit : t'.profit = t.profit
  copies : t'.copies = t.copies
  weight : t'.weight = t.weight

/-- A bin type with two axes exchanged. -/
structure FlippedBin (d : Direction) (t t' : BinType) : Prop where
  box : t'.box = exchange d t.box
  cost : t'.cost = if t.cost = -1 then (((exchange d t.box).x * (exchange d t.box).y : Int) : ℚ)
    else t.cost
  copies : t'.copies = t.copies
  maximumWeight : t'.maximumWeight = t.maximumWeight

/-- `b` is `a` with two axes exchanged.  What is not kept is stated too. -/
structure FlippedOf (d : Direction) (a b : Instance) : Prop where
  objective : b.objective
    = if a.objective = .openDimensionY ∨ a.objective = .openDimensionZ then .openDimensionX
      else a.objective
  numberOfItemTypes : b.numberOfItemTypes = a.numberOfItemTypes
  numberOfBinTypes : b.numberOfBinTypes = a.numberOfBinTypes
  items : ∀ i, i < a.numberOfItemTypes → FlippedItem d (a.itemType i) (b.itemType i)
  bins : ∀ k, k < a.numberOfBinTypes → FlippedBin d (a.binType k) (b.binType k)
  /-- The minimum numbers of copies of the items take their default values. -/
  copiesMin : ∀ i, i < a.numberOfItemTypes → (b.itemType i).copiesMin
    = if a.objective = .knapsack then 0 else (a.itemType i).copies
  /-- The minimum numbers of copies of the bins and the resources are dropped. -/
  dropped : ∀ k, k < a.numberOfBinTypes → (b.binType k).copiesMin = 0 ∧ (b.binType k).resources = []
  callback : ∀ p, b.callback p = true

/-- A placed item seen with two axes exchanged. -/
def flipPlaced (d : Direction) (p : PlacedItem) : PlacedItem :=
  let c := exchange d ⟨p.x, p.y, p.z⟩
  { p with x := c.x, y := c.y, z := c.z, rotation := exchangeRotation d p.rotation }

/-- A box seen with two axes exchanged. -/
def flipBox (d : Direction) (r : Placed) : Placed :=
  let c := exchange d ⟨r.x, r.y, r.z⟩
  let s := exchange d ⟨r.dx, r.dy, r.dz⟩
  ⟨c.x, c.y, c.z, s.x, s.y, s.z⟩

/-- A packing seen with two axes exchanged. -/
def flipPacking (d : Direction) (p : Packing) : Packing :=
  p.map fun b => { b with items := b.items.map (flipPlaced d) }

/-- What the flipper needs of an instance: bins with positive sides and positive numbers of copies,
a positive cost or `-1`, item types with positive numbers of copies, and one bin for the open
dimension objectives. -/
structure Flippable (a : Instance) : Prop where
  bins : ∀ t ∈ a.binTypes, (0 < t.box.x ∧ 0 < t.box.y ∧ 0 < t.box.z) ∧ 0 < t.copies
    ∧ (t.cost = -1 ∨ 0 < t.cost)
  items : ∀ t ∈ a.itemTypes, 0 < t.copies
  openDimension : a.objective = .openDimensionX ∨ a.objective = .openDimensionY
    ∨ a.objective = .openDimensionZ → (a.binTypes.map (·.copies)).sum = 1

end PackingSolver.Box.Spec
