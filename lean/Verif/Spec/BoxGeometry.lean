import Verif.Model.Box.Instance

/-!
# Geometric packings of boxes

What it means to place boxes in a bin, independently of any solver code.
-/

namespace PackingSolver.Box.Spec

/-- An axis-parallel box `[x, x + dx) × [y, y + dy) × [z, z + dz)`. -/
structure Placed where
  x : Int
  y : Int
  z : Int
  dx : Int
  dy : Int
  dz : Int
deriving DecidableEq, Repr

/-- The box lies in a bin of the given dimensions. -/
def Inside (bin : Dims) (r : Placed) : Prop :=
  0 ≤ r.x ∧ r.x + r.dx ≤ bin.x ∧ 0 ≤ r.y ∧ r.y + r.dy ≤ bin.y ∧ 0 ≤ r.z ∧ r.z + r.dz ≤ bin.z

/-- The interiors of two boxes are disjoint: one lies on one side of the other along an axis. -/
def Separated (r s : Placed) : Prop :=
  r.x + r.dx ≤ s.x ∨ s.x + s.dx ≤ r.x ∨ r.y + r.dy ≤ s.y ∨ s.y + s.dy ≤ r.y
    ∨ r.z + r.dz ≤ s.z ∨ s.z + s.dz ≤ r.z

/-- The dimensions of a rotated box: the name of the rotation tells which dimension of the box lies
along x, y and z. -/
def rotated (d : Dims) : Rotation → Dims
  | .xyz => { x := d.x, y := d.y, z := d.z }
  | .yxz => { x := d.y, y := d.x, z := d.z }
  | .zyx => { x := d.z, y := d.y, z := d.x }
  | .yzx => { x := d.y, y := d.z, z := d.x }
  | .xzy => { x := d.x, y := d.z, z := d.y }
  | .zxy => { x := d.z, y := d.x, z := d.y }

/-- The box an item occupies. -/
def occupies (inst : Instance) (p : PlacedItem) : Placed :=
  let d := rotated (inst.itemType p.itemTypeId).box p.rotation
  ⟨p.x, p.y, p.z, d.x, d.y, d.z⟩

/-- Number of items of type `i` in a list of placed items. -/
def count (items : List PlacedItem) (i : Nat) : Int := (items.countP fun p => p.itemTypeId = i : Nat)

/-- Total consumption of a resource by the items of a bin: the first, second, … copy of item type
`i` consumes the first, second, … entry of its schedule. -/
def consumption (inst : Instance) (r : Resource) (items : List PlacedItem) : ℚ :=
  ((List.range inst.numberOfItemTypes).map fun i =>
    ((List.range (count items i).toNat).map fun c => r.itemConsumption i c).sum).sum

/-- Penalties of a bin of type `b`: one for every penalized resource whose capacity is
exceeded. -/
def penalties (inst : Instance) (b : Nat) (items : List PlacedItem) : ℚ :=
  ((inst.binType b).resources.map fun r =>
    if r.penalize = true ∧ consumption inst r items > r.capacity then r.penalty else 0).sum

/-- Profits of the items. -/
def itemsProfit (inst : Instance) (items : List PlacedItem) : ℚ :=
  (items.map fun p => (inst.itemType p.itemTypeId).profit).sum

/-- `resource_ids` of an item type lists, without repetition, the resources of the bin type for
which the item type has a schedule. -/
def ResourceIdsOk (inst : Instance) : Prop :=
  ∀ i, i < inst.numberOfItemTypes → ∀ b, b < inst.numberOfBinTypes →
    ((inst.itemType i).resourceIds.getD b []).Nodup
    ∧ ∀ r, r ∈ (inst.itemType i).resourceIds.getD b [] ↔ r < (inst.binType b).resources.length
      ∧ ((inst.binType b).resources.getD r {}).itemConsumptions.getD i [] ≠ []

end PackingSolver.Box.Spec
