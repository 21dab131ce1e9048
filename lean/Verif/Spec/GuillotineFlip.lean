import Verif.Spec.Guillotine
import Verif.Spec.GuillotineBuild
import Verif.Spec.GuillotineTotals

/-!
# Specification: exchanging the axes of a guillotine instance
-/

namespace PackingSolver.Guil.Spec

/-- A region with the axes exchanged. -/
def mirror (R : Region) : Region := ⟨R.b, R.t, R.l, R.r⟩

/-- Two resources that no solution distinguishes. -/
structure SameResource (r r' : Resource) : Prop where
  capacity : r'.capacity = r.capacity
  penalize : r'.penalize = r.penalize
  penalty : r'.penalty = r.penalty
  consumption : ∀ i c, r'.itemConsumption i c = r.itemConsumption i c

/-- An item type with width and height exchanged. -/
structure FlippedItem (t t' : ItemType) : Prop where
  w : t'.w = t.h
  h : t'.h = t.w
  oriented : t'.oriented = t.oriented
  profit : t'.profit = t.profit
  copies : t'.copies = t.copies
  stackId : t'.stackId = t.stackId

/-- A bin type with width and height exchanged, its trims and defects too. -/
structure FlippedBin (t t' : BinType) : Prop where
  w : t'.w = t.h
  h : t'.h = t.w
  cost : t'.cost = t.cost
  copies : t'.copies = t.copies
  copiesMin : t'.copiesMin = t.copiesMin
  left : t'.leftTrim = t.bottomTrim ∧ t'.leftTrimType = t.bottomTrimType
  right : t'.rightTrim = t.topTrim ∧ t'.rightTrimType = t.topTrimType
  bottom : t'.bottomTrim = t.leftTrim ∧ t'.bottomTrimType = t.leftTrimType
  top : t'.topTrim = t.rightTrim ∧ t'.topTrimType = t.rightTrimType
  defects : t'.defects = t.defects.map fun d => { x := d.y, y := d.x, w := d.h, h := d.w }
  numberOfResources : t'.resources.length = t.resources.length
  resources : ∀ r, r < t.resources.length →
    SameResource (t.resources.getD r {}) (t'.resources.getD r {})

/-- `b` is `a` with the axes exchanged and the first cuts vertical. -/
structure FlippedOf (a b : Instance) : Prop where
  objective : b.objective = if a.objective = .openDimensionY then .openDimensionX else a.objective
  parameters : b.parameters = { a.parameters with firstStageOrientation := .vertical }
  numberOfItemTypes : b.numberOfItemTypes = a.numberOfItemTypes
  numberOfBinTypes : b.numberOfBinTypes = a.numberOfBinTypes
  items : ∀ i, i < a.numberOfItemTypes → FlippedItem (a.itemType i) (b.itemType i)
  bins : ∀ k, k < a.numberOfBinTypes → FlippedBin (a.binType k) (b.binType k)
  /-- The same positions in the stacks, behind the same item types. -/
  stackPos : ∀ i, i < a.numberOfItemTypes → (b.itemType i).stackPos = (a.itemType i).stackPos
  predecessor : ∀ i, i < a.numberOfItemTypes → 0 < (a.itemType i).stackPos →
    b.item (a.itemType i).stackId ((a.itemType i).stackPos - 1)
      = a.item (a.itemType i).stackId ((a.itemType i).stackPos - 1)

/-! ## Solutions -/

/-- The pieces cut from a bin, in the order of the cuts: depth, rectangle, and item type or mark
(-1: waste, -2: cut further, -3: residual). -/
def cutPieces (nodes : List Node) : List (Int × Region × Int) :=
  (nodes.filter fun n => decide (1 ≤ n.d)).map fun n => (n.d, region n, n.itemTypeId)

/-- `q` shows the bin `p` with the axes exchanged: the same bin type, number of copies and pieces,
cut in the same order, with horizontal first cuts. -/
structure Mirrored (p q : Plate) : Prop where
  binTypeId : q.binTypeId = p.binTypeId
  copies : q.copies = p.copies
  orientation : q.orientation = .horizontal
  pieces : cutPieces q.nodes = (cutPieces p.nodes).map fun x => (x.1, mirror x.2.1, x.2.2)

/-- Every item lies on a piece cut from the bin: none has been set on the whole bin. -/
def CutItems (nodes : List Node) : Prop :=
  ∀ n ∈ nodes, n.f.isSome = true → 0 ≤ n.itemTypeId → 1 ≤ n.d

end PackingSolver.Guil.Spec
