import Verif.Spec.RectSolution

/-!
# Specification: exchanging the axes of an instance
-/

namespace PackingSolver.Rect.Spec

open PackingSolver.Rect

/-- Two resources that no packing distinguishes. -/
structure SameResource (r r' : Resource) : Prop where
  capacity : r'.capacity = r.capacity
  penalize : r'.penalize = r.penalize
  penalty : r'.penalty = r.penalty
  consumption : ∀ i c, r'.itemConsumption i c = r.itemConsumption i c
  /-- The same item types have a schedule. -/
  schedule : ∀ i, r'.itemConsumptions.getD i [] = r.itemConsumptions.getD i []

/-- An item type with width and height exchanged. -/
structure FlippedItem (t t' : ItemType) : Prop where
  x : t'.x = t.y
  y : t'.y = t.x
  oriented : t'.oriented = t.oriented
  profit : t'.profit = t.profit
  copies : t'.copies = t.copies
  groupId : t'.groupId = t.groupId
  weight : t'.weight = t.weight

/-- A bin type with width and height exchanged, its defects too. -/
structure FlippedBin (t t' : BinType) : Prop where
  x : t'.x = t.y
  y : t'.y = t.x
  cost : t'.cost = if t.cost = -1 then ((t.y * t.x : Int) : ℚ) else t.cost
  copies : t'.copies = t.copies
  copiesMin : t'.copiesMin = t.copiesMin
  maximumWeight : t'.maximumWeight = t.maximumWeight
  truck : t'.truck = t.truck
  defects : t'.defects = t.defects.map fun d => ⟨d.posY, d.posX, d.y, d.x⟩
  numberOfResources : t'.resources.length = t.resources.length
  resources : ∀ r, r < t.resources.length →
    SameResource (t.resources.getD r {}) (t'.resources.getD r {})

/-- An unloading constraint with the axes exchanged. -/
def exchangeAxes : UnloadingConstraint → UnloadingConstraint
  | .none => .none
  | .increasingX => .increasingY
  | .increasingY => .increasingX
  | .onlyXMovements => .onlyYMovements
  | .onlyYMovements => .onlyXMovements

/-- `b` is `a` with the axes exchanged. -/
structure FlippedOf (a b : Instance) : Prop where
  objective : b.objective = if a.objective = .openDimensionY then .openDimensionX else a.objective
  unloading : b.parameters.unloadingConstraint = exchangeAxes a.parameters.unloadingConstraint
  leftoverMode : b.parameters.leftoverMode = a.parameters.leftoverMode
  checkWeight : b.parameters.checkWeightConstraints = a.parameters.checkWeightConstraints
  numberOfItemTypes : b.numberOfItemTypes = a.numberOfItemTypes
  numberOfBinTypes : b.numberOfBinTypes = a.numberOfBinTypes
  items : ∀ i, i < a.numberOfItemTypes → FlippedItem (a.itemType i) (b.itemType i)
  /-- The minimum numbers of copies are not kept but take their default values. -/
  copiesMin : ∀ i, i < a.numberOfItemTypes → (b.itemType i).copiesMin
    = if a.objective = .knapsack then 0 else (a.itemType i).copies
  bins : ∀ k, k < a.numberOfBinTypes → FlippedBin (a.binType k) (b.binType k)

/-- A placed item with its coordinates exchanged. -/
def flipPlaced (p : PlacedItem) : PlacedItem := { p with x := p.y, y := p.x }

/-- A rectangle with the axes exchanged. -/
def flipRect (r : Placed) : Placed := ⟨r.y, r.x, r.h, r.w⟩

/-- No item touches the inside of a defect of the bin. -/
def AvoidsDefects (inst : Instance) (b : Nat) (l : List PlacedItem) : Prop :=
  ∀ p ∈ l, ∀ d ∈ (inst.binType b).defects,
    Separated (occupies inst p) ⟨d.posX, d.posY, d.x, d.y⟩

/-- A packing with all coordinates exchanged. -/
def flipPacking (p : Packing) : Packing :=
  p.map fun b => { b with items := b.items.map flipPlaced }

end PackingSolver.Rect.Spec
