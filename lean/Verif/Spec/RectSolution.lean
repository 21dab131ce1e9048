import Verif.Spec.RectBuild
import Verif.Model.Rect.Solution

/-!
# Specification of rectangle solutions

Totals of a list of bins, and the histories of calls by which a user obtains a solution.
-/

namespace PackingSolver.Rect.Spec

open PackingSolver.Rect

/-- A packing: a list of bins, each with a type, a number of copies and placed items. -/
abbrev Packing := List PackedBin

variable (inst : Instance)

/-- Number of packed copies of an item type. -/
def itemCopies (p : Packing) (i : Nat) : Int := (p.map fun b => b.copies * count b.items i).sum

/-- Number of used copies of a bin type. -/
def binCopies (p : Packing) (t : Nat) : Int :=
  (p.map fun b => if b.binTypeId = t then b.copies else 0).sum

/-- Number of bins. -/
def numberOfBins (p : Packing) : Int := (p.map fun b => b.copies).sum

/-- Number of packed items. -/
def numberOfItems (p : Packing) : Int := (p.map fun b => b.copies * (b.items.length : Int)).sum

/-- Total cost of the bins. -/
def cost (p : Packing) : ℚ :=
  (p.map fun b => (b.copies : ℚ) * (inst.binType b.binTypeId).cost).sum

/-- Total area of the bins. -/
def binArea (p : Packing) : Int :=
  (p.map fun b => b.copies * ((inst.binType b.binTypeId).x * (inst.binType b.binTypeId).y)).sum

/-- Total area of the packed items. -/
def itemArea (p : Packing) : Int :=
  (p.map fun b => b.copies
    * (b.items.map fun i => (inst.itemType i.itemTypeId).x * (inst.itemType i.itemTypeId).y).sum).sum

/-- Total weight of the items of one bin. -/
def binWeight (l : List PlacedItem) : ℚ := (l.map fun i => (inst.itemType i.itemTypeId).weight).sum

/-- Total weight of the packed items. -/
def itemWeight (p : Packing) : ℚ := (p.map fun b => (b.copies : ℚ) * binWeight inst b.items).sum

/-- Reported profit: item profits times bin copies, minus the penalties of each listed bin.  (The
penalties are those of one copy of the bin, as for one-dimensional solutions.) -/
def reportedProfit (p : Packing) : ℚ :=
  (p.map fun b => (b.copies : ℚ) * itemsProfit inst b.items
    - penalties inst b.binTypeId b.items).sum

/-- Number of item types packed fewer times than required. -/
def missing (p : Packing) : Int :=
  ((List.range inst.numberOfItemTypes).countP
    fun i => decide (itemCopies p i < (inst.itemType i).copiesMin) : Nat)

/-- The constraints on the number of copies of each item type. -/
def CopiesOk (p : Packing) : Prop :=
  ∀ i, i < inst.numberOfItemTypes →
    (inst.itemType i).copiesMin ≤ itemCopies p i ∧ itemCopies p i ≤ (inst.itemType i).copies

/-- At every point of the loading sequence no hard (non penalized) resource exceeds its
capacity. -/
def ResourcesOk (b : Nat) (l : List PlacedItem) : Prop :=
  ∀ r ∈ (inst.binType b).resources, r.penalize = false →
    ∀ p, p <+: l → consumption inst r p ≤ r.capacity

/-- Resource capacities are non-negative. -/
def CapacitiesNonneg : Prop :=
  ∀ b ∈ inst.binTypes, ∀ r ∈ b.resources, 0 ≤ r.capacity

/-- Resource consumptions are non-negative. -/
def ConsumptionsNonneg : Prop :=
  ∀ b ∈ inst.binTypes, ∀ r ∈ b.resources, ∀ s ∈ r.itemConsumptions, ∀ q ∈ s, 0 ≤ q

/-- A packing that refers only to existing types. -/
def WellTyped (p : Packing) : Prop :=
  ∀ b ∈ p, b.binTypeId < inst.numberOfBinTypes
    ∧ ∀ i ∈ b.items, i.itemTypeId < inst.numberOfItemTypes

/-- The items of the last bin. -/
def lastItems (p : Packing) : List PlacedItem := (p.getLast?.map (·.items)).getD []

/-- Right end of an item. -/
def rightEnd (i : PlacedItem) : Int := (occupies inst i).x + (occupies inst i).w

/-- Upper end of an item. -/
def upperEnd (i : PlacedItem) : Int := (occupies inst i).y + (occupies inst i).h

/-! ## Histories -/

/-- Effect of one builder call on the packing it describes. -/
def opStep (p : Packing) : BuilderOp → Packing
  | .addBin t c => p ++ [⟨t, c, []⟩]
  | .addItem k i x y r => p.modify k (fun b => { b with items := b.items ++ [⟨i, x, y, r⟩] })

/-- The packing described by a sequence of builder calls. -/
def opsPacking (ops : List BuilderOp) : Packing := ops.foldl opStep []

/-- The packing listed by a solution object. -/
def packingOf (s : Solution) : Packing :=
  s.bins.map fun b => ⟨b.binTypeId, b.copies, b.items⟩

/-- Apply an id map; an empty map means that ids are unchanged. -/
def mapId (m : List Nat) (i : Nat) : Nat := if m.isEmpty then i else m.getD i 0

/-- A bin relabelled by the id maps: positions and rotations are kept. -/
def relabelBin (binTypeIds itemTypeIds : List Nat) (b : PackedBin) : PackedBin :=
  ⟨mapId binTypeIds b.binTypeId, b.copies,
    b.items.map fun i => { i with itemTypeId := mapId itemTypeIds i.itemTypeId }⟩

/-- Solutions a user can obtain: start from an empty solution or from a `SolutionBuilder` and apply
any sequence of `append_bin`, `append_bins` and `append_empty_bin` calls. -/
inductive Reachable (inst : Instance) : Solution → Prop
  | init : Reachable inst (Solution.init inst)
  | built (ops : List BuilderOp) (s : Solution)
      (h : SolutionBuilder.runOps inst ops = .ok s) : Reachable inst s
  | appendBin (s s' other : Solution) (pos : Nat) (copies : Int) (mb mi : List Nat)
      (hs : Reachable inst s)
      (h : s.appendBin inst other pos copies mb mi = .ok s') : Reachable inst s'
  | appendBins (s s' other : Solution) (mb mi : List Nat)
      (hs : Reachable inst s)
      (h : s.appendBins inst other mb mi = .ok s') : Reachable inst s'
  | appendEmptyBin (s s' : Solution) (t : Nat) (copies : Int)
      (hs : Reachable inst s)
      (h : s.appendEmptyBin inst t copies = .ok s') : Reachable inst s'

end PackingSolver.Rect.Spec
