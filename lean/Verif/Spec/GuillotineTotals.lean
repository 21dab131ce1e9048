import Verif.Spec.Guillotine
import Mathlib.Algebra.BigOperators.Group.List.Basic
import Mathlib.Data.Rat.Init

/-!
# Specification: totals and constraints of guillotine solutions

Everything is a function of what a solution lists: for every bin its type, its number of copies,
its first cut orientation and its nodes.
-/

namespace PackingSolver.Guil.Spec

/-- What a solution lists of a bin. -/
structure Plate where
  binTypeId : Nat
  copies : Int
  orientation : CutOrientation
  nodes : List Node
deriving DecidableEq, Repr

/-- What a solution lists. -/
def plates (s : Solution) : List Plate :=
  s.bins.map fun b => ⟨b.binTypeId, b.copies, b.firstCutOrientation, b.nodes⟩

/-- The item types of a list of nodes, in the order of the nodes. -/
def itemsOf (nodes : List Node) : List Nat :=
  (nodes.filter fun n => n.f.isSome && decide (0 ≤ n.itemTypeId)).map fun n => n.itemTypeId.toNat

/-- The item types in a bin, in the order of the nodes. -/
def Plate.items (p : Plate) : List Nat := itemsOf p.nodes

variable (inst : Instance)

/-! ## Totals -/

/-- Number of bins. -/
def numberOfBins (ps : List Plate) : Int := (ps.map fun p => p.copies).sum

/-- Number of bins of a type. -/
def binCopies (ps : List Plate) (b : Nat) : Int :=
  (ps.map fun p => if p.binTypeId = b then p.copies else 0).sum

/-- Cost of the bins. -/
def cost (ps : List Plate) : ℚ :=
  (ps.map fun p => (p.copies : ℚ) * (inst.binType p.binTypeId).cost).sum

/-- Area of a bin without its trims, soft or hard. -/
def trimmedArea (bt : BinType) : Int :=
  (bt.w - bt.leftTrim - bt.rightTrim) * (bt.h - bt.bottomTrim - bt.topTrim)

/-- Area of the bins without their trims. -/
def fullArea (ps : List Plate) : Int :=
  (ps.map fun p => p.copies * trimmedArea (inst.binType p.binTypeId)).sum

/-- Number of items. -/
def numberOfItems (ps : List Plate) : Int := (ps.map fun p => p.copies * (p.items.length : Int)).sum

/-- Number of copies of an item type. -/
def itemCopies (ps : List Plate) (i : Nat) : Int :=
  (ps.map fun p => p.copies * (p.items.count i : Int)).sum

/-- Area of the items. -/
def itemArea (ps : List Plate) : Int :=
  (ps.map fun p => p.copies * (p.items.map fun i => (inst.itemType i).w * (inst.itemType i).h).sum).sum

/-- Consumption of a resource: the first, second, … copy of item type `i` consumes the first,
second, … entry of its schedule. -/
def consumption (r : Resource) (items : List Nat) : ℚ :=
  ((List.range inst.numberOfItemTypes).map fun i =>
    ((List.range (items.count i)).map fun c => r.itemConsumption i c).sum).sum

/-- One penalty for every penalized resource whose capacity is exceeded. -/
def penalties (b : Nat) (items : List Nat) : ℚ :=
  ((inst.binType b).resources.map fun r =>
    if r.penalize = true ∧ consumption inst r items > r.capacity then r.penalty else 0).sum

/-- Reported profit: item profits times bin copies, minus the penalties of each listed bin, which
are not multiplied by its number of copies. -/
def reportedProfit (ps : List Plate) : ℚ :=
  (ps.map fun p => (p.copies : ℚ) * (p.items.map fun i => (inst.itemType i).profit).sum
    - penalties inst p.binTypeId p.items).sum

/-- Number of item types packed fewer times than required. -/
def missing (ps : List Plate) : Int :=
  ((List.range inst.numberOfItemTypes).countP
    fun i => decide (itemCopies ps i < (inst.itemType i).copiesMin) : Nat)

/-! ## The last bin -/

/-- The nodes of the last bin. -/
def lastNodes (ps : List Plate) : List Node := (ps.getLast?.map (·.nodes)).getD []

/-- Area of what is marked as residual in the last bin. -/
def residualArea (ps : List Plate) : Int :=
  (((lastNodes ps).filter fun n => n.itemTypeId = -3).map fun n => (region n).area).sum

/-- The pieces of the last bin other than the residual. -/
def usedNodes (ps : List Plate) : List Node :=
  (lastNodes ps).filter fun n => decide (0 < n.d) && decide (n.itemTypeId ≠ -3)

/-- The largest of zero and the given values. -/
def IsMaxWithZero (l : List Int) (m : Int) : Prop :=
  0 ≤ m ∧ (∀ x ∈ l, x ≤ m) ∧ (m = 0 ∨ m ∈ l)

/-- Area of the last strip of depth 2 if it is waste and no other piece of depth 1 or 2, except for
the residual, comes after it. -/
def secondLeftover (ps : List Plate) : Int :=
  match (lastNodes ps).reverse.find? fun n =>
      decide (n.d = 2) || (decide (n.d = 1) && decide (n.itemTypeId ≠ -3)) with
  | none => 0
  | some n => if n.d = 2 ∧ n.itemTypeId = -1 then (region n).area else 0

/-! ## Cutting cost -/

/-- Cost of the cut that separates a node from what follows it in its father; cuts up to depth four
are charged. -/
def cutCharge (o : CutOrientation) (nodes : List Node) (n : Node) : Int :=
  if 1 ≤ n.d ∧ n.d ≤ 4 then
    match n.f with
    | none => 0
    | some f =>
      let v := decide (VerticalAt o n.d)
      let c := inst.parameters.cuttingCosts.getD n.d.toNat {}
      if (region n).high v = (region (nodes.getD f default)).high v then 0
      else c.fixed + c.perUnit * ((region n).high (!v) - (region n).low (!v))
  else 0

/-- Cost of a bin: its own and that of its cuts. -/
def plateCharge (p : Plate) : Int :=
  let c := inst.parameters.cuttingCosts.getD 0 {}
  p.copies * (c.fixed + c.perUnit * trimmedArea (inst.binType p.binTypeId)
    + (p.nodes.map (cutCharge inst p.orientation p.nodes)).sum)

/-- Cutting cost without the cost of waste. -/
def cutsCost (ps : List Plate) : Int :=
  if inst.objective = .binPackingCuttingCost then (ps.map (plateCharge inst)).sum else 0

/-! ## Conditions on the instance -/

/-- The resources listed for an item type are those it consumes. -/
def ResourceIdsOk : Prop :=
  ∀ i, i < inst.numberOfItemTypes → ∀ b, b < inst.numberOfBinTypes →
    ((inst.itemType i).resourceIds.getD b []).Nodup
    ∧ ∀ r, r ∈ (inst.itemType i).resourceIds.getD b [] ↔ r < (inst.binType b).resources.length
      ∧ ((inst.binType b).resources.getD r {}).itemConsumptions.getD i [] ≠ []

/-- Resource capacities are non-negative. -/
def CapacitiesNonneg : Prop :=
  ∀ b ∈ inst.binTypes, ∀ r ∈ b.resources, 0 ≤ r.capacity

/-- Resource consumptions are non-negative. -/
def ConsumptionsNonneg : Prop :=
  ∀ b ∈ inst.binTypes, ∀ r ∈ b.resources, ∀ s ∈ r.itemConsumptions, ∀ q ∈ s, 0 ≤ q

/-! ## Constraints -/

/-- At every point of the cutting sequence no hard resource exceeds its capacity. -/
def ResourcesOk (b : Nat) (items : List Nat) : Prop :=
  ∀ r ∈ (inst.binType b).resources, r.penalize = false →
    ∀ p, p <+: items → consumption inst r p ≤ r.capacity

/-- A piece that is not an item is at least as wide and high as the minimum waste length. -/
def WasteOk (p : Plate) : Prop :=
  ∀ n ∈ p.nodes, 1 ≤ n.d → n.itemTypeId < 0 →
    inst.parameters.minimumWasteLength ≤ n.r - n.l ∧ inst.parameters.minimumWasteLength ≤ n.t - n.b

/-- Distance between the two cuts of depth `d` around a strip that is cut further lies between
`lo` and `hi`; a negative `hi` means no limit. -/
def DistancesOk (d : Nat) (lo hi : Int) (p : Plate) : Prop :=
  ∀ n ∈ p.nodes, n.d = d → n.itemTypeId = -2 → p.orientation ≠ .any →
    lo ≤ (region n).high (decide (VerticalAt p.orientation d))
        - (region n).low (decide (VerticalAt p.orientation d))
    ∧ (0 ≤ hi → (region n).high (decide (VerticalAt p.orientation d))
        - (region n).low (decide (VerticalAt p.orientation d)) ≤ hi)

/-- The number of cuts of depth 1 (strips that end before the end of the bin) is at most the
parameter; a negative parameter means no limit. -/
def Number1Ok (p : Plate) : Prop :=
  0 ≤ inst.parameters.maximumNumber1Cuts → p.orientation ≠ .any →
    ((p.nodes.countP fun n => decide (n.d = 1)
        && decide ((region n).high (decide (VerticalAt p.orientation 1))
          ≠ (usable (inst.binType p.binTypeId)).high (decide (VerticalAt p.orientation 1))) : Nat)
      : Int) ≤ inst.parameters.maximumNumber1Cuts

/-- The number of cuts of depth 2 in each strip of depth 1 (pieces that end before the end of the
strip) is at most the parameter; a negative parameter means no limit. -/
def Number2Ok (p : Plate) : Prop :=
  0 ≤ inst.parameters.maximumNumber2Cuts → p.orientation ≠ .any →
    ∀ i < p.nodes.length, (p.nodes.getD i default).d = 1 →
      ((p.nodes.countP fun n => decide (n.f = some i)
        && decide ((region n).high (decide (VerticalAt p.orientation 2))
          ≠ (region (p.nodes.getD i default)).high (decide (VerticalAt p.orientation 2))) : Nat)
      : Int) ≤ inst.parameters.maximumNumber2Cuts

/-- An open rectangle meets a defect. -/
def MeetsDefect (bt : BinType) (R : Region) : Prop :=
  ∃ d ∈ bt.defects, d.x < R.r ∧ R.l < d.x + d.w ∧ d.y < R.t ∧ R.b < d.y + d.h

/-- A segment in the plate goes through the inside of a defect. -/
def CutsDefect (bt : BinType) (v : Bool) (pos lo hi : Int) : Prop :=
  ∃ d ∈ bt.defects, if v then d.x < pos ∧ pos < d.x + d.w ∧ d.y < hi ∧ lo < d.y + d.h
    else d.y < pos ∧ pos < d.y + d.h ∧ d.x < hi ∧ lo < d.x + d.w

/-- No item lies on a defect. -/
def DefectsOk (p : Plate) : Prop :=
  ∀ n ∈ p.nodes, 1 ≤ n.d → 0 ≤ n.itemTypeId → ¬ MeetsDefect (inst.binType p.binTypeId) (region n)

/-- No side of a piece goes through a defect, unless that is allowed. -/
def CutThroughOk (p : Plate) : Prop :=
  inst.parameters.cutThroughDefects = false → ∀ n ∈ p.nodes, 1 ≤ n.d → ∀ v,
    ¬ CutsDefect (inst.binType p.binTypeId) v ((region n).low v) ((region n).low (!v))
        ((region n).high (!v))
    ∧ ¬ CutsDefect (inst.binType p.binTypeId) v ((region n).high v) ((region n).low (!v))
        ((region n).high (!v))

/-- Items are cut in the order of their stacks: when an item is cut, all the copies of the item type
before it in its stack have been cut. -/
def StacksOk (ps : List Plate) : Prop :=
  ∀ before p after, ps = before ++ p :: after →
    ∀ first n rest, p.nodes = first ++ n :: rest → 1 ≤ n.d → 0 ≤ n.itemTypeId →
      0 < (inst.itemType n.itemTypeId.toNat).stackPos →
      let it := inst.itemType n.itemTypeId.toNat
      let pred := inst.item it.stackId (it.stackPos - 1)
      itemCopies before pred + p.copies * ((itemsOf (first ++ [n])).count pred : Int)
        = (inst.itemType pred).copies

/-- No item type is used more often than it has copies, nor less often than required. -/
def CopiesOk (ps : List Plate) : Prop :=
  ∀ i, i < inst.numberOfItemTypes →
    (inst.itemType i).copiesMin ≤ itemCopies ps i ∧ itemCopies ps i ≤ (inst.itemType i).copies

end PackingSolver.Guil.Spec
