import Verif.Model.OneDim.Instance
import Mathlib.Algebra.BigOperators.Group.Finset.Basic
import Mathlib.Algebra.BigOperators.Intervals
import Mathlib.Algebra.Order.Field.Rat

/-!
# Specification of one-dimensional packings

Written directly from the problem description, without reference to how the
code computes anything.  A packing is a list of bins; each bin has a type, a
number of copies and the sequence of item types laid end to end in it.
-/

namespace PackingSolver.OneDim.Spec

open PackingSolver.OneDim

/-- A packing: a list of bins. -/
abbrev Packing := List PackedBin

variable (inst : Instance)

/-- Total length occupied by a sequence of items laid end to end: each item
after the first overlaps the previous one by its nesting length. -/
def binEnd (l : List Nat) : Int :=
  (l.map fun i => (inst.itemType i).length).sum
    - (l.tail.map fun i => (inst.itemType i).nestingLength).sum

/-- Total weight of a sequence of items. -/
def weight (l : List Nat) : ℚ := (l.map fun i => (inst.itemType i).weight).sum

/-- Total consumption of a resource by the items `l` of a bin: the first,
second, … copy of item type `i` consumes the first, second, … entry of its
schedule. -/
def consumption (r : Resource) (l : List Nat) : ℚ :=
  ∑ i ∈ Finset.range inst.numberOfItemTypes,
    ∑ c ∈ Finset.range (l.count i), r.itemConsumption i c

/-- An item type may go into a bin type: it has no eligibility id or the bin
type lists it. -/
def EligibleIn (i b : Nat) : Prop :=
  (inst.itemType i).eligibilityId = -1
    ∨ (inst.itemType i).eligibilityId ∈ (inst.binType b).eligibilityIds

/-- The items fit in the bin: at every point of the loading sequence the end of
the last item does not exceed the length of the bin. -/
def Fits (b : Nat) (l : List Nat) : Prop :=
  ∀ p, p <+: l → p ≠ [] → binEnd inst p ≤ (inst.binType b).length

/-- The weight limit holds at every point of the loading sequence. -/
def WeightOk (b : Nat) (l : List Nat) : Prop :=
  ∀ p, p <+: l → p ≠ [] → (inst.binType b).maximumWeight.Ge (weight inst p)

/-- Every item is eligible. -/
def EligibleAll (b : Nat) (l : List Nat) : Prop := ∀ i ∈ l, EligibleIn inst i b

/-- No item is in a bin with more items than its maximum stackability. -/
def StackOk (l : List Nat) : Prop :=
  ∀ i ∈ l, (l.length : Int) ≤ (inst.itemType i).maximumStackability

/-- At every point of the loading sequence, the weight of the items after any
item is at most what that item accepts. -/
def WeightAfterOk (l : List Nat) : Prop :=
  ∀ p i q, p ++ i :: q <+: l → (inst.itemType i).maximumWeightAfter.Ge (weight inst q)

/-- At every point of the loading sequence no hard (non penalized) resource
exceeds its capacity. -/
def ResourcesOk (b : Nat) (l : List Nat) : Prop :=
  ∀ r ∈ (inst.binType b).resources, r.penalize = false →
    ∀ p, p <+: l → consumption inst r p ≤ r.capacity

/-- All the constraints internal to one bin. -/
structure BinOk (b : Nat) (l : List Nat) : Prop where
  fits : Fits inst b l
  weight : WeightOk inst b l
  eligible : EligibleAll inst b l
  stack : StackOk inst l
  weightAfter : WeightAfterOk inst l
  resources : ResourcesOk inst b l

/-- Number of packed copies of an item type. -/
def itemCopies (p : Packing) (i : Nat) : Int :=
  (p.map fun b => b.copies * (b.items.count i : Int)).sum

/-- Number of used copies of a bin type. -/
def binCopies (p : Packing) (t : Nat) : Int :=
  (p.map fun b => if b.binTypeId = t then b.copies else 0).sum

/-- Number of bins. -/
def numberOfBins (p : Packing) : Int := (p.map fun b => b.copies).sum

/-- Number of packed items. -/
def numberOfItems (p : Packing) : Int := (p.map fun b => b.copies * (b.items.length : Int)).sum

/-- Total cost of the bins. -/
def cost (p : Packing) : ℚ :=
  (p.map fun b => (b.copies : ℚ) * (inst.binType b.binTypeId).cost).sum

/-- Total length of the bins. -/
def binLength (p : Packing) : Int :=
  (p.map fun b => b.copies * (inst.binType b.binTypeId).length).sum

/-- Total length of the packed items. -/
def itemLength (p : Packing) : Int :=
  (p.map fun b => b.copies * (b.items.map fun i => (inst.itemType i).length).sum).sum

/-- Profit of the items packed in one copy of a bin. -/
def itemsProfit (l : List Nat) : ℚ := (l.map fun i => (inst.itemType i).profit).sum

/-- Penalties of a bin: one penalty for every penalized resource whose capacity
is exceeded by the items of the bin. -/
def penalties (b : Nat) (l : List Nat) : ℚ :=
  ((inst.binType b).resources.map fun r =>
    if r.penalize = true ∧ consumption inst r l > r.capacity then r.penalty else 0).sum

/-- Length of a packing whose bins are laid one after the other: all the bins up
to the last non-empty one, which only counts up to the end of its last item.
(Zero when every bin is empty.) -/
def length : Packing → Int
  | [] => 0
  | b :: p =>
    if ∃ b' ∈ p, b'.items ≠ [] then b.copies * (inst.binType b.binTypeId).length + length p
    else if b.items ≠ [] then
      (b.copies - 1) * (inst.binType b.binTypeId).length + binEnd inst b.items
    else 0

/-- Reported profit: item profits times bin copies, minus the penalties of each
listed bin.  (The penalties are those of one copy of the bin: see the
disagreement recorded for C44.) -/
def profit (p : Packing) : ℚ :=
  (p.map fun b => (b.copies : ℚ) * itemsProfit inst b.items
    - penalties inst b.binTypeId b.items).sum

/-- Number of item types packed fewer times than required. -/
def missing (p : Packing) : Int :=
  ((List.range inst.numberOfItemTypes).countP
    fun i => decide (itemCopies p i < (inst.itemType i).copiesMin) : Nat)

/-- The constraints on the number of copies of each item type. -/
def CopiesOk (p : Packing) : Prop :=
  ∀ i, i < inst.numberOfItemTypes →
    (inst.itemType i).copiesMin ≤ itemCopies p i ∧ itemCopies p i ≤ (inst.itemType i).copies

/-- A packing that refers only to existing types and has positive copies. -/
def WellTyped (p : Packing) : Prop :=
  ∀ b ∈ p, b.binTypeId < inst.numberOfBinTypes ∧ 0 ≤ b.copies
    ∧ ∀ i ∈ b.items, i < inst.numberOfItemTypes

/-- A feasible packing. -/
structure Feasible (p : Packing) : Prop where
  bins : ∀ b ∈ p, BinOk inst b.binTypeId b.items
  copies : CopiesOk inst p
  callback : inst.callback p = true

/-- The limits on the number of copies of each bin type. -/
def BinLimitsOk (p : Packing) : Prop :=
  ∀ t, t < inst.numberOfBinTypes →
    (inst.binType t).copiesMin ≤ binCopies p t ∧ binCopies p t ≤ (inst.binType t).copies

/-- Bin types are used in order: every bin type before a used one is used up. -/
def OrderOk (p : Packing) : Prop :=
  ∀ t u, t < u → u < inst.numberOfBinTypes → 0 < binCopies p u →
    binCopies p t = (inst.binType t).copies

/-- Data guaranteed by `InstanceBuilder::build` (`Props/OneDim/Build.lean`):
`resource_ids` of an item type lists, without repetition, the resources of the
bin type for which the item type has a schedule. -/
def ResourceIdsOk : Prop :=
  ∀ i, i < inst.numberOfItemTypes → ∀ b, b < inst.numberOfBinTypes →
    let ids := (inst.itemType i).resourceIds.getD b []
    ids.Nodup ∧ ∀ r, r ∈ ids ↔ r < (inst.binType b).resources.length
      ∧ ((inst.binType b).resources.getD r {}).itemConsumptions.getD i [] ≠ []

/-- Resource capacities are non-negative. -/
def CapacitiesNonneg : Prop :=
  ∀ b ∈ inst.binTypes, ∀ r ∈ b.resources, 0 ≤ r.capacity

/-- Resource consumptions are non-negative. -/
def ConsumptionsNonneg : Prop :=
  ∀ b ∈ inst.binTypes, ∀ r ∈ b.resources, ∀ s ∈ r.itemConsumptions, ∀ q ∈ s, 0 ≤ q

end PackingSolver.OneDim.Spec
