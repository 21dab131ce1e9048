import Verif.Model.OneDim.TreeSearch
import Verif.Spec.OneDimHistory
import Verif.Spec.OneDimBuild

/-!
# Specification vocabulary for the one-dimensional tree search
-/

namespace PackingSolver.OneDim.Spec

open PackingSolver.OneDim

/-- `Descends inst n m`: `m` is obtained from `n` by zero or more insertions offered by the
branching scheme. -/
inductive Descends (inst : Instance) (n : Node) : Node → Prop
  | refl : Descends inst n n
  | step (m : Node) (ins : Insertion) (h : Descends inst n m) (hi : ins ∈ insertions inst m) :
      Descends inst n (m.child inst ins)

/-- The nodes the search can visit. -/
def TreeNode (inst : Instance) (n : Node) : Prop := Descends inst (Node.root inst) n

/-- The packing a node stands for: the builder calls replayed from its chain of parents. -/
def nodePacking (inst : Instance) (n : Node) : Packing := opsPacking (historyOps inst 0 n.history)

/-- Assumptions on the instance: it was built, and its data are non-negative. -/
structure Sound (inst : Instance) : Prop where
  agg : Aggregates inst
  capacities : CapacitiesNonneg inst
  consumptions : ConsumptionsNonneg inst
  binCopies : ∀ b ∈ inst.binTypes, 0 ≤ b.copies
  itemCopies : ∀ i, i < inst.numberOfItemTypes → 0 ≤ (inst.itemType i).copies

/-- A limit that is infinite or a non-negative integer below `10^9`. -/
def SmallLimit (e : ExtQ) : Prop := e = .inf ∨ ∃ z : Int, 0 ≤ z ∧ z < 1000000000 ∧ e = .fin z

/-- Data on which the relative tolerance `1 + 1e-9` used by the search has no effect: integral
weights and consumptions, and integral limits below `10^9`. -/
structure IntegralData (inst : Instance) : Prop where
  weight : ∀ i, i < inst.numberOfItemTypes → ∃ z : Int, 0 ≤ z ∧ (inst.itemType i).weight = z
  maximumWeight : ∀ t, t < inst.numberOfBinTypes → SmallLimit (inst.binType t).maximumWeight
  maximumWeightAfter : ∀ i, i < inst.numberOfItemTypes →
    SmallLimit (inst.itemType i).maximumWeightAfter
  capacity : ∀ b ∈ inst.binTypes, ∀ r ∈ b.resources, r.penalize = false →
    ∃ z : Int, z < 1000000000 ∧ r.capacity = z
  consumption : ∀ b ∈ inst.binTypes, ∀ r ∈ b.resources, r.penalize = false →
    ∀ s ∈ r.itemConsumptions, ∀ q ∈ s, ∃ z : Int, q = z

/-- Items do not nest into each other and bins have non-negative lengths. -/
structure NoNesting (inst : Instance) : Prop where
  nesting : ∀ i, i < inst.numberOfItemTypes → (inst.itemType i).nestingLength ≤ 0
  lengths : ∀ t, t < inst.numberOfBinTypes → 0 ≤ (inst.binType t).length

/-- Item types have non-negative profits. -/
def ProfitsNonneg (inst : Instance) : Prop :=
  ∀ i, i < inst.numberOfItemTypes → 0 ≤ (inst.itemType i).profit

/-- Penalties are non-negative. -/
def PenaltiesNonneg (inst : Instance) : Prop :=
  ∀ b ∈ inst.binTypes, ∀ r ∈ b.resources, r.penalize = true → 0 ≤ r.penalty

/-- No resource is penalized. -/
def NoPenalties (inst : Instance) : Prop :=
  ∀ b ∈ inst.binTypes, ∀ r ∈ b.resources, r.penalize = false

/-- A completion of a packing: more items at the end of its last bin, then more bins. -/
def completion (p : Packing) (items : List Nat) (bins : Packing) : Packing :=
  match p.getLast? with
  | none => bins
  | some b => p.dropLast ++ ⟨b.binTypeId, b.copies, b.items ++ items⟩ :: bins

/-- Instances with lengths, nesting, eligibility and hard resources consumed at a constant rate,
but no weight limit, stackability or penalty. -/
structure LengthOnly (inst : Instance) : Prop where
  weight : ∀ t, t < inst.numberOfBinTypes → (inst.binType t).maximumWeight = .inf
  weightAfter : ∀ i, i < inst.numberOfItemTypes → (inst.itemType i).maximumWeightAfter = .inf
  stack : ∀ i, i < inst.numberOfItemTypes → inst.numberOfItems ≤ (inst.itemType i).maximumStackability
  penalties : NoPenalties inst
  rate : ∀ b ∈ inst.binTypes, ∀ r ∈ b.resources, ∀ s ∈ r.itemConsumptions, s.length ≤ 1

end PackingSolver.OneDim.Spec
