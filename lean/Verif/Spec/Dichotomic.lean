import Verif.Model.Algorithms.DichotomicSearch
import Verif.Spec.Svc
import Verif.Spec.Sort

/-!
# What a user expects of the dichotomic search

A solution is the list of its bins: bin type, number of copies, item types of the items.
-/

namespace PackingSolver.Dichotomic.Spec

open PackingSolver.Svc (Bin BinTypeData)
open PackingSolver.Svc.Spec (binsUsed itemsUsed binSequence)

/-- What `InstanceBuilder::build` guarantees. -/
structure ValidInstance (inst : InstanceData) : Prop where
  bins : ∀ t ∈ inst.binTypes, 0 ≤ t.copiesMin ∧ t.copiesMin ≤ t.copies ∧ 0 ≤ t.space
  items : ∀ i ∈ inst.items, 0 ≤ i.1 ∧ 0 ≤ i.2

/-- A possible result of sorting the bin types by space. -/
def SortedBySpace (inst : InstanceData) (sorted : List Nat) : Prop :=
  PackingSolver.Spec.IsSortOf
    (fun a b => decide ((inst.binType a).space < (inst.binType b).space))
    (List.range inst.binTypes.length) sorted

/-- Number of bins of type `t` in a list of bins given as pairs of type and copies. -/
def offered (bins : List (Nat × Int)) (t : Nat) : Int :=
  ((bins.filter fun p => p.1 = t).map fun p => p.2).sum

/-- The solution of a bin packing instance with bins `bins` uses only bins and items that
exist, no more often than they are available. -/
structure WithinOffer (inst : InstanceData) (bins : List (Nat × Int)) (sol : List Bin) :
    Prop where
  types : ∀ b ∈ sol, b.typeId < bins.length ∧ 1 ≤ b.copies
    ∧ ∀ i ∈ b.items, i < inst.items.length
  bins : ∀ k, binsUsed sol k ≤ (bins.getD k (0, 0)).2
  items : ∀ i, itemsUsed sol i ≤ (inst.items.getD i (0, 0)).1

/-- The bin packing solver returns such solutions, whatever the bins. -/
def BinPackingAnswers (inst : InstanceData) (o : Oracle) : Prop :=
  ∀ bins, (∀ p ∈ bins, 0 < p.2) → WithinOffer inst bins (o.bpp bins)

/-- Every copy of every item is packed. -/
def PacksEverything (inst : InstanceData) (sol : List Bin) : Prop :=
  ∀ i < inst.items.length, itemsUsed sol i = (inst.items.getD i (0, 0)).1

/-- Bin and item types exist and none is used more often than it is available. -/
structure WithinCopies (inst : InstanceData) (sol : List Bin) : Prop where
  types : ∀ b ∈ sol, b.typeId < inst.binTypes.length ∧ 1 ≤ b.copies
    ∧ ∀ i ∈ b.items, i < inst.items.length
  bins : ∀ t, binsUsed sol t ≤ (inst.binType t).copies
  items : ∀ i, itemsUsed sol i ≤ (inst.items.getD i (0, 0)).1

/-- The knapsack solver says for each item whether it is in the solution. -/
def KnapsackAnswers (o : Oracle) : Prop := ∀ c ids, (o.kp c ids).length = ids.length

/-- Sum of `w` over the chosen items. -/
def total (w : Nat → ℚ) (ids : List Nat) (chosen : List Bool) : ℚ :=
  ((ids.zip chosen).map fun p => if p.2 then w p.1 else 0).sum

/-- The knapsack solver returns a choice of bins of largest cost among those whose space is at
most the capacity (which is not negative). -/
def KnapsackOptimal (inst : InstanceData) (o : Oracle) : Prop :=
  ∀ c ids, 0 ≤ c → (∀ t ∈ ids, t < inst.binTypes.length) →
    total (fun t => (inst.binType t).space) ids (o.kp c ids) ≤ c ∧
    ∀ S : List Bool, S.length = ids.length →
      total (fun t => (inst.binType t).space) ids S ≤ c →
      total (fun t => (inst.binType t).cost) ids S
        ≤ total (fun t => (inst.binType t).cost) ids (o.kp c ids)

/-- The bin packing solver uses the bins in the given order. -/
def UsesBinsInOrder (o : Oracle) : Prop :=
  ∀ bins, (∀ p ∈ bins, 0 < p.2) → binSequence (o.bpp bins) <+:
    (List.range bins.length).flatMap fun k => List.replicate (bins.getD k (0, 0)).2.toNat k

/-- Cost of a solution. -/
def cost (inst : InstanceData) (sol : List Bin) : ℚ :=
  (sol.map fun b => (b.copies : ℚ) * (inst.binType b.typeId).cost).sum

/-- Sum over the bin types of the number of bins times a quantity. -/
def sumOver (inst : InstanceData) (n : Nat → Int) (q : BinTypeData → ℚ) : ℚ :=
  ((List.range inst.binTypes.length).map fun t => (n t : ℚ) * q (inst.binType t)).sum

/-- A choice of bins that respects the numbers of copies, and whose optional bins, those beyond
`copies_min`, have at least `1 + waste` times the space of the items. -/
structure Choice (inst : InstanceData) (waste : ℚ) (n : Nat → Int) : Prop where
  copies : ∀ t < inst.binTypes.length,
    (inst.binType t).copiesMin ≤ n t ∧ n t ≤ (inst.binType t).copies
  space : itemSpace inst * (1 + waste)
    ≤ sumOver inst (fun t => n t - (inst.binType t).copiesMin) fun t => t.space

/-- The spaces of the bin types are integers. -/
def IntegerSpaces (inst : InstanceData) : Prop :=
  ∀ t ∈ inst.binTypes, ∃ k : Int, t.space = k

end PackingSolver.Dichotomic.Spec
