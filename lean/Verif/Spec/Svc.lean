import Verif.Model.Algorithms.SequentialValueCorrection

/-!
# What a user expects of sequential value correction

A solution is the list of its bins: bin type, number of copies, item types of the items.
-/

namespace PackingSolver.Svc.Spec

/-- Number of bins of type `t` in the solution. -/
def binsUsed (sol : List Bin) (t : Nat) : Int :=
  ((sol.filter fun b => b.typeId = t).map fun b => b.copies).sum

/-- Number of items of type `i` in the solution. -/
def itemsUsed (sol : List Bin) (i : Nat) : Int :=
  (sol.map fun b => b.copies * (b.items.count i : Int)).sum

/-- Bin and item types exist and none is used more often than it is available. -/
structure WithinCopies (inst : InstanceData) (sol : List Bin) : Prop where
  bin_types : ∀ b ∈ sol, b.typeId < inst.binTypes.length ∧ 1 ≤ b.copies
    ∧ ∀ i ∈ b.items, i < inst.itemCopies.length
  bins : ∀ t, binsUsed sol t ≤ (inst.binType t).copies
  items : ∀ i, itemsUsed sol i ≤ inst.itemCopies.getD i 0

/-- What `InstanceBuilder::build` guarantees: numbers of copies are not negative, `copies_min`
is at most `copies`, and the fixed items are available. -/
structure ValidInstance (inst : InstanceData) : Prop where
  copies : ∀ t ∈ inst.binTypes, 0 ≤ t.copies ∧ t.copiesMin ≤ t.copies
  items : ∀ c ∈ inst.itemCopies, 0 ≤ c
  fixed : ∀ i, inst.copiesFixed i ≤ inst.itemCopies.getD i 0

/-- The sub-solver returns bins that use no item type more often than it was offered
(no offer is negative). -/
def FeasibleAnswers (inst : InstanceData) (o : Oracle) : Prop :=
  (∀ it st t q p, (∀ i, 0 ≤ q i) → o.kp it st t q = some p →
    ∀ i, (p.1.count i : Int) ≤ q i ∧ (i ∈ p.1 → i < inst.itemCopies.length)) ∧
  (∀ it st t q p, (∀ i, 0 ≤ q i) → o.leftovers it st t q = some p →
    ∀ i, (p.1.count i : Int) ≤ q i ∧ (i ∈ p.1 → i < inst.itemCopies.length))

/-- Every bin returned by the sub-solver for a bin type satisfies `P`, and so does an empty
bin. -/
structure AnswersSatisfy (o : Oracle) (P : Nat → List Nat → Prop) : Prop where
  empty : ∀ t, P t []
  kp : ∀ it st t q p, o.kp it st t q = some p → P t p.1
  leftovers : ∀ it st t q p, o.leftovers it st t q = some p → P t p.1

/-- The bin types of the bins of a solution, one by one, in order. -/
def binSequence (sol : List Bin) : List Nat :=
  sol.flatMap fun b => List.replicate b.copies.toNat b.typeId

/-- All the bins of the instance in the order of the bin types. -/
def allBins (inst : InstanceData) : List Nat :=
  (List.range inst.binTypes.length).flatMap fun t =>
    List.replicate (inst.binType t).copies.toNat t

end PackingSolver.Svc.Spec
