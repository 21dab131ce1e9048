import Verif.Lemmas.Box.Dantzig
import Verif.Lemmas.Box.DffOne

/-!
# C89: dual feasible functions of the box solver
-/

namespace PackingSolver.Box

open Dff DffLemmas
open _root_.PackingSolver.Box.Spec

variable {inst : Instance}

/-- **C89** (BinPacking; requires sides of the bin of at least 2, see `dff_side_one_undefined`): the
computation ends normally, and the reported number of bins is at most that of every packing of all
items. -/
theorem dff_bin_packing_bound_valid_partial (h : Positive inst) (h1 : inst.numberOfBinTypes = 1)
    (ho : inst.objective = .binPacking) (hx : 2 ≤ (inst.binType 0).box.x)
    (hy : 2 ≤ (inst.binType 0).box.y) (hz : 2 ≤ (inst.binType 0).box.z)
    (sort : List Int → List Nat → List Nat) :
    ∃ b, dualFeasibleFunctions sort inst = .ok (.binPackingBound b) ∧ 0 ≤ b ∧
      ∀ bins, FullPacking inst bins → b ≤ bins.length := by
  obtain ⟨b, hb, h0, hv⟩ := dffBins_ok h ⟨hx, hy, hz⟩
  refine ⟨b, ?_, h0, hv⟩
  unfold dualFeasibleFunctions
  rw [if_neg (by simp [ho]), if_neg (by omega), if_neg (by rw [ho]; decide), hb]
  show Except.ok _ = _
  rw [if_pos ho]

/-- **C89** (Feasibility; requires sides of the bin of at least 2): the computation ends normally,
and an instance declared infeasible has no packing of all items in its bins. -/
theorem dff_infeasible_valid_partial (h : Positive inst) (h1 : inst.numberOfBinTypes = 1)
    (ho : inst.objective = .feasibility) (hx : 2 ≤ (inst.binType 0).box.x)
    (hy : 2 ≤ (inst.binType 0).box.y) (hz : 2 ≤ (inst.binType 0).box.z)
    (sort : List Int → List Nat → List Nat) :
    ∃ b, dualFeasibleFunctions sort inst = .ok (.provenInfeasible b) ∧
      (b = true → ∀ bins, FullPacking inst bins → ¬ bins.length ≤ inst.numberOfBins) := by
  obtain ⟨b, hb, h0, hv⟩ := dffBins_ok h ⟨hx, hy, hz⟩
  refine ⟨decide (b > (inst.numberOfBins : Int)), ?_, ?_⟩
  · unfold dualFeasibleFunctions
    rw [if_neg (by simp [ho]), if_neg (by omega), if_neg (by rw [ho]; decide), hb]
    show Except.ok _ = _
    rw [if_neg (by rw [ho]; decide)]
  · intro hd bins hp hle
    have := hv bins hp
    have := of_decide_eq_true hd
    omega

/-- **C89** (Knapsack; requires sides of the bin of at least 2, and non-negative profits, see
`dff_knapsack_negative_profit`): the computation ends normally and the bound is at least the profit
of every packing of a selection of the items in the available bins. -/
theorem dff_knapsack_bound_valid_partial (h : Positive inst)
    (h1 : inst.numberOfBinTypes = 1) (ho : inst.objective = .knapsack)
    (hx : 2 ≤ (inst.binType 0).box.x) (hy : 2 ≤ (inst.binType 0).box.y)
    (hz : 2 ≤ (inst.binType 0).box.z)
    (hprof : ∀ i, i < inst.numberOfItemTypes → 0 ≤ (inst.itemType i).profit)
    {sort : List Int → List Nat → List Nat}
    (hsort : ∀ v, PackingSolver.Spec.IsSortOf (dantzigLt inst v) (dantzigItemTypes inst v)
      (sort v (dantzigItemTypes inst v))) :
    ∃ b, dualFeasibleFunctions sort inst = .ok (.knapsackBound b) ∧
      ∀ bins, KnapsackPacking inst bins → b.Ge (profit inst bins) := by
  obtain ⟨b, hb, hv⟩ := knapsackBound_valid h ⟨hx, hy, hz⟩ h1 hprof hsort
  refine ⟨b, ?_, hv⟩
  unfold dualFeasibleFunctions
  rw [if_neg (by simp [ho]), if_neg (by omega), if_pos ho, hb]
  rfl

/-- **C89** fails: on every instance whose bin has a side of length 1 the computation divides by
zero, whatever the items are. -/
theorem dff_side_one_undefined (h : Positive inst) (h1 : inst.numberOfBinTypes = 1)
    (ho : inst.objective = .binPacking ∨ inst.objective = .feasibility
      ∨ inst.objective = .knapsack)
    (hs : (inst.binType 0).box.x = 1 ∨ (inst.binType 0).box.y = 1 ∨ (inst.binType 0).box.z = 1)
    (sort : List Int → List Nat → List Nat) :
    dualFeasibleFunctions sort inst = .error .ub := by
  have hb : 0 < (inst.binType 0).box.x ∧ 0 < (inst.binType 0).box.y
      ∧ 0 < (inst.binType 0).box.z := by
    have : 0 < inst.binTypes.length := by
      unfold Instance.numberOfBinTypes at h1
      omega
    unfold Instance.binType
    rw [List.getD_eq_getElem _ _ this]
    exact h.bins _ (List.getElem_mem _)
  have e1 := dffBins_one h (by omega) (by omega) (by omega) hs
  have e2 := knapsackBound_one h (by omega) (by omega) (by omega) hs sort
  unfold dualFeasibleFunctions
  rcases ho with ho | ho | ho
  · rw [if_neg (by simp [ho]), if_neg (by omega), if_neg (by rw [ho]; decide), e1]
    rfl
  · rw [if_neg (by simp [ho]), if_neg (by omega), if_neg (by rw [ho]; decide), e1]
    rfl
  · rw [if_neg (by simp [ho]), if_neg (by omega), if_pos ho, e2]
    rfl

/-- **C89**: other objectives and several bin types are rejected. -/
theorem dff_rejected (sort : List Int → List Nat → List Nat)
    (h : (inst.objective ≠ .binPacking ∧ inst.objective ≠ .feasibility
      ∧ inst.objective ≠ .knapsack) ∨ inst.numberOfBinTypes ≠ 1) :
    dualFeasibleFunctions sort inst = .error .invalidArgument := by
  unfold dualFeasibleFunctions
  by_cases h1 : inst.objective ≠ .binPacking ∧ inst.objective ≠ .feasibility
      ∧ inst.objective ≠ .knapsack
  · rw [if_pos h1]
  · rw [if_neg h1, if_pos (h.resolve_left h1)]

/-! ## Instances -/

/-- Three cubes of side 6 and four 3 × 4 × 10 boxes with all their rotations about the vertical axis,
in bins 10 × 10 × 10. -/
def dffInst (o : Objective) (copies : Nat) : Instance := {
  objective := o
  itemTypes := [
    { box := ⟨6, 6, 6⟩, profit := 6, copies := 3, rotations := [.xyz] },
    { box := ⟨3, 4, 10⟩, profit := 3, copies := 4, rotations := [.xyz, .yxz] }]
  binTypes := [{ box := ⟨10, 10, 10⟩, copies := copies }]
  numberOfItems := 7
  binTypeIds := List.replicate copies 0 }

/-- A packing in three bins: the small boxes stand beside the cubes. -/
def dffBinsExample : List (List PlacedItem) :=
  [[⟨0, 0, 0, 0, .xyz⟩, ⟨1, 6, 0, 0, .yxz⟩, ⟨1, 6, 3, 0, .yxz⟩],
   [⟨0, 0, 0, 4, .xyz⟩, ⟨1, 6, 0, 0, .yxz⟩, ⟨1, 0, 6, 0, .xyz⟩],
   [⟨0, 4, 4, 0, .xyz⟩]]

instance (d : Dims) (r : Placed) : Decidable (Inside d r) := by unfold Inside; infer_instance
instance (r s : Placed) : Decidable (Separated r s) := by unfold Separated; infer_instance

/-- A decidable form of the conditions on a packing. -/
theorem fullPacking_of {inst : Instance} {bins : List (List PlacedItem)}
    (h : ∀ items ∈ bins, (∀ p ∈ items, p.itemTypeId < inst.numberOfItemTypes) ∧
      (∀ p ∈ items, p.rotation ∈ (inst.itemType p.itemTypeId).rotations) ∧
      (∀ p ∈ items, Inside (inst.binType 0).box (occupies inst p)) ∧
      items.Pairwise fun p q => Separated (occupies inst p) (occupies inst q))
    (ha : ∀ i, i < inst.numberOfItemTypes →
      Spec.count bins.flatten i = (inst.itemType i).copies) : FullPacking inst bins :=
  ⟨fun items hi => ⟨(h items hi).1, (h items hi).2.1, (h items hi).2.2.1, (h items hi).2.2.2⟩, ha⟩

/-- The bound of three bins is reached. -/
example : Positive (dffInst .binPacking 7) ∧ (dffInst .binPacking 7).numberOfBinTypes = 1 ∧
    dualFeasibleFunctions (fun _ l => l) (dffInst .binPacking 7) = .ok (.binPackingBound 3) ∧
    FullPacking (dffInst .binPacking 7) dffBinsExample ∧ dffBinsExample.length = 3 :=
  ⟨⟨by decide, by decide⟩, rfl, by decide +kernel,
    fullPacking_of (by decide +kernel) (by decide +kernel), rfl⟩

/-- With two bins the instance is declared infeasible, with three it is not. -/
example : Positive (dffInst .feasibility 2) ∧
    dualFeasibleFunctions (fun _ l => l) (dffInst .feasibility 2)
      = .ok (.provenInfeasible true) ∧
    dualFeasibleFunctions (fun _ l => l) (dffInst .feasibility 3)
      = .ok (.provenInfeasible false) :=
  ⟨⟨by decide, by decide⟩, by decide +kernel, by decide +kernel⟩

/-- A sheet packed flat: one item of height 1 in a bin of height 1. -/
example : ∃ inst : Instance, Positive inst ∧ inst.numberOfBinTypes = 1 ∧
    inst.objective = .binPacking ∧ (inst.binType 0).box.z = 1 ∧
    FullPacking inst [[⟨0, 0, 0, 0, .xyz⟩]] ∧
    dualFeasibleFunctions (fun _ l => l) inst = .error .ub := by
  refine ⟨{ objective := .binPacking
            itemTypes := [{ box := ⟨6, 6, 1⟩, rotations := [.xyz] }]
            binTypes := [{ box := ⟨10, 10, 1⟩ }]
            binTypeIds := [0] }, ⟨by decide, by decide⟩, rfl, rfl, rfl,
    fullPacking_of (by decide +kernel) (by decide +kernel), by decide +kernel⟩

/-- Sort by decreasing ratio of profit and volume. -/
def ratioSort (inst : Instance) (v : List Int) (l : List Nat) : List Nat :=
  l.insertionSort fun i j => (inst.itemType j).profit / (v.getD j 0 : ℚ)
    ≤ (inst.itemType i).profit / (v.getD i 0 : ℚ)

theorem ratioSort_sorts (inst : Instance) (v : List Int) :
    PackingSolver.Spec.IsSortOf (dantzigLt inst v) (dantzigItemTypes inst v)
      (ratioSort inst v (dantzigItemTypes inst v)) := by
  let r : Nat → Nat → Prop := fun i j => (inst.itemType j).profit / (v.getD j 0 : ℚ)
    ≤ (inst.itemType i).profit / (v.getD i 0 : ℚ)
  have hperm : (ratioSort inst v (dantzigItemTypes inst v)).Perm (dantzigItemTypes inst v) :=
    List.perm_insertionSort r _
  refine ⟨hperm, ?_⟩
  have : Std.Total r := ⟨fun a b => le_total _ _⟩
  have : IsTrans Nat r := ⟨fun a b c h1 h2 => le_trans h2 h1⟩
  have hs : (ratioSort inst v (dantzigItemTypes inst v)).Pairwise r :=
    List.pairwise_insertionSort r _
  refine hs.imp_of_mem fun {a b} ha hb hab => ?_
  have hpos : ∀ i, i ∈ ratioSort inst v (dantzigItemTypes inst v) → (0 : ℚ) < (v.getD i 0 : ℚ) := by
    intro i hi
    have := hperm.mem_iff.mp hi
    simp only [dantzigItemTypes, List.mem_filter, Bool.and_eq_true, decide_eq_true_eq] at this
    exact_mod_cast this.2.2
  unfold dantzigLt
  simp only [gt_iff_lt, decide_eq_false_iff_not, not_lt]
  have h1 := hpos a ha
  have h2 := hpos b hb
  have hab : (inst.itemType b).profit / (v.getD b 0 : ℚ)
    ≤ (inst.itemType a).profit / (v.getD a 0 : ℚ) := hab
  rw [div_le_div_iff₀ h2 h1] at hab
  linarith

/-- The bound for one bin is 18; the first bin of the packing above has profit 12. -/
example : Positive (dffInst .knapsack 1) ∧
    (∀ i, i < 2 → 0 ≤ ((dffInst .knapsack 1).itemType i).profit) ∧
    knapsackBound (dffInst .knapsack 1) (ratioSort (dffInst .knapsack 1)) = .ok (.fin 18) ∧
    profit (dffInst .knapsack 1) (dffBinsExample.take 1) = 12 :=
  ⟨⟨by decide, by decide⟩, by decide +kernel, by decide +kernel, by decide +kernel⟩

/-- **C89** (Knapsack) fails with a negative profit: the item is counted although it need not be
packed. -/
theorem dff_knapsack_negative_profit : ∃ (inst : Instance) (bins : List (List PlacedItem))
    (b : ℚ), Positive inst ∧ inst.numberOfBinTypes = 1 ∧ inst.objective = .knapsack ∧
    KnapsackPacking inst bins ∧ knapsackBound inst (ratioSort inst) = .ok (.fin b) ∧
    b < profit inst bins := by
  refine ⟨{
    objective := .knapsack
    itemTypes := [{ box := ⟨6, 6, 6⟩, profit := 5, rotations := [.xyz] },
      { box := ⟨2, 2, 2⟩, profit := -1, rotations := [.xyz] }]
    binTypes := [{ box := ⟨10, 10, 10⟩ }]
    binTypeIds := [0] }, [[⟨0, 0, 0, 0, .xyz⟩]], 4, ⟨by decide, by decide⟩, rfl, rfl,
    ⟨?_, ?_, by decide⟩, by decide +kernel, by decide +kernel⟩
  · intro items hi
    rw [List.mem_singleton] at hi
    subst hi
    exact ⟨by decide +kernel, by decide +kernel, by decide +kernel, by decide +kernel⟩
  · unfold WithinCopies
    decide +kernel

end PackingSolver.Box
