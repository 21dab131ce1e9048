import Verif.Lemmas.Rect.BinBound
import Verif.Lemmas.Rect.Dantzig
import Verif.Lemmas.Rect.Cut

/-!
# C39, C40: dual feasible functions of the rectangle solver

The conversion to an integer of a quotient by zero is undefined; `undef` is its outcome.  The
theorems hold whenever this outcome is an error, or a number that is not positive (on the usual
processors the conversion of "not a number" gives the smallest integer, or 0).
-/

namespace PackingSolver.Rect

open Dff DffLemmas
open _root_.PackingSolver.Rect.Spec

variable {inst : Instance}

theorem binTypes_ne (h1 : inst.numberOfBinTypes = 1) : inst.binTypes ≠ [] := by
  intro h
  unfold Instance.numberOfBinTypes at h1
  rw [h] at h1
  cases h1

/-- A packing of all items of an instance that has items has at least one bin. -/
theorem one_le_bins {bins : List (List PlacedItem)} (hp : FullPacking inst bins)
    {i : Nat} (hi : i < inst.numberOfItemTypes) (hc : 0 < (inst.itemType i).copies) :
    1 ≤ bins.length := by
  by_contra hlt
  have h0 : bins = [] := List.length_eq_zero_iff.1 (by omega)
  subst h0
  have := hp.all i hi
  simp [Spec.count] at this
  omega

theorem full_nil {bins : List (List PlacedItem)}
    (hp : FullPacking inst bins) (h0 : bins.length = 0) : FullPacking inst [[]] := by
  have hb : bins = [] := List.length_eq_zero_iff.1 h0
  subst hb
  refine ⟨?_, hp.all⟩
  intro items hi
  rw [List.mem_singleton] at hi
  subst hi
  exact ⟨by simp, by simp, by simp, by simp⟩

/-- **C39** (BinPacking): the reported number of bins is at most that of every packing of all
items, for every instance with one bin type, every number of iterations and nested calls; if
there is nothing to pack the reported number is at most 1. -/
theorem rect_dff_bin_packing_bound_valid (h : Positive inst) (h1 : inst.numberOfBinTypes = 1)
    (ho : inst.objective = .binPacking) {undef : Except Err Int}
    (hu : ∀ v, undef = .ok v → v ≤ 0) {passes depth : Nat}
    {sort : List Int → List Nat → List Nat} {b : Int}
    (hr : dualFeasibleFunctions undef passes depth sort inst = some (.ok (.binPackingBound b)))
    {bins : List (List PlacedItem)} (hp : FullPacking inst bins) :
    (b ≤ bins.length ∨ (bins = [] ∧ b ≤ 1)) ∧
    (∀ i, i < inst.numberOfItemTypes → 0 < (inst.itemType i).copies → b ≤ bins.length) := by
  have hn := binTypes_ne h1
  have hb : binBound undef passes depth inst = some (.ok b) := by
    unfold dualFeasibleFunctions at hr
    rw [if_neg (by simp [ho]), if_neg (by omega), if_pos ho] at hr
    cases hbb : binBound undef passes depth inst with
    | none => rw [hbb] at hr; cases hr
    | some r =>
      rw [hbb] at hr
      cases r with
      | error e => cases hr
      | ok v => cases hr; rfl
  refine ⟨?_, ?_⟩
  · by_cases h0 : bins.length = 0
    · right
      exact ⟨List.length_eq_zero_iff.1 h0,
        binBound_le passes depth inst [[]] h hn (full_nil hp h0) (by simp) hu b hb⟩
    · left
      exact binBound_le passes depth inst bins h hn hp (by omega) hu b hb
  · intro i hi hc
    exact binBound_le passes depth inst bins h hn hp (one_le_bins hp hi hc) hu b hb

/-- **C39**: the computation ends, within three nested calls and one more iteration than the
packing has bins, as soon as all items can be packed and the undefined conversions have an outcome
that is not positive. -/
theorem rect_dff_terminates (h : Positive inst) (h1 : inst.numberOfBinTypes = 1)
    (ho : inst.objective = .binPacking) {u : Int} (hu : u ≤ 0)
    {bins : List (List PlacedItem)} (hp : FullPacking inst bins) (hb : 1 ≤ bins.length)
    {passes depth : Nat} (hpass : bins.length < passes) (hdepth : 3 ≤ depth)
    (sort : List Int → List Nat → List Nat) :
    ∃ b, dualFeasibleFunctions (.ok u) passes depth sort inst
      = some (.ok (.binPackingBound b)) := by
  obtain ⟨d, rfl⟩ : ∃ d, depth = d + 3 := ⟨depth - 3, by omega⟩
  obtain ⟨b, hbb⟩ := binBound_ends hu h (binTypes_ne h1) hp hb hpass d
  refine ⟨b, ?_⟩
  unfold dualFeasibleFunctions
  rw [if_neg (by simp [ho]), if_neg (by omega), if_pos ho, hbb]
  rfl

/-- **C39** (Feasibility): an instance declared infeasible has no packing of all items in its
bins. -/
theorem rect_dff_infeasible_valid (h : Positive inst) (h1 : inst.numberOfBinTypes = 1)
    (ho : inst.objective = .feasibility) {undef : Except Err Int}
    (hu : ∀ v, undef = .ok v → v ≤ 0) (hbins : 1 ≤ inst.numberOfBins) {passes depth : Nat}
    {sort : List Int → List Nat → List Nat}
    (hr : dualFeasibleFunctions undef passes depth sort inst = some (.ok (.provenInfeasible true))) :
    ∀ bins, FullPacking inst bins → ¬ bins.length ≤ inst.numberOfBins := by
  intro bins hp hle
  have hn := binTypes_ne h1
  unfold dualFeasibleFunctions at hr
  rw [if_neg (by simp [ho]), if_neg (by omega), if_neg (by rw [ho]; decide), if_pos ho] at hr
  cases hbb : binBound undef passes depth inst with
  | none => rw [hbb] at hr; cases hr
  | some r =>
    rw [hbb] at hr
    cases r with
    | error e => cases hr
    | ok v =>
      have hv : decide (v > (inst.numberOfBins : Int)) = true := by
        have := Option.some.inj hr
        have := Except.ok.inj this
        exact DffOutput.provenInfeasible.inj this
      have hv := of_decide_eq_true hv
      by_cases h0 : bins.length = 0
      · have := binBound_le passes depth inst [[]] h hn (full_nil hp h0) (by simp) hu v hbb
        simp at this
        omega
      · have := binBound_le passes depth inst bins h hn hp (by omega) hu v hbb
        omega

/-- **C39** (Knapsack; requires non-negative profits, see `rect_dff_knapsack_negative_profit`):
the computation ends normally and the bound is at least the profit of every packing of a
selection of the items. -/
theorem rect_dff_knapsack_bound_valid_partial (h : Positive inst)
    (h1 : inst.numberOfBinTypes = 1) (ho : inst.objective = .knapsack)
    (hprof : ∀ i, i < inst.numberOfItemTypes → 0 ≤ (inst.itemType i).profit)
    {sort : List Int → List Nat → List Nat}
    (hsort : ∀ v, PackingSolver.Spec.IsSortOf (dantzigLt inst v) (dantzigItemTypes inst v)
      (sort v (dantzigItemTypes inst v)))
    (undef : Except Err Int) (passes depth : Nat) :
    ∃ b, dualFeasibleFunctions undef passes depth sort inst = some (.ok (.knapsackBound b)) ∧
      ∀ bins, KnapsackPacking inst bins → b.Ge (profit inst bins) := by
  obtain ⟨b, hb, hv⟩ := knapsackBound_valid h h1 hprof hsort
  refine ⟨b, ?_, hv⟩
  unfold dualFeasibleFunctions
  rw [if_neg (by simp [ho]), if_neg (by omega), if_neg (by rw [ho]; decide),
    if_neg (by rw [ho]; decide), hb]
  rfl

/-- **C40**: the search for a cut ends normally.  If it finds one, the cut holds for every set of
items that fits in the bin, its coefficients are not negative, and the given selection violates
it by exactly the reported amount, which is positive. -/
theorem rect_dff_cut_valid (h : Positive inst) {b : Nat} (hb : b < inst.numberOfBinTypes)
    {selected : List (Nat × Int)} (hsel : ∀ p ∈ selected, p.1 < inst.numberOfItemTypes) :
    ∃ cut, findMostViolatedCut inst b selected = .ok cut ∧
      (cut.found = true →
        cut.coefficients.length = inst.numberOfItemTypes ∧
        (∀ a ∈ cut.coefficients, 0 ≤ a) ∧
        (∀ items, BinPacking inst b items → WithinCopies inst items →
          (items.map fun p => cut.coefficients.getD p.itemTypeId 0).sum ≤ cut.bound) ∧
        (selected.map fun p => p.2 * cut.coefficients.getD p.1 0).sum
          = cut.bound + cut.violation ∧ 0 < cut.violation) := by
  have hpos : 0 < (inst.binType b).x ∧ 0 < (inst.binType b).y := by
    unfold Instance.binType
    rw [List.getD_eq_getElem _ _ hb]
    exact h.bins _ (List.getElem_mem _)
  obtain ⟨cut, h1, h2⟩ := findMostViolatedCut_ok h hpos hsel
  refine ⟨cut, h1, fun hf => ⟨h2.length hf, ?_, h2.valid hf, ?_, h2.positive hf⟩⟩
  · intro a ha
    obtain ⟨i, hi, rfl⟩ := List.getElem_of_mem ha
    have := h2.nonneg hf i
    rwa [List.getD_eq_getElem _ _ hi] at this
  · have := h2.violation hf
    unfold selectedSum at this
    omega

/-! ## Instances -/

/-- Five 6 × 6 items and four 3 × 4 items that may be rotated, in bins 10 × 10. -/
def rectInst (o : Objective) (copies : Nat) : Instance := {
  objective := o
  itemTypes := [
    { x := 6, y := 6, profit := 6, copies := 5, oriented := true },
    { x := 3, y := 4, profit := 3, copies := 4 }]
  binTypes := [{ x := 10, y := 10, copies := copies }]
  numberOfItems := 9
  binTypeIds := List.replicate copies 0 }

/-- A packing in five bins: the small items lie beside the large ones in the first two. -/
def rectBins : List (List PlacedItem) :=
  [[⟨0, 0, 0, false⟩, ⟨1, 6, 0, true⟩, ⟨1, 6, 3, true⟩],
   [⟨0, 0, 0, false⟩, ⟨1, 6, 0, true⟩, ⟨1, 0, 6, false⟩],
   [⟨0, 0, 0, false⟩], [⟨0, 4, 4, false⟩], [⟨0, 0, 4, false⟩]]

/-- Whether the result is the given number of bins. -/
def isBinBound (r : Option (Except Err DffOutput)) (n : Int) : Bool :=
  match r with
  | some (.ok (.binPackingBound b)) => decide (b = n)
  | _ => false

instance (W H : Int) (r : Placed) : Decidable (Inside W H r) := by unfold Inside; infer_instance
instance (r s : Placed) : Decidable (Separated r s) := by unfold Separated; infer_instance

/-- A decidable form of the conditions on a packing. -/
theorem fullPacking_of {inst : Instance} {bins : List (List PlacedItem)}
    (h : ∀ items ∈ bins, (∀ p ∈ items, p.itemTypeId < inst.numberOfItemTypes) ∧
      (∀ p ∈ items, p.rotate = true → (inst.itemType p.itemTypeId).oriented = false) ∧
      (∀ p ∈ items, Inside (inst.binType 0).x (inst.binType 0).y (occupies inst p)) ∧
      items.Pairwise fun p q => Separated (occupies inst p) (occupies inst q))
    (ha : ∀ i, i < inst.numberOfItemTypes →
      Spec.count bins.flatten i = (inst.itemType i).copies) : FullPacking inst bins :=
  ⟨fun items hi => ⟨(h items hi).1, (h items hi).2.1, (h items hi).2.2.1, (h items hi).2.2.2⟩, ha⟩

theorem rectBins_full : FullPacking (rectInst .binPacking 9) rectBins :=
  fullPacking_of (by decide +kernel) (by decide +kernel)

/-- The bound of five bins is reached. -/
example : Positive (rectInst .binPacking 9) ∧ (rectInst .binPacking 9).numberOfBinTypes = 1 ∧
    isBinBound (dualFeasibleFunctions (.ok 0) 6 3 (fun _ l => l) (rectInst .binPacking 9)) 5
      = true ∧ FullPacking (rectInst .binPacking 9) rectBins ∧ rectBins.length = 5 :=
  ⟨⟨by decide, by decide⟩, rfl, by decide +kernel, rectBins_full, rfl⟩

/-- With four bins the instance is declared infeasible. -/
example : Positive (rectInst .feasibility 4) ∧ (rectInst .feasibility 4).numberOfBins = 4 ∧
    (match dualFeasibleFunctions (.ok 0) 6 3 (fun _ l => l) (rectInst .feasibility 4) with
      | some (.ok (.provenInfeasible true)) => true
      | _ => false) = true :=
  ⟨⟨by decide, by decide⟩, rfl, by decide +kernel⟩

/-- Two 6 × 6 items do not fit in a bin: the cut says so. -/
example : (match findMostViolatedCut (rectInst .binPacking 9) 0 [(0, 2)] with
      | .ok cut => cut.found && decide (0 < cut.violation)
      | _ => false) = true := by
  decide +kernel

/-- **C39** fails: on an instance with a single item that fits in the bin, the computation runs
into the undefined conversion of 0 / 0. -/
theorem rect_dff_undefined_conversion : ∃ (inst : Instance) (bins : List (List PlacedItem)),
    Positive inst ∧ inst.numberOfBinTypes = 1 ∧ inst.objective = .binPacking ∧
    FullPacking inst bins ∧
    ∀ passes depth sort, dualFeasibleFunctions (.error .ub) passes (depth + 1) sort inst
      = some (.error .ub) := by
  refine ⟨{ objective := .binPacking
            itemTypes := [{ x := 6, y := 6, oriented := true }]
            binTypes := [{ x := 10, y := 10 }]
            binTypeIds := [0] }, [[⟨0, 0, 0, false⟩]], ⟨by decide, by decide⟩, rfl, rfl,
    fullPacking_of (by decide +kernel) (by decide +kernel), ?_⟩
  intro passes depth sort
  have e : sweepBins (.error .ub) {
      objective := .binPacking
      itemTypes := [{ x := 6, y := 6, oriented := true }]
      binTypes := [{ x := 10, y := 10 }]
      binTypeIds := [0] } = .error .ub := by decide +kernel
  unfold dualFeasibleFunctions binBound
  rw [e]
  rfl

/-- **C39** fails when there is nothing to pack: an item type with no copy that may be rotated
makes the computation report one bin, and declare infeasible an instance without bins. -/
theorem rect_dff_nothing_to_pack : ∃ (inst : Objective → Instance),
    (∀ o, Positive (inst o) ∧ (inst o).numberOfBinTypes = 1 ∧ (inst o).objective = o ∧
      FullPacking (inst o) []) ∧
    isBinBound (dualFeasibleFunctions (.ok 0) 2 3 (fun _ l => l) (inst .binPacking)) 1 = true ∧
    (inst .feasibility).numberOfBins = 0 ∧
    (match dualFeasibleFunctions (.ok 0) 2 3 (fun _ l => l) (inst .feasibility) with
      | some (.ok (.provenInfeasible true)) => true
      | _ => false) = true := by
  refine ⟨fun o => { objective := o
                     itemTypes := [{ x := 6, y := 5, copies := 0 }]
                     binTypes := [{ x := 10, y := 10, copies := 0 }]
                     binTypeIds := [] }, ?_, by decide +kernel, rfl, by decide +kernel⟩
  intro o
  refine ⟨⟨?_, ?_⟩, rfl, rfl, ⟨by simp, ?_⟩⟩
  · intro it hit
    rw [List.mem_singleton] at hit
    subst hit
    decide
  · intro b hb
    rw [List.mem_singleton] at hb
    subst hb
    decide
  · intro i hi
    have : i = 0 := by simpa [Instance.numberOfItemTypes] using hi
    subst this
    rfl

/-- Sort by decreasing ratio of profit and volume. -/
def ratioSort (inst : Instance) (v : List Int) (l : List Nat) : List Nat :=
  l.insertionSort fun i j => (inst.itemType j).profit / (v.getD j 0 : ℚ)
    ≤ (inst.itemType i).profit / (v.getD i 0 : ℚ)

theorem ratioSort_sorts (inst : Instance) (v : List Int) :
    PackingSolver.Spec.IsSortOf (dantzigLt inst v) (dantzigItemTypes inst v)
      (ratioSort inst v (dantzigItemTypes inst v)) := by
  let r : Nat → Nat → Prop := fun i j => (inst.itemType j).profit / (v.getD j 0 : ℚ)
    ≤ (inst.itemType i).profit / (v.getD i 0 : ℚ)
  have hperm : (ratioSort inst v (dantzigItemTypes inst v)).Perm (dantzigItemTypes inst v) :=
    List.perm_insertionSort r _
  refine ⟨hperm, ?_⟩
  have : Std.Total r := ⟨fun a b => le_total _ _⟩
  have : IsTrans Nat r := ⟨fun a b c h1 h2 => le_trans h2 h1⟩
  have hs : (ratioSort inst v (dantzigItemTypes inst v)).Pairwise r :=
    List.pairwise_insertionSort r _
  refine hs.imp_of_mem fun {a b} ha hb hab => ?_
  have hpos : ∀ i, i ∈ ratioSort inst v (dantzigItemTypes inst v) → (0 : ℚ) < (v.getD i 0 : ℚ) := by
    intro i hi
    have := hperm.mem_iff.mp hi
    simp only [dantzigItemTypes, List.mem_filter, Bool.and_eq_true, decide_eq_true_eq] at this
    exact_mod_cast this.2.2
  unfold dantzigLt
  simp only [gt_iff_lt, decide_eq_false_iff_not, not_lt]
  have h1 := hpos a ha
  have h2 := hpos b hb
  have hab : (inst.itemType b).profit / (v.getD b 0 : ℚ)
    ≤ (inst.itemType a).profit / (v.getD a 0 : ℚ) := hab
  rw [div_le_div_iff₀ h2 h1] at hab
  linarith

/-- The bound for one bin is 18; the first bin of the packing above has profit 12. -/
example : Positive (rectInst .knapsack 1) ∧
    (∀ i, i < 2 → 0 ≤ ((rectInst .knapsack 1).itemType i).profit) ∧
    knapsackBound (rectInst .knapsack 1) (ratioSort (rectInst .knapsack 1)) = .ok (.fin 18) ∧
    profit (rectInst .knapsack 1) (rectBins.take 1) = 12 :=
  ⟨⟨by decide, by decide⟩, by decide +kernel, by decide +kernel, by decide +kernel⟩

/-- **C39** (Knapsack) fails with a negative profit: the item is counted although it need not be
packed. -/
theorem rect_dff_knapsack_negative_profit : ∃ (inst : Instance) (bins : List (List PlacedItem))
    (b : ℚ), Positive inst ∧ inst.numberOfBinTypes = 1 ∧ inst.objective = .knapsack ∧
    KnapsackPacking inst bins ∧ knapsackBound inst (ratioSort inst) = .ok (.fin b) ∧
    b < profit inst bins := by
  refine ⟨{
    objective := .knapsack
    itemTypes := [{ x := 6, y := 6, profit := 5, oriented := true },
      { x := 2, y := 2, profit := -1 }]
    binTypes := [{ x := 10, y := 10 }]
    binTypeIds := [0] }, [[⟨0, 0, 0, false⟩]], 4, ⟨by decide, by decide⟩, rfl, rfl,
    ⟨?_, ?_, ?_, by decide⟩, by decide +kernel, by decide +kernel⟩
  · intro items hi
    rw [List.mem_singleton] at hi
    subst hi
    exact ⟨by decide +kernel, by decide +kernel, by decide +kernel, by decide +kernel⟩
  · intro items hi p hp
    rw [List.mem_singleton] at hi
    subst hi
    rw [List.mem_singleton] at hp
    subst hp
    left
    rfl
  · unfold WithinCopies
    decide +kernel

end PackingSolver.Rect
