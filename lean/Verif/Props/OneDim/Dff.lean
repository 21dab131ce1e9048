import Verif.Lemmas.OneDim.Dff
import Verif.Lemmas.OneDim.Plain

/-!
# C24, C25, C26: dual feasible functions of the one-dimensional solver
-/

namespace PackingSolver.Dff

open PackingSolver.Spec

/-- **C25**: `greedy_maximum_cardinality` returns the largest number of pieces that fit in the
capacity. -/
theorem greedy_maximum_cardinality_optimal {capacity : Int} {pool : List (Int × Int)}
    (hpos : ∀ p ∈ pool, 0 < p.1 ∧ 0 ≤ p.2) (hs : pool.Pairwise fun a b => a.1 ≤ b.1)
    (hc : 0 ≤ capacity) :
    ∃ v, greedyMaximumCardinality capacity pool = .ok v
      ∧ (∀ s, Selection pool capacity s → (s.length : Int) ≤ v)
      ∧ ∃ s, Selection pool capacity s ∧ (s.length : Int) = v := by
  obtain ⟨v, h1, h2⟩ := greedy_spec (capacity := capacity) hpos hs
  exact ⟨v, h1, h2.upper, h2.attained hc⟩

/-- Pieces 2, 2, 3, 3, 3 in a capacity of 11: four of them fit. -/
example : (∀ p ∈ [((2 : Int), (2 : Int)), (3, 3)], 0 < p.1 ∧ 0 ≤ p.2)
    ∧ ([((2 : Int), (2 : Int)), (3, 3)]).Pairwise (fun a b => a.1 ≤ b.1)
    ∧ greedyMaximumCardinality 11 [(2, 2), (3, 3)] = .ok 4 := by decide

/-- The sort is needed: on an unsorted pool the result is not the maximum. -/
theorem greedy_maximum_cardinality_unsorted :
    ∃ (pool : List (Int × Int)) (s : List Int), (∀ p ∈ pool, 0 < p.1 ∧ 0 ≤ p.2)
      ∧ greedyMaximumCardinality 3 pool = .ok 2 ∧ Selection pool 3 s ∧ s.length = 3 :=
  ⟨[(2, 1), (1, 3)], [1, 1, 1], by decide, by decide,
    ⟨List.Sublist.subperm (by decide), by decide⟩, rfl⟩

end PackingSolver.Dff

namespace PackingSolver.OneDim

open OneDim.Spec PackingSolver.Spec PackingLemmas BoundLemmas Dff DffLemmas

variable {inst : Instance}

/-- The computed number of bins is at most the number of bins of every admissible packing. -/
theorem dffBinBound_valid (h : Positive inst) (h1 : inst.numberOfBinTypes = 1)
    (ho : inst.objective ≠ .knapsack) :
    ∃ b, dffBinBound inst = .ok b ∧ ∀ p, Admissible inst p → b ≤ numberOfBins p := by
  obtain ⟨ts, hts, hgood⟩ := dffTables_ok h
  obtain ⟨b, hb, hv⟩ := foldlM_ok_inv
    (f := fun bound t => [0, 1, 2].foldlM (dffBoundStep inst t) bound) (l := ts)
    (P := fun b => ∀ p, Admissible inst p → b ≤ numberOfBins p) (s := 0)
    (fun p hp => numberOfBins_nonneg hp.typed) (by
      intro t ht a ha
      obtain ⟨g1, g2, g3⟩ := hgood t ht
      have hg : GoodTables inst t := ⟨g1, g2, g3⟩
      apply foldlM_ok_inv (P := fun b => ∀ p, Admissible inst p → b ≤ numberOfBins p) ha
      intro family _ c hc
      have hval : dffBoundStep inst t c family = .ok (if bcoef inst t family ≤ 0 then c
          else max c ⌈((dffSum inst ((List.range inst.numberOfItemTypes).map
            (icoef inst t family)) : Int) : ℚ) / ((bcoef inst t family : Int) : ℚ)⌉) := by
        unfold dffBoundStep
        rw [bcoef_eq h hg, dffVolumes_eq h hg]
        simp only [bind, Except.bind, pure, Except.pure]
        split_ifs <;> rfl
      refine ⟨_, hval, fun p hp => ?_⟩
      split_ifs with h0
      · exact hc p hp
      · refine max_le (hc p hp) ?_
        rw [Int.ceil_le, div_le_iff₀ (by exact_mod_cast (not_le.mp h0))]
        have hall := hp.complete ho
        have hpv := packing_valid h hg family hp h1
        have hsum : dffSum inst ((List.range inst.numberOfItemTypes).map (icoef inst t family))
            = ∑ i ∈ Finset.range inst.numberOfItemTypes, itemCopies p i * icoef inst t family i := by
          rw [dffSum_eq]
          exact Finset.sum_congr rfl fun i hi => by rw [hall i (Finset.mem_range.mp hi)]
        rw [hsum]
        exact_mod_cast hpv)
  exact ⟨b, by unfold dffBinBound; rw [hts]; exact hb, hv⟩

/-- **C24** (BinPacking; `_partial`: requires that no item can be entirely covered by nesting,
see `dff_zero_length_undefined`): `dual_feasible_functions` terminates normally and the
number of bins it reports is at most that of every admissible packing. -/
theorem dff_bin_packing_bound_valid_partial (h : Positive inst) (h1 : inst.numberOfBinTypes = 1)
    (ho : inst.objective = .binPacking) (sort : List Int → List Nat → List Nat) :
    ∃ b, dualFeasibleFunctions inst sort = .ok (.binPackingBound b)
      ∧ ∀ p, Admissible inst p → b ≤ numberOfBins p := by
  obtain ⟨b, hb, hv⟩ := dffBinBound_valid h h1 (by rw [ho]; decide)
  refine ⟨b, ?_, hv⟩
  unfold dualFeasibleFunctions
  rw [if_neg (by simp [ho]), if_neg (by omega), if_pos ho, hb]
  rfl

/-- **C24** (Feasibility; `_partial` as above): an instance declared infeasible has no
admissible packing. -/
theorem dff_infeasible_valid_partial (h : Positive inst) (h1 : inst.numberOfBinTypes = 1)
    (ho : inst.objective = .feasibility) (hids : inst.binTypeIds = binPositions inst.binTypes)
    (hc : ∀ b ∈ inst.binTypes, 0 ≤ b.copies) (sort : List Int → List Nat → List Nat) :
    ∃ b, dualFeasibleFunctions inst sort = .ok (.provenInfeasible b)
      ∧ (b = true → ∀ p, ¬ Admissible inst p) := by
  obtain ⟨b, hb, hv⟩ := dffBinBound_valid h h1 (by rw [ho]; decide)
  refine ⟨decide (b > inst.numberOfBins), ?_, fun ht p hp => ?_⟩
  · unfold dualFeasibleFunctions
    rw [if_neg (by simp [ho]), if_neg (by omega), if_neg (by rw [ho]; decide), if_pos ho, hb]
    rfl
  · have h2 := hv p hp
    have h3 := numberOfBins_le hids hc hp.typed hp.limits
    have h4 := of_decide_eq_true ht
    omega

/-- Five items of length 6, one of length 5 and three of length 3 in bins of length 10: with
the functions at least 6 bins are needed (the total length only requires 5). -/
def dfInst (o : Objective) (copies : Nat) (nesting : Int) : Instance := {
  objective := o
  itemTypes := [
    { length := 6, profit := 6, copies := 5, copiesMin := 5, nestingLength := nesting,
      resourceIds := [[]] },
    { length := 5, profit := 5, copies := 1, copiesMin := 1, resourceIds := [[]] },
    { length := 3, profit := 3, copies := 3, copiesMin := 3, resourceIds := [[]] }]
  binTypes := [{ length := 10, cost := 10, copies := copies, copiesMin := 0 }]
  binTypeIds := List.replicate copies 0 }

def dfPacking : Packing := [⟨0, 3, [0, 2]⟩, ⟨0, 2, [0]⟩, ⟨0, 1, [1]⟩]

/-- The result is the expected one. -/
def isBins (r : Except Err DffOutput) (n : Int) : Bool :=
  match r with
  | .ok (.binPackingBound b) => decide (b = n)
  | _ => false

example : Positive (dfInst .binPacking 6 0) ∧ (dfInst .binPacking 6 0).numberOfBinTypes = 1
    ∧ Admissible (dfInst .binPacking 6 0) dfPacking
    ∧ isBins (dualFeasibleFunctions (dfInst .binPacking 6 0) fun _ l => l) 6 = true
    ∧ trivialBinPackingBound (dfInst .binPacking 6 0) = 5 ∧ numberOfBins dfPacking = 6 :=
  ⟨⟨by decide, by decide, by decide⟩, rfl,
    plain_admissible (by decide +kernel) (by decide +kernel) rfl,
    by decide +kernel, by decide +kernel, by decide⟩

/-- With five bins the instance is declared infeasible. -/
example : Positive (dfInst .feasibility 5 0) ∧ (dfInst .feasibility 5 0).numberOfBinTypes = 1
    ∧ (dfInst .feasibility 5 0).binTypeIds = binPositions (dfInst .feasibility 5 0).binTypes
    ∧ (match dualFeasibleFunctions (dfInst .feasibility 5 0) fun _ l => l with
      | .ok (.provenInfeasible true) => true
      | _ => false) = true :=
  ⟨⟨by decide, by decide, by decide⟩, rfl, by decide, by decide +kernel⟩

/-- **C24** fails with an item entirely covered by nesting: the breakpoint 0 makes the code
divide by zero. -/
theorem dff_zero_length_undefined : ∃ (inst : Instance) (p : Packing),
    inst.objective = .binPacking ∧ inst.numberOfBinTypes = 1 ∧ Admissible inst p
    ∧ ∀ sort, (match dualFeasibleFunctions inst sort with
      | .error .ub => true
      | _ => false) = true := by
  refine ⟨dfInst .binPacking 6 6, dfPacking, rfl, rfl,
    plain_admissible (by decide +kernel) (by decide +kernel) rfl, fun sort => ?_⟩
  have : dffBinBound (dfInst .binPacking 6 6) = .error .ub := by decide +kernel
  unfold dualFeasibleFunctions
  rw [if_neg (by simp [dfInst]), if_neg (by decide),
    if_pos (show (dfInst .binPacking 6 6).objective = .binPacking from rfl), this]
  rfl

/-- **C26** (`_partial`: requires non-negative profits, items not entirely covered by nesting
and no item nesting by more than the length of another one): the knapsack bound is at least
the profit of every admissible packing. -/
theorem dff_knapsack_bound_valid_partial (h : Positive inst) (h1 : inst.numberOfBinTypes = 1)
    (ho : inst.objective = .knapsack)
    (hprof : ∀ i, i < inst.numberOfItemTypes → 0 ≤ (inst.itemType i).profit)
    (hnest : ∀ i, i < inst.numberOfItemTypes → ∀ j, j < inst.numberOfItemTypes →
      (inst.itemType i).nestingLength ≤ (inst.itemType j).length)
    {sort : List Int → List Nat → List Nat}
    (hsort : ∀ v, IsSortOf (dantzigLt inst v) (dantzigItemTypes inst v)
      (sort v (dantzigItemTypes inst v))) :
    ∃ b, dualFeasibleFunctions inst sort = .ok (.knapsackBound b)
      ∧ ∀ p, Admissible inst p → (∀ x ∈ p, 0 < x.copies) → b.Ge (profit inst p) := by
  have key : ∃ b, dffKnapsackBound inst sort = .ok b
      ∧ ∀ p, Admissible inst p → (∀ x ∈ p, 0 < x.copies) → b.Ge (profit inst p) := by
    obtain ⟨ts, hts, hgood⟩ := dffTables_ok h
    let P : ExtQ → Prop := fun b => ∀ p, Admissible inst p → b.Ge
      (∑ i ∈ Finset.range inst.numberOfItemTypes, (itemCopies p i : ℚ) * (inst.itemType i).profit)
    obtain ⟨b, hb, hv⟩ := foldlM_ok_inv
      (f := fun bound t => [0, 1, 2].foldlM (dffKnapsackStep inst sort t) bound) (l := ts)
      (P := P) (s := .inf) (fun p hp => trivial) (by
        intro t ht a ha
        obtain ⟨g1, g2, g3⟩ := hgood t ht
        have hg : GoodTables inst t := ⟨g1, g2, g3⟩
        apply foldlM_ok_inv (P := P) ha
        intro family _ c hc
        have hval : dffKnapsackStep inst sort t c family = .ok (if bcoef inst t family ≤ 0 then c
            else c.min (.fin (dantzigProfitBound inst sort
              ((List.range inst.numberOfItemTypes).map (icoef inst t family))
              (((bcoef inst t family : Int) : ℚ) * ((inst.binType 0).copies : ℚ))))) := by
          unfold dffKnapsackStep
          rw [bcoef_eq h hg, dffVolumes_eq h hg]
          simp only [bind, Except.bind, pure, Except.pure]
          split_ifs <;> rfl
        refine ⟨_, hval, fun p hp => ?_⟩
        have hc := hc p hp
        split_ifs with h0
        · exact hc
        have hvol : ∀ i, i < inst.numberOfItemTypes →
            ((List.range inst.numberOfItemTypes).map (icoef inst t family)).getD i 0
              = icoef inst t family i := by
          intro i hi
          rw [List.getD_eq_getElem _ _ (by simpa using hi)]
          simp
        have hd := dantzig_valid hp hnest hprof (hsort
          ((List.range inst.numberOfItemTypes).map (icoef inst t family)))
          (fun i hi => by rw [hvol i hi]; exact icoef_nonneg h hg family hi)
          (capacity := ((bcoef inst t family : Int) : ℚ) * ((inst.binType 0).copies : ℚ)) (by
            have hpv := packing_valid h hg family hp h1
            have hnb := numberOfBins_le_copies hp h1
            have hle : ∑ i ∈ Finset.range inst.numberOfItemTypes,
                itemCopies p i * icoef inst t family i
                ≤ bcoef inst t family * (inst.binType 0).copies := by
              have : 0 < bcoef inst t family := not_le.mp h0
              nlinarith
            have hcast : ∑ i ∈ Finset.range inst.numberOfItemTypes, (itemCopies p i : ℚ)
                * ((((List.range inst.numberOfItemTypes).map (icoef inst t family)).getD i 0 : Int) : ℚ)
                = ((∑ i ∈ Finset.range inst.numberOfItemTypes,
                  itemCopies p i * icoef inst t family i : Int) : ℚ) := by
              push_cast
              exact Finset.sum_congr rfl fun i hi => by rw [hvol i (Finset.mem_range.mp hi)]
            rw [hcast]
            exact_mod_cast hle)
        cases c with
        | inf => exact hd
        | fin q => exact le_min hc hd)
    refine ⟨b.subQ (- instNegativePenaltySum inst), ?_, fun p hp hpos => ?_⟩
    · unfold dffKnapsackBound
      rw [hts]
      show (_ >>= _) = _
      have hb' : List.foldlM (fun bound t => List.foldlM (dffKnapsackStep inst sort t) bound
          [0, 1, 2]) .inf ts = .ok b := hb
      simp only [bind, Except.bind] at hb' ⊢
      rw [hb']
      rfl
    · have h2 := profit_le hp.typed hp.limits hpos
      have h3 := hv p hp
      cases b with
      | inf => trivial
      | fin q =>
        show profit inst p ≤ q - - instNegativePenaltySum inst
        have h3 : _ ≤ q := h3
        linarith
  obtain ⟨b, hb, hv⟩ := key
  refine ⟨b, ?_, hv⟩
  unfold dualFeasibleFunctions
  rw [if_neg (by simp [ho]), if_neg (by omega), if_neg (by rw [ho]; decide),
    if_neg (by rw [ho]; decide), hb]
  rfl

/-- A sort that the theorem applies to: by decreasing profit / volume ratio. -/
def ratioSort (inst : Instance) (v : List Int) (l : List Nat) : List Nat :=
  l.insertionSort fun i j => (inst.itemType j).profit / (v.getD j 0 : ℚ)
    ≤ (inst.itemType i).profit / (v.getD i 0 : ℚ)

theorem ratioSort_sorts (inst : Instance) (v : List Int) :
    IsSortOf (dantzigLt inst v) (dantzigItemTypes inst v)
      (ratioSort inst v (dantzigItemTypes inst v)) := by
  let r : Nat → Nat → Prop := fun i j => (inst.itemType j).profit / (v.getD j 0 : ℚ)
    ≤ (inst.itemType i).profit / (v.getD i 0 : ℚ)
  have hperm : (ratioSort inst v (dantzigItemTypes inst v)).Perm (dantzigItemTypes inst v) :=
    List.perm_insertionSort r _
  refine ⟨hperm, ?_⟩
  have : Std.Total r := ⟨fun a b => le_total _ _⟩
  have : IsTrans Nat r := ⟨fun a b c h1 h2 => le_trans h2 h1⟩
  have hs : (ratioSort inst v (dantzigItemTypes inst v)).Pairwise r :=
    List.pairwise_insertionSort r _
  refine hs.imp_of_mem fun {a b} ha hb hab => ?_
  have hpos : ∀ i, i ∈ ratioSort inst v (dantzigItemTypes inst v) → (0 : ℚ) < (v.getD i 0 : ℚ) := by
    intro i hi
    have := hperm.mem_iff.mp hi
    simp only [dantzigItemTypes, List.mem_filter, Bool.and_eq_true, decide_eq_true_eq] at this
    exact_mod_cast this.2.2
  unfold dantzigLt
  simp only [gt_iff_lt, decide_eq_false_iff_not, not_lt]
  have h1 := hpos a ha
  have h2 := hpos b hb
  have hab : (inst.itemType b).profit / (v.getD b 0 : ℚ)
    ≤ (inst.itemType a).profit / (v.getD a 0 : ℚ) := hab
  rw [div_le_div_iff₀ h2 h1] at hab
  linarith

/-- The bound for one bin is 19/2; an item of length 6 and one of length 3 have profit 9. -/
example : Positive (dfInst .knapsack 1 0) ∧ (dfInst .knapsack 1 0).numberOfBinTypes = 1
    ∧ (∀ i, i < 3 → 0 ≤ ((dfInst .knapsack 1 0).itemType i).profit)
    ∧ (∀ i, i < 3 → ∀ j, j < 3 → ((dfInst .knapsack 1 0).itemType i).nestingLength
      ≤ ((dfInst .knapsack 1 0).itemType j).length)
    ∧ dffKnapsackBound (dfInst .knapsack 1 0) (ratioSort (dfInst .knapsack 1 0))
      = .ok (.fin (19 / 2)) := by
  refine ⟨⟨by decide, by decide, by decide⟩, rfl, by decide +kernel, by decide +kernel, by decide +kernel⟩

/-- **C26** fails with a negative profit: the item is included in the bound when its volume is
zero, although it need not be packed. -/
theorem dff_knapsack_bound_negative_profit : ∃ (inst : Instance) (p : Packing),
    inst.objective = .knapsack ∧ inst.numberOfBinTypes = 1 ∧ Positive inst ∧ Admissible inst p
    ∧ ∃ b, b < profit inst p
      ∧ dffKnapsackBound inst (ratioSort inst) = .ok (.fin b) := by
  refine ⟨{
    objective := .knapsack
    itemTypes := [
      { length := 6, profit := 5, copies := 1, copiesMin := 0, resourceIds := [[]] },
      { length := 2, profit := -1, copies := 1, copiesMin := 0, resourceIds := [[]] }]
    binTypes := [{ length := 10, cost := 10, copies := 1, copiesMin := 0 }]
    binTypeIds := [0] }, [⟨0, 1, [0]⟩], rfl, rfl, ⟨by decide, by decide, by decide⟩,
    plain_admissible (by decide +kernel) (by decide +kernel) rfl, 4, by decide +kernel,
    by decide +kernel⟩

end PackingSolver.OneDim
