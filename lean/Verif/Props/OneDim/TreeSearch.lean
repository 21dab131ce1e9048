import Verif.Lemmas.OneDim.Checks
import Verif.Props.OneDim.Solution

/-!
# Property theorems: nodes of the one-dimensional tree search (C28)
-/

namespace PackingSolver.OneDim

open OneDim.Spec InstanceBuilder TreeSearchLemmas Checks Scheme

variable {inst : Instance} {n : Node}

/-- Everything a node records equals what the solution object reports. -/
structure SameTotals (inst : Instance) (n : Node) (s : Solution) : Prop where
  numberOfBins : (n.numberOfBins : Int) = s.numberOfBins
  numberOfItems : n.numberOfItems = s.numberOfItems
  itemCopies : ∀ i, i < inst.numberOfItemTypes →
    n.itemNumberOfCopies.getD i 0 = s.itemCopies.getD i 0
  itemLength : n.itemLength = s.itemLength
  length : n.currentLength = s.length
  waste : n.waste = s.waste
  profit : n.profit = s.itemProfit

theorem sameTotals_of (hS : Sound inst) {p : Packing} (h : Inv inst n p) {s : Solution}
    (hr : Reachable inst s) (hp : packingOf s = p) : SameTotals inst n s := by
  obtain ⟨a1, a2, -, a4, a5, -, -, a8, -⟩ := indicators_exact hr
  have a9 := profit_exact hr hS.agg.resourceIds hS.capacities hS.consumptions
  rw [hp] at a1 a2 a4 a5 a8 a9
  refine ⟨?_, by rw [a2, h.number], fun i hi => by rw [a8 i hi, h.copies i hi],
    by rw [a4, h.itemLength], by rw [a5, h.current], ?_, by rw [a9, h.profit]⟩
  · have : Spec.numberOfBins p = p.length := by
      unfold Spec.numberOfBins
      rw [List.map_congr_left (g := fun _ => (1 : Int)) fun b hb => h.ones b hb]
      simp
    rw [a1, this, h.length]
  · unfold Solution.waste
    rw [a5, a4, h.waste, h.current, h.itemLength]

/-- **C28** (totals): for every node the search can visit, `to_solution` either returns a
solution with the same totals as the node or raises `logic_error`; it never reads out of
range. -/
theorem node_matches_solution (hS : Sound inst) (h : TreeNode inst n) :
    (∃ s, toSolution inst n = .ok s ∧ Reachable inst s ∧ SameTotals inst n s)
      ∨ toSolution inst n = .error .logicError := by
  have hi := treeNode_inv hS h
  obtain ⟨s, -, hr, hp, ht⟩ := toSolution_run hi
  rw [ht]
  split_ifs
  · exact .inl ⟨s, rfl, hr, sameTotals_of hS hi hr hp⟩
  · exact .inr rfl

/-- **C28**, when the tolerance of the search has no effect (integral data, limits below
`10^9`) and every item accepts to be alone in a bin: for every node the search can visit,
`to_solution` succeeds, the solution satisfies all the constraints of its bins and the limits
on copies, uses the bin types in order for the bin packing objective, and has the totals of the
node. -/
theorem node_to_solution_partial (hS : Sound inst) (hI : IntegralData inst)
    (hst : ∀ i, i < inst.numberOfItemTypes → 1 ≤ (inst.itemType i).maximumStackability)
    (h : TreeNode inst n) :
    ∃ s, toSolution inst n = .ok s ∧ Reachable inst s ∧ SameTotals inst n s
      ∧ (∀ b ∈ packingOf s, BinOk inst b.binTypeId b.items)
      ∧ (∀ i, i < inst.numberOfItemTypes →
          Spec.itemCopies (packingOf s) i ≤ (inst.itemType i).copies)
      ∧ (∀ t, t < inst.numberOfBinTypes →
          Spec.binCopies (packingOf s) t ≤ (inst.binType t).copies)
      ∧ (inst.objective = .binPacking → OrderOk inst (packingOf s)) := by
  have hi := treeNode_inv hS h
  have hok := (treeNode_ok hS hI hst h).1
  obtain ⟨s, hs, hr, hp, ht⟩ := toSolution_run hi
  obtain ⟨f1, f2, f3, f4, f5, f6⟩ := flags_exact hr hS.agg.resourceIds hS.capacities
  rw [hp] at f1 f2 f3 f4 f5 f6
  have hord := order_flag hS hi hs
  have hcf : s.itemCopiesFeasible = true := by
    have := hr.good.indic.itemCopiesFeasible
    rw [show binsView s.bins = packingOf s from rfl, hp] at this
    rw [this]
    intro b hb i hib
    exact hi.within i (hi.items b hb i hib)
  refine ⟨s, ?_, hr, sameTotals_of hS hi hr hp, by rw [hp]; exact hok, by rw [hp]; exact hi.within,
    fun t htn => ?_, fun ho => ?_⟩
  · rw [ht, hcf, f1.mpr fun b hb => (hok b hb).fits, f2.mpr fun b hb => (hok b hb).weight,
      f4.mpr fun b hb => (hok b hb).stack, f5.mpr fun b hb => (hok b hb).weightAfter,
      f6.mpr fun b hb => (hok b hb).resources, f3.mpr fun b hb => (hok b hb).eligible, hord]
    rfl
  · rw [hp, binCopies_count hi.ones, hi.types]
    have h1 : ((schemeBins inst).take n.numberOfBins).count t ≤ (schemeBins inst).count t :=
      (List.take_sublist _ _).count_le _
    have h2 : (schemeBins inst).count t = (inst.binType t).copies.toNat := by
      rw [(schemeBins_perm hS.agg.binTypeIds).count_eq, hS.agg.binTypeIds, binPositions_eq,
        flatMap_count (fun t => (inst.binTypes.getD t default).copies.toNat)]
      exact if_pos htn
    have := hS.binCopies _ (binType_mem inst htn)
    omega
  · have := order_flag_sound_partial hr ho hord
    exact this

/-- Calls building an instance with weights, nesting, weight limits after an item, a hard and a
penalized resource and two bin types of which the first is too short for the second item. -/
def treeCalls : List Op :=
  [.addBinType 5, .addBinType 12, .setBinTypeCopies 1 2, .setBinTypeMaximumWeight 1 (.fin 7),
   .addBinTypeResource 1 3 false 0, .addBinTypeResource 1 1 true 4,
   .addItemType 4, .setItemTypeCopies 0 2, .setItemTypeWeight 0 2, .setItemTypeNestingLength 0 1,
   .setItemTypeMaximumWeightAfter 0 (.fin 4), .addResourceConsumption 1 0 0 0 1,
   .addResourceConsumption 1 0 0 1 2, .addItemType 7, .setItemTypeWeight 1 3,
   .addResourceConsumption 1 1 1 0 2]

/-- A path of the search: both bins are opened, the second holds two items and pays a penalty. -/
example : ∃ inst n s, runOps .binPacking treeCalls = .ok inst ∧ Sound inst ∧ IntegralData inst
    ∧ (∀ i, i < inst.numberOfItemTypes → 1 ≤ (inst.itemType i).maximumStackability)
    ∧ TreeNode inst n ∧ n.numberOfBins = 2 ∧ n.numberOfItems = 3
    ∧ toSolution inst n = .ok s ∧ s.numberOfItems = 3 ∧ s.itemProfit = 11 := by
  obtain ⟨inst, hr, hc⟩ := okAnd_ok (r := runOps .binPacking treeCalls)
    (f := fun inst => soundB inst && integralB inst
      && decide (∀ i, i < inst.numberOfItemTypes → 1 ≤ (inst.itemType i).maximumStackability)
      && walkAnd inst (Node.root inst) [⟨0, some 0⟩, ⟨1, some 1⟩, ⟨0, none⟩] fun n =>
        decide (n.numberOfBins = 2) && decide (n.numberOfItems = 3)
        && okAnd (toSolution inst n) fun s =>
          decide (s.numberOfItems = 3) && decide (s.itemProfit = 11))
    (by decide +kernel)
  simp only [Bool.and_eq_true, decide_eq_true_eq] at hc
  obtain ⟨⟨⟨h1, h2⟩, h3⟩, h4⟩ := hc
  obtain ⟨m, hm, hc⟩ := walkAnd_ok h4
  simp only [Bool.and_eq_true, decide_eq_true_eq] at hc
  obtain ⟨⟨h5, h6⟩, h7⟩ := hc
  obtain ⟨s, hs, h8⟩ := okAnd_ok h7
  simp only [Bool.and_eq_true, decide_eq_true_eq] at h8
  exact ⟨inst, m, s, hr, sound_of hr h1, integral_of h2, h3, hm, h5, h6, hs, h8.1, h8.2⟩

/-- Calls of an instance whose only item exceeds the weight limit of the bin by less than the
tolerance. -/
def toleranceCalls : List Op :=
  [.addBinType 5, .setBinTypeMaximumWeight 0 (.fin 1000000000),
   .addItemType 4, .setItemTypeWeight 0 (1000000000 + 1 / 2)]

/-- **C28** fails without the assumption on tolerances: the search offers an insertion that
exceeds a weight limit by less than the relative tolerance `1e-9`, and `to_solution`, which
checks without tolerance, raises `logic_error` on the node. -/
theorem tolerance_logic_error : ∃ inst n, runOps .binPacking toleranceCalls = .ok inst
    ∧ Sound inst
    ∧ (∀ i, i < inst.numberOfItemTypes → 1 ≤ (inst.itemType i).maximumStackability)
    ∧ TreeNode inst n ∧ toSolution inst n = .error .logicError := by
  obtain ⟨inst, hr, hc⟩ := okAnd_ok (r := runOps .binPacking toleranceCalls)
    (f := fun inst => soundB inst
      && decide (∀ i, i < inst.numberOfItemTypes → 1 ≤ (inst.itemType i).maximumStackability)
      && walkAnd inst (Node.root inst) [⟨0, some 0⟩] fun n =>
        decide (toSolution inst n = .error .logicError))
    (by decide +kernel)
  simp only [Bool.and_eq_true, decide_eq_true_eq] at hc
  obtain ⟨⟨h1, h3⟩, h4⟩ := hc
  obtain ⟨m, hm, hc⟩ := walkAnd_ok h4
  exact ⟨inst, m, hr, sound_of hr h1, h3, hm, of_decide_eq_true hc⟩

/-- Calls of an instance with an item type of maximum stackability 0. -/
def stackCalls : List Op :=
  [.addBinType 5, .addItemType 4, .setItemTypeMaximumStackability 0 0]

/-- **C28** fails for an item type of maximum stackability 0, which the builder accepts: a new
bin is opened for it without checking the stackability. -/
theorem stackability_logic_error : ∃ inst n, runOps .binPacking stackCalls = .ok inst
    ∧ Sound inst ∧ IntegralData inst ∧ TreeNode inst n
    ∧ toSolution inst n = .error .logicError := by
  obtain ⟨inst, hr, hc⟩ := okAnd_ok (r := runOps .binPacking stackCalls)
    (f := fun inst => soundB inst && integralB inst
      && walkAnd inst (Node.root inst) [⟨0, some 0⟩] fun n =>
        decide (toSolution inst n = .error .logicError))
    (by decide +kernel)
  simp only [Bool.and_eq_true] at hc
  obtain ⟨⟨h1, h3⟩, h4⟩ := hc
  obtain ⟨m, hm, hc⟩ := walkAnd_ok h4
  exact ⟨inst, m, hr, sound_of hr h1, integral_of h3, hm, of_decide_eq_true hc⟩

end PackingSolver.OneDim
