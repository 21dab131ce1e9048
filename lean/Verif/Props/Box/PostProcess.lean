import Verif.Lemmas.Box.PostProcess
import Verif.Props.Box.Solution
import Mathlib.Tactic.Ring

/-!
# C120: grouping the identical bins of box solutions
-/

namespace PackingSolver.Box

open Spec Grouping.Spec
open OneDim.Examples (okD)

variable {inst : Instance} {s : Solution}

/-- What makes two listed bins identical: the bin type and the items at their places. -/
def identity (b : PackedBin) : Nat × List PlacedItem := (b.binTypeId, b.items)

/-- **C120**: `group_identical_bins` returns a solution that lists every bin of the given one once,
in the order in which they first occur, each with the copies it has altogether. -/
theorem group_contents (h : Reachable inst s) :
    ∃ s', groupIdenticalBins inst s = .ok s' ∧ Reachable inst s'
      ∧ Grouped identity (·.copies) (packingOf s) (packingOf s') := by
  obtain ⟨s', h1, hr, hv⟩ := GroupLemmas.grouped h
  exact ⟨s', h1, hr, (Grouping.grouped_of_insAll identity (·.copies) _ _ hv).1⟩

/-- **C120**, the part of the indicators that holds: grouping keeps the number of bins and of items,
the copies of each item and bin type, the cost, the areas, the volumes and the weight; it keeps the feasibility
for a callback giving the same answer on both lists, and the profit when no resource is penalized.
Missing: the extents, see `group_changes_extent`, and the profit with penalized resources, see
`group_changes_profit`. -/
theorem group_indicators_partial (h : Reachable inst s) {s' : Solution}
    (hrun : groupIdenticalBins inst s = .ok s') :
    s'.numberOfBins = s.numberOfBins ∧ s'.numberOfItems = s.numberOfItems
      ∧ s'.binArea = s.binArea ∧ s'.binVolume = s.binVolume ∧ s'.itemVolume = s.itemVolume
      ∧ s'.itemWeight = s.itemWeight
      ∧ s'.binCost = s.binCost
      ∧ (∀ t, t < inst.numberOfBinTypes → s'.binCopies.getD t 0 = s.binCopies.getD t 0)
      ∧ (∀ i, i < inst.numberOfItemTypes → s'.itemCopies.getD i 0 = s.itemCopies.getD i 0)
      ∧ (ResourceIdsOk inst → CapacitiesNonneg inst →
          inst.callback (packingOf s') = inst.callback (packingOf s) → s'.feasible = s.feasible)
      ∧ (ResourceIdsOk inst → CapacitiesNonneg inst → ConsumptionsNonneg inst →
          (∀ b ∈ inst.binTypes, ∀ r ∈ b.resources, r.penalize = false) →
          s'.itemProfit = s.itemProfit) := by
  obtain ⟨s2, h1, hr, hv⟩ := GroupLemmas.grouped h
  cases Except.ok.inj (h1.symm.trans hrun)
  obtain ⟨hgr, hsum⟩ := Grouping.grouped_of_insAll identity (·.copies) _ _ hv
  have hg := h.good
  have hg' := hr.good
  have hi := hg.indic
  have hi' := hg'.indic
  have hic : ∀ i, Spec.itemCopies (binsView s'.bins) i = Spec.itemCopies (binsView s.bins) i :=
    fun i => hsum (fun k c => k * count c.2 i) (by intros; ring)
  refine ⟨?_, ?_, ?_, ?_, ?_, ?_, ?_, ?_, ?_, ?_, ?_⟩
  · rw [hi.numberOfBins, hi'.numberOfBins]
    exact hsum (fun k _ => k) (by intros; rfl)
  · rw [hi.numberOfItems, hi'.numberOfItems]
    exact hsum (fun k c => k * (c.2.length : Int)) (by intros; ring)
  · rw [hi.binArea, hi'.binArea]
    exact hsum (fun k c => k * ((inst.binType c.1).box.x * (inst.binType c.1).box.y))
      (by intros; ring)
  · rw [hi.binVolume, hi'.binVolume]
    exact hsum (fun k c => k * volumeOf (inst.binType c.1).box) (by intros; ring)
  · rw [hi.itemVolume, hi'.itemVolume]
    exact hsum (fun k c => k * (c.2.map fun i => volumeOf (inst.itemType i.itemTypeId).box).sum)
      (by intros; ring)
  · rw [hi.itemWeight, hi'.itemWeight]
    exact hsum (fun k c => (k : ℚ) * binWeight inst c.2) (by intros; push_cast; ring)
  · rw [hi.cost, hi'.cost]
    exact hsum (fun k c => (k : ℚ) * (inst.binType c.1).cost) (by intros; push_cast; ring)
  · intro t ht
    rw [hi.binCopies t ht, hi'.binCopies t ht]
    exact hsum (fun k c => if c.1 = t then k else 0) (by intro a b c; split_ifs <;> simp)
  · intro i hlt; rw [hi.itemCopies i hlt, hi'.itemCopies i hlt, hic]
  · intro hR hcap hcb
    have hnil : binsView s'.bins = [] ↔ binsView s.bins = [] := hgr.nil_iff
    have hnil' : s'.bins = [] ↔ s.bins = [] := by simpa [binsView] using hnil
    have hcall : s'.callbackFeasible = s.callbackFeasible := by
      by_cases he : s.bins = []
      · rw [hg.callback_nil he, hg'.callback_nil (hnil'.mpr he)]
      · rw [hg.callback he, hg'.callback (fun e => he (hnil'.mp e))]
        exact hcb
    have hmiss : Spec.missing inst (binsView s'.bins) = Spec.missing inst (binsView s.bins) := by
      unfold Spec.missing
      simp only [hic]
    have hres : s'.resourceFeasible = s.resourceFeasible := by
      rw [Bool.eq_iff_iff, hi.resources hR hcap, hi'.resources hR hcap]
      exact hgr.forall_iff (fun c => ResourcesOk inst c.1 c.2)
    have hcop : s'.itemCopiesFeasible = s.itemCopiesFeasible := by
      by_cases he : binsView s.bins = []
      · rw [hi.itemCopiesNil he, hi'.itemCopiesNil (hnil.mpr he)]
      · rw [Bool.eq_iff_iff, hi.itemCopiesFeasible he,
          hi'.itemCopiesFeasible (fun e => he (hnil.mp e))]
        simp only [hic]
    rw [hi.feasible, hi'.feasible, hi.missing, hi'.missing, hmiss, hcall, hres, hcop]
  · intro hR hcap hnn hpen
    rw [hi.profit hR hcap hnn, hi'.profit hR hcap hnn, GroupLemmas.penalties_zero hg.typed hpen,
      GroupLemmas.penalties_zero hg'.typed hpen]
    exact hsum (fun k c => (k : ℚ) * itemsProfit inst c.2) (by intros; push_cast; ring)

/-- A bin with two items, two copies of a bin with one, and the first bin again. -/
def groupOps : List BuilderOp :=
  [.addBin 0 1, .addItem 0 0 0 0 0 .xyz, .addItem 0 1 4 0 0 .xyz,
   .addBin 1 2, .addItem 1 0 1 0 0 .yzx,
   .addBin 0 1, .addItem 2 0 0 0 0 .xyz, .addItem 2 1 4 0 0 .xyz]

def groupSol : Solution := okD {} (SolutionBuilder.runOps SolEx.inst groupOps)

theorem groupSol_reachable : Reachable SolEx.inst groupSol :=
  .built groupOps groupSol (by decide +kernel)

example : Reachable SolEx.inst groupSol ∧ groupSol.feasible = true ∧ groupSol.bins.length = 3
    ∧ ResourceIdsOk SolEx.inst ∧ CapacitiesNonneg SolEx.inst
    ∧ (packingOf (okD {} (groupIdenticalBins SolEx.inst groupSol))).map
        (fun b => (b.binTypeId, b.copies, b.items.length)) = [(0, 2, 2), (1, 2, 1)] :=
  ⟨groupSol_reachable, by decide +kernel, by decide +kernel, SolEx.resourceIdsOk,
    SolEx.capacitiesNonneg, by decide +kernel⟩

/-- **C120** fails for the extents, and so for the reported waste: grouping moves another bin to the
last place. -/
theorem group_changes_extent : ∃ (inst : Instance) (s s' : Solution), Reachable inst s
    ∧ s.feasible = true ∧ groupIdenticalBins inst s = .ok s' ∧ s'.xMax ≠ s.xMax
    ∧ s'.waste ≠ s.waste :=
  ⟨SolEx.inst, groupSol, okD {} (groupIdenticalBins SolEx.inst groupSol), groupSol_reachable,
    by decide +kernel, by decide +kernel, by decide +kernel, by decide +kernel⟩

/-- An item that exceeds a penalized resource. -/
def penalizedInst : Instance := {
  objective := .knapsack
  itemTypes := [
    { box := ⟨1, 1, 1⟩, rotations := [.xyz], profit := 3, copies := 2, copiesMin := 0, resourceIds := [[0]] }]
  binTypes := [
    { box := ⟨5, 5, 5⟩, cost := 1, copies := 2, resources := [
      { capacity := 0, penalize := true, penalty := 1, itemConsumptions := [[1]] }] }] }

/-- **C120** fails for the profit when a resource is penalized: the penalty of a group is counted
once. -/
theorem group_changes_profit : ∃ (inst : Instance) (s s' : Solution), Reachable inst s
    ∧ s.feasible = true ∧ groupIdenticalBins inst s = .ok s' ∧ s'.itemProfit ≠ s.itemProfit := by
  let ops : List BuilderOp :=
    [.addBin 0 1, .addItem 0 0 0 0 0 .xyz, .addBin 0 1, .addItem 1 0 0 0 0 .xyz]
  let s := okD {} (SolutionBuilder.runOps penalizedInst ops)
  let s' := okD {} (groupIdenticalBins penalizedInst s)
  have hrun : SolutionBuilder.runOps penalizedInst ops = .ok s := by decide +kernel
  exact ⟨penalizedInst, s, s', .built ops s hrun, by decide +kernel, by decide +kernel,
    by decide +kernel⟩

end PackingSolver.Box
