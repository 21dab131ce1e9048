import Verif.Props.Guil.Pattern
import Verif.Lemmas.Guil.Stages

/-!
# Properties of guillotine solutions: totals (C69), feasibility (C70) and stages (C71)
-/

namespace PackingSolver.Guil

open Spec

/-! ## An example -/

namespace TotalsEx

/-- First in the stack. -/
def small : ItemType where
  w := 30
  h := 20
  profit := 600
  copies := 5
  copiesMin := 0
  stackId := 0
  stackPos := 0
  resourceIds := [[0]]

/-- Second in the stack. -/
def large : ItemType where
  w := 40
  h := 35
  profit := 1400
  copies := 2
  copiesMin := 1
  stackId := 0
  stackPos := 1
  resourceIds := [[0]]

/-- The plate. -/
def plate : BinType where
  w := 100
  h := 60
  cost := 7
  copies := 4
  leftTrim := 10
  defects := [⟨85, 50, 2, 2⟩]
  resources := [{ capacity := 5, itemConsumptions := [[1, 1, 1, 1, 1], [2, 2]] }]

/-- Plates of 100 × 60 with a hard left trim, with a resource and a defect; a stack of two item
types; cutting costs. -/
def inst : Instance := {
  objective := .binPackingCuttingCost
  parameters := {
    numberOfStages := 2
    cuttingCosts := [⟨100, 1⟩, ⟨7, 2⟩, ⟨5, 3⟩]
    wasteCost := 4
    maximumNumber1Cuts := 2
    maximumNumber2Cuts := 2
    minimumDistance1Cuts := 10
    maximumDistance1Cuts := 60
    minimumWasteLength := 5 }
  itemTypes := [small, large]
  binTypes := [plate]
  itemTypeIds := [0, 1]
  stackOffsets := [0] }

/-- Two copies of a bin with two small items each, then a bin with a small and a large item. -/
def ops : List Op := [
  .addBin 0 2 .vertical, .addNode 1 40, .addNode 2 20, .setItem 0, .addNode 2 40, .setItem 0,
  .addBin 0 1 .vertical, .addNode 1 40, .addNode 2 20, .setItem 0,
  .addNode 1 80, .addNode 2 35, .setItem 1]

/-- The solution. -/
def sol : Solution := match (SolutionBuilder.run inst ops).build inst with
  | .ok s => s
  | .error _ => {}

theorem built : (SolutionBuilder.run inst ops).build inst = .ok sol := by decide +kernel

theorem sized : ∀ bt ∈ inst.binTypes, Sized bt := by
  intro bt h
  rw [List.mem_singleton.mp h]
  exact ⟨by decide, by decide, by decide, by decide, by decide, by decide⟩

theorem tablesOk : TablesOk inst := by
  have hi : ∀ i, i < inst.numberOfItemTypes → i = 0 ∨ i = 1 := by
    intro i hi
    have : i < 2 := hi
    omega
  have hb : ∀ b, b < inst.numberOfBinTypes → b = 0 := by
    intro b hb
    have : b < 1 := hb
    omega
  refine ⟨?_, ?_, ?_, fun _ => by decide⟩
  · intro i h; rcases hi i h with rfl | rfl <;> decide
  · intro i h b h'
    rw [hb b h']
    rcases hi i h with rfl | rfl <;> decide
  · intro i h
    rcases hi i h with rfl | rfl <;> decide

theorem resourceIdsOk : ResourceIdsOk inst := by
  intro i hi b hb
  have h2 : i < 2 := hi
  have h1 : b < 1 := hb
  have : b = 0 := by omega
  subst this
  have e1 : (inst.itemType i).resourceIds.getD 0 [] = [0] := by
    rcases (by omega : i = 0 ∨ i = 1) with rfl | rfl <;> decide
  have e2 : (inst.binType 0).resources.length = 1 := by decide
  rw [e1, e2]
  refine ⟨by decide, fun r => ?_⟩
  rw [List.mem_singleton]
  constructor
  · rintro rfl
    refine ⟨by decide, ?_⟩
    rcases (by omega : i = 0 ∨ i = 1) with rfl | rfl <;> decide
  · intro h; omega

theorem capacitiesNonneg : CapacitiesNonneg inst := by unfold CapacitiesNonneg; decide +kernel

theorem consumptionsNonneg : ConsumptionsNonneg inst := by
  unfold ConsumptionsNonneg; decide +kernel

end TotalsEx

section
variable {inst : Instance} {ops : List Op} {s : Solution}

theorem plates_eq (s : Solution) : s.bins.map plateOf = plates s := rfl

/-! ## C69: totals -/

/-- **C69**: the numbers a built solution reports are those of the bins it lists, for every
sequence of calls of the builder, also with rejected calls: bins and items with their copies, cost,
areas. -/
theorem totals (h : (SolutionBuilder.run inst ops).build inst = .ok s) :
    s.numberOfBins = numberOfBins (plates s)
    ∧ (∀ b < inst.numberOfBinTypes, s.binCopies.getD b 0 = binCopies (plates s) b)
    ∧ s.cost = cost inst (plates s)
    ∧ s.fullArea = fullArea inst (plates s)
    ∧ s.numberOfItems = numberOfItems (plates s)
    ∧ s.itemArea = itemArea inst (plates s)
    ∧ (∀ i < inst.numberOfItemTypes, s.itemCopies.getD i 0 = itemCopies (plates s) i)
    ∧ s.numberOfInfeasibleItemCopiesMin = missing inst (plates s) := by
  obtain ⟨g, _⟩ := build_indic h
  exact ⟨g.numberOfBins, g.binCopies, g.cost, g.fullArea, g.numberOfItems, g.itemArea,
    g.itemCopies, g.missing⟩

/-- **C69**: waste is the area of the bins without their trims, without the residual of the last
bin and without the items. -/
theorem waste_total (h : (SolutionBuilder.run inst ops).build inst = .ok s) :
    s.waste = fullArea inst (plates s) - residualArea (plates s) - itemArea inst (plates s)
    ∧ s.fullWaste = fullArea inst (plates s) - itemArea inst (plates s) := by
  obtain ⟨g, _⟩ := build_indic h
  unfold Solution.waste Solution.fullWaste
  rw [g.area, g.itemArea, g.fullArea]
  exact ⟨rfl, rfl⟩

/-- **C69**: profit is that of the items, with the copies of their bins, minus one penalty for every
listed bin and penalized resource that is exceeded. -/
theorem profit_total (h : (SolutionBuilder.run inst ops).build inst = .ok s)
    (hR : ResourceIdsOk inst) (hcap : CapacitiesNonneg inst) (hnn : ConsumptionsNonneg inst) :
    s.profit = reportedProfit inst (plates s) :=
  (build_indic h).1.profit hR hcap hnn

/-- **C69**: width, height and second leftover value are those of the last bin. -/
theorem extent_total (h : (SolutionBuilder.run inst ops).build inst = .ok s) :
    IsMaxWithZero ((usedNodes (plates s)).map (·.r)) s.width
    ∧ IsMaxWithZero ((usedNodes (plates s)).map (·.t)) s.height
    ∧ s.secondLeftoverValue = secondLeftover (plates s) := by
  obtain ⟨g, _⟩ := build_indic h
  exact ⟨g.width, g.height, g.leftover⟩

/-- **C69**: the cutting cost is that of the bins, of their cuts up to depth four, and of the
waste. -/
theorem cutting_cost_total (h : (SolutionBuilder.run inst ops).build inst = .ok s)
    (ho : ∀ p ∈ plates s, p.orientation ≠ .any) :
    s.cuttingCost = cutsCost inst (plates s) + inst.parameters.wasteCost * s.waste :=
  (build_indic h).1.cuttingCost fun b hb => ho (plateOf b) (List.mem_map_of_mem hb)

theorem itemNodes_area_eq (h : (SolutionBuilder.run inst ops).build inst = .ok s)
    {bin : SolutionBin} (hb : bin ∈ s.bins) :
    ((itemsOf bin.nodes).map fun i => (inst.itemType i).w * (inst.itemType i).h).sum
      = ((itemNodes bin).map fun n => (region n).area).sum := by
  have hd := items_dimensions h hb
  unfold itemsOf
  rw [List.map_map]
  congr 1
  apply List.map_congr_left
  intro n hn
  obtain ⟨i, _, hi, hdim⟩ := hd n hn
  unfold Region.area region
  dsimp only [Function.comp]
  rw [hi, Int.toNat_natCast]
  rcases hdim with ⟨h1, h2⟩ | ⟨h1, h2⟩
  · rw [h1, h2]
  · rw [h1, h2, Int.mul_comm]

/-- **C69**: when there are no soft trims, the items do not exceed the area of the bins: full waste
is not negative. -/
theorem full_waste_nonneg (h : (SolutionBuilder.run inst ops).build inst = .ok s)
    (ho : ∀ p ∈ plates s, p.orientation ≠ .any) (hc : ∀ p ∈ plates s, 0 ≤ p.copies)
    (hs : ∀ b < inst.numberOfBinTypes, Sized (inst.binType b))
    (hct : 0 ≤ inst.parameters.cutThickness)
    (hsoft : ∀ b < inst.numberOfBinTypes,
      ((inst.binType b).leftTrimType = .soft → (inst.binType b).leftTrim = 0)
      ∧ ((inst.binType b).rightTrimType = .soft → (inst.binType b).rightTrim = 0)
      ∧ ((inst.binType b).bottomTrimType = .soft → (inst.binType b).bottomTrim = 0)
      ∧ ((inst.binType b).topTrimType = .soft → (inst.binType b).topTrim = 0)) :
    0 ≤ s.fullWaste := by
  rw [(waste_total h).2]
  have key : itemArea inst (plates s) ≤ fullArea inst (plates s) := by
    unfold itemArea fullArea plates
    rw [List.map_map, List.map_map]
    apply List.sum_le_sum
    intro b hb
    dsimp only [Function.comp]
    have hbt : b.binTypeId < inst.numberOfBinTypes := by
      obtain ⟨b0, d, _, st⟩ := built_bin h hb
      rw [(staged_frame st).1]
      exact d.type_lt
    apply Int.mul_le_mul_of_nonneg_left _ (hc (plateOf b) (List.mem_map_of_mem hb))
    have hle := items_area_le h hb (ho (plateOf b) (List.mem_map_of_mem hb)) (hs _ hbt) hct
    have heq : (usable (inst.binType b.binTypeId)).area
        = trimmedArea (inst.binType b.binTypeId) := by
      obtain ⟨t1, t2, t3, t4⟩ := hsoft _ hbt
      unfold usable Region.area trimmedArea
      dsimp only
      have e1 : (if (inst.binType b.binTypeId).leftTrimType = .hard
          then (inst.binType b.binTypeId).leftTrim else 0)
          = (inst.binType b.binTypeId).leftTrim := by
        cases ht : (inst.binType b.binTypeId).leftTrimType with
        | hard => rfl
        | soft => rw [t1 ht]; rfl
      have e2 : (if (inst.binType b.binTypeId).rightTrimType = .hard
          then (inst.binType b.binTypeId).w - (inst.binType b.binTypeId).rightTrim
          else (inst.binType b.binTypeId).w)
          = (inst.binType b.binTypeId).w - (inst.binType b.binTypeId).rightTrim := by
        cases ht : (inst.binType b.binTypeId).rightTrimType with
        | hard => rfl
        | soft => rw [t2 ht, Int.sub_zero]; rfl
      have e3 : (if (inst.binType b.binTypeId).bottomTrimType = .hard
          then (inst.binType b.binTypeId).bottomTrim else 0)
          = (inst.binType b.binTypeId).bottomTrim := by
        cases ht : (inst.binType b.binTypeId).bottomTrimType with
        | hard => rfl
        | soft => rw [t3 ht]; rfl
      have e4 : (if (inst.binType b.binTypeId).topTrimType = .hard
          then (inst.binType b.binTypeId).h - (inst.binType b.binTypeId).topTrim
          else (inst.binType b.binTypeId).h)
          = (inst.binType b.binTypeId).h - (inst.binType b.binTypeId).topTrim := by
        cases ht : (inst.binType b.binTypeId).topTrimType with
        | hard => rfl
        | soft => rw [t4 ht, Int.sub_zero]; rfl
      rw [e1, e2, e3, e4]
      congr 1 <;> omega
    rw [heq] at hle
    unfold Plate.items
    dsimp only
    rw [itemNodes_area_eq h hb]
    exact hle
  omega

/-- The hypotheses of the theorems of C69 are met by a solution with two listed bins, three bins
and six items, with resources, costs and waste. -/
example : (SolutionBuilder.run TotalsEx.inst TotalsEx.ops).build TotalsEx.inst = .ok TotalsEx.sol
    ∧ (∀ p ∈ plates TotalsEx.sol, p.orientation ≠ .any ∧ 0 ≤ p.copies)
    ∧ (numberOfBins (plates TotalsEx.sol) = 3 ∧ numberOfItems (plates TotalsEx.sol) = 6)
    ∧ residualArea (plates TotalsEx.sol) = 1200 ∧ TotalsEx.sol.waste = 10600
    ∧ TotalsEx.sol.profit = 4400 ∧ cutsCost TotalsEx.inst (plates TotalsEx.sol) = 17608
    ∧ TotalsEx.sol.width = 80 :=
  ⟨TotalsEx.built, by decide +kernel, by decide +kernel, by decide +kernel, by decide +kernel,
    by decide +kernel, by decide +kernel, by decide +kernel⟩

/-! ## C70: feasibility -/

/-- **C70**: `build` never has undefined behaviour when the tables of the instance are complete: it
returns a solution, or, exactly if a piece of waste of the finished bins is too small, ends the
process. -/
theorem build_defined (ht : TablesOk inst) (ops : List Op) :
    ((∃ s, (SolutionBuilder.run inst ops).build inst = .ok s)
      ∧ ∀ b ∈ finishBins inst.parameters.cutThickness (SolutionBuilder.run inst ops).sol.bins,
        WasteOk inst (plateOf b))
    ∨ ((SolutionBuilder.run inst ops).build inst = .error .exit
      ∧ ∃ b ∈ finishBins inst.parameters.cutThickness (SolutionBuilder.run inst ops).sol.bins,
        ¬ WasteOk inst (plateOf b)) := by
  have hrun := runInv_run (inst := inst) ops
  unfold SolutionBuilder.build
  dsimp only
  generalize hfb : finishBins inst.parameters.cutThickness (SolutionBuilder.run inst ops).sol.bins
    = fb
  have hdone := finishBins_done hrun
  rw [hfb] at hdone
  rcases build_steps_cases (s := { (SolutionBuilder.run inst ops).sol with bins := fb })
      (n := fb.length) ht (le_refl _) (fun b hb => (hdone b hb).1) (by rw [hrun.rest]; rfl) with
    ⟨⟨s', e, _⟩, hall⟩ | ⟨e, i, hi, hnw⟩
  · left
    refine ⟨⟨s', e⟩, ?_⟩
    intro b hb
    obtain ⟨i, hi, rfl⟩ := List.getElem_of_mem hb
    have := hall i hi
    dsimp only at this
    rwa [List.getD_eq_getElem _ _ hi] at this
  · right
    refine ⟨e, fb.getD i default, ?_, hnw⟩
    rw [List.getD_eq_getElem _ _ hi]
    exact List.getElem_mem _

/-- **C70**: every solution that is built respects the minimum waste length. -/
theorem built_waste_ok (h : (SolutionBuilder.run inst ops).build inst = .ok s) :
    ∀ p ∈ plates s, WasteOk inst p := by
  obtain ⟨g, _⟩ := build_indic h
  apply g.waste.mp
  unfold SolutionBuilder.build at h
  dsimp only at h
  have hrun := runInv_run (inst := inst) ops
  generalize (finishBins inst.parameters.cutThickness
    (SolutionBuilder.run inst ops).sol.bins) = fb at h
  have key : ∀ n, ∀ s', (List.range n).foldlM
      (fun s pos => Solution.updateIndicators inst s pos)
      { (SolutionBuilder.run inst ops).sol with bins := fb } = .ok s' →
      s'.minimumWasteLengthFeasible = true := by
    intro n
    cases n with
    | zero =>
      intro s' h
      simp only [List.range_zero, List.foldlM_nil] at h
      rw [← Except.ok.inj h, hrun.rest]
      rfl
    | succ n =>
      intro s' h
      rw [List.range_succ, List.foldlM_append] at h
      obtain ⟨s1, _, h2⟩ := bind_ok.mp h
      rw [List.foldlM_cons] at h2
      obtain ⟨s2, h3, h4⟩ := bind_ok.mp h2
      rw [List.foldlM_nil] at h4
      rw [← Except.ok.inj h4, (updateIndicators_ok h3).2.2]
      exact (updateIndicators_ok h3).2.1
  exact key _ _ h

/-- Feasibility of a solution whose indicators are those of its bins. -/
theorem feasible_iff_core (g : Core inst s s.bins)
    (hcb : s.callbackFeasible = inst.callback s.bins) (hst : 0 ≤ inst.parameters.numberOfStages)
    (hc : ∀ p ∈ plates s, 0 ≤ p.copies)
    (hi : ∀ i < inst.numberOfItemTypes, 0 ≤ (inst.itemType i).copies)
    (hR : ResourceIdsOk inst) (hcap : CapacitiesNonneg inst) :
    s.feasible = true ↔
      (∀ b ∈ s.bins, b.numberOfStages ≤ inst.parameters.numberOfStages)
      ∧ (∀ p ∈ plates s, WasteOk inst p
        ∧ DistancesOk 1 inst.parameters.minimumDistance1Cuts
            inst.parameters.maximumDistance1Cuts p
        ∧ DistancesOk 2 inst.parameters.minimumDistance2Cuts
            inst.parameters.maximumDistance2Cuts p
        ∧ Number1Ok inst p ∧ Number2Ok inst p ∧ DefectsOk inst p ∧ CutThroughOk inst p
        ∧ ResourcesOk inst p.binTypeId p.items)
      ∧ StacksOk inst (plates s) ∧ CopiesOk inst (plates s) ∧ inst.callback s.bins = true := by
  have hc' : ∀ b ∈ s.bins, 0 ≤ b.copies := fun b hb => hc (plateOf b) (List.mem_map_of_mem hb)
  rw [g.feasible]
  unfold Solution.allFeasible
  simp only [Bool.and_eq_true, decide_eq_true_eq]
  have d1 := g.distances1
  have d2 := g.distances2
  have hstages : s.numberOfStagesFeasible = true
      ↔ ∀ b ∈ s.bins, b.numberOfStages ≤ inst.parameters.numberOfStages := by
    rw [g.stagesFeasible hst]
    obtain ⟨m1, m2, m3⟩ := g.stages
    constructor
    · intro hle b hb
      have := m2 _ (List.mem_map_of_mem hb)
      omega
    · intro hall
      rcases m3 with m3 | m3
      · omega
      · obtain ⟨b, hb, e⟩ := List.mem_map.mp m3
        have := hall b hb
        omega
  rw [g.waste, g.number1, g.number2, g.stackOrder, g.defects, g.cutThrough,
    g.copiesFeasible hc' hi, g.resources hR hcap, hcb, g.missing, missing_eq_zero, hstages]
  rw [plates_eq] at *
  unfold CopiesOk
  constructor
  · rintro ⟨⟨⟨⟨⟨⟨⟨⟨⟨⟨⟨⟨⟨⟨a1, a2⟩, a3⟩, a4⟩, a5⟩, a6⟩, a7⟩, a8⟩, a9⟩, a10⟩, a11⟩, a12⟩, a13⟩, a14⟩, a15⟩
    have b1 := d1.mp ⟨a3, a4⟩
    have b2 := d2.mp ⟨a5, a6⟩
    exact ⟨a1, fun p hp => ⟨a2 p hp, b1 p hp, b2 p hp, a7 p hp, a8 p hp, a10 p hp, a11 p hp,
      a13 p hp⟩, a9, fun i hi => ⟨a15 i hi, a12 i hi⟩, a14⟩
  · rintro ⟨a1, a2, a3, a4, a5⟩
    have b1 := d1.mpr fun p hp => (a2 p hp).2.1
    have b2 := d2.mpr fun p hp => (a2 p hp).2.2.1
    exact ⟨⟨⟨⟨⟨⟨⟨⟨⟨⟨⟨⟨⟨⟨a1, fun p hp => (a2 p hp).1⟩, b1.1⟩, b1.2⟩, b2.1⟩, b2.2⟩,
      fun p hp => (a2 p hp).2.2.2.1⟩, fun p hp => (a2 p hp).2.2.2.2.1⟩, a3⟩,
      fun p hp => (a2 p hp).2.2.2.2.2.1⟩, fun p hp => (a2 p hp).2.2.2.2.2.2.1⟩,
      fun i hi => (a4 i hi).2⟩, fun p hp => (a2 p hp).2.2.2.2.2.2.2⟩, a5⟩, fun i hi => (a4 i hi).1⟩

/-- **C70**: a built solution with at least one bin is reported feasible exactly if its bins have at
most the given number of stages, and its pieces respect the minimum waste length, the distances
between cuts, the numbers of cuts, the order of the stacks, the defects, the copies of the items,
the resources and the callback.  Missing from the full statement: nothing is checked about the
number of bins of a type, the orientation of items, eligibility to soft trims and the uniformity of
homogenous patterns, see the negative theorems below. -/
theorem feasible_iff_partial (h : (SolutionBuilder.run inst ops).build inst = .ok s)
    (hne : s.bins ≠ []) (hst : 0 ≤ inst.parameters.numberOfStages)
    (hc : ∀ p ∈ plates s, 0 ≤ p.copies)
    (hi : ∀ i < inst.numberOfItemTypes, 0 ≤ (inst.itemType i).copies)
    (hR : ResourceIdsOk inst) (hcap : CapacitiesNonneg inst) :
    s.feasible = true ↔
      (∀ b ∈ s.bins, b.numberOfStages ≤ inst.parameters.numberOfStages)
      ∧ (∀ p ∈ plates s, WasteOk inst p
        ∧ DistancesOk 1 inst.parameters.minimumDistance1Cuts
            inst.parameters.maximumDistance1Cuts p
        ∧ DistancesOk 2 inst.parameters.minimumDistance2Cuts
            inst.parameters.maximumDistance2Cuts p
        ∧ Number1Ok inst p ∧ Number2Ok inst p ∧ DefectsOk inst p ∧ CutThroughOk inst p
        ∧ ResourcesOk inst p.binTypeId p.items)
      ∧ StacksOk inst (plates s) ∧ CopiesOk inst (plates s) ∧ inst.callback s.bins = true := by
  obtain ⟨g, hcb, _⟩ := build_indic h
  exact feasible_iff_core g.toCore (hcb hne) hst hc hi hR hcap

/-- The hypotheses are met by a feasible solution, and by one that is not because of the stacks. -/
example : ((SolutionBuilder.run TotalsEx.inst TotalsEx.ops).build TotalsEx.inst = .ok TotalsEx.sol
      ∧ TotalsEx.sol.bins ≠ [] ∧ TotalsEx.sol.feasible = true)
    ∧ (∀ p ∈ plates TotalsEx.sol, 0 ≤ p.copies)
    ∧ ((∀ i < TotalsEx.inst.numberOfItemTypes, 0 ≤ (TotalsEx.inst.itemType i).copies)
      ∧ ResourceIdsOk TotalsEx.inst ∧ CapacitiesNonneg TotalsEx.inst ∧ TablesOk TotalsEx.inst)
    ∧ ∃ s, (SolutionBuilder.run TotalsEx.inst (TotalsEx.ops.drop 6)).build TotalsEx.inst = .ok s
      ∧ s.bins ≠ [] ∧ s.feasible = false ∧ s.stacksFeasible = false := by
  refine ⟨⟨TotalsEx.built, by decide +kernel, by decide +kernel⟩, by decide +kernel,
    ⟨by decide +kernel, TotalsEx.resourceIdsOk, TotalsEx.capacitiesNonneg, TotalsEx.tablesOk⟩,
    (match (SolutionBuilder.run TotalsEx.inst (TotalsEx.ops.drop 6)).build TotalsEx.inst with
      | .ok s => s | .error _ => {}), by decide +kernel, by decide +kernel, by decide +kernel,
    by decide +kernel⟩

/-! ## C71: stages -/

/-- **C71**: `number_of_stages_real` of a bin is the largest depth of a piece that a cut separates,
and `number_of_stages` is the same, less one if the cut type does not count the last stage because
all its cuts only trim an item (non-exact), or trim an item or split few pieces (Roadef 2018). -/
theorem stages_of_bin (h : (SolutionBuilder.run inst ops).build inst = .ok s)
    {bin : SolutionBin} (hb : bin ∈ s.bins) :
    IsMaxWithZero (cutDepths bin.nodes) bin.numberOfStagesReal
    ∧ (LastStageFree inst.parameters.cutType bin.nodes bin.numberOfStagesReal →
        bin.numberOfStages = bin.numberOfStagesReal - 1)
    ∧ (¬ LastStageFree inst.parameters.cutType bin.nodes bin.numberOfStagesReal →
        bin.numberOfStages = bin.numberOfStagesReal) := by
  obtain ⟨b, _, f, st⟩ := built_bin h hb
  exact staged_stages f st

/-- **C71**: the number of stages of a solution is the largest of its bins. -/
theorem stages_of_solution (h : (SolutionBuilder.run inst ops).build inst = .ok s) :
    IsMaxWithZero (s.bins.map (·.numberOfStages)) s.numberOfStages :=
  (build_indic h).1.stages

/-- **C71**: every bin of a feasible solution can be cut with guillotine cuts in the given number of
stages, or, if the cut type does not count the last one, in one more. -/
theorem feasible_stages (h : (SolutionBuilder.run inst ops).build inst = .ok s)
    (hf : s.feasible = true) (hst : 0 ≤ inst.parameters.numberOfStages)
    {bin : SolutionBin} (hb : bin ∈ s.bins) (ho : bin.firstCutOrientation ≠ .any)
    (hs : Sized (inst.binType bin.binTypeId)) (hct : 0 ≤ inst.parameters.cutThickness) :
    ∃ k L, Cuts inst.parameters.cutThickness k (decide (bin.firstCutOrientation = .vertical))
        (usable (inst.binType bin.binTypeId)) L
      ∧ List.Sublist ((itemNodes bin).map region) L
      ∧ ((k : Int) ≤ inst.parameters.numberOfStages
        ∨ ((k : Int) = inst.parameters.numberOfStages + 1
          ∧ LastStageFree inst.parameters.cutType bin.nodes k)) := by
  obtain ⟨g, _⟩ := build_indic h
  obtain ⟨L, hc, hsub⟩ := guillotine_pattern h hb ho hs hct
  obtain ⟨⟨m0, _, _⟩, e1, e2⟩ := stages_of_bin h hb
  refine ⟨bin.numberOfStagesReal.toNat, L, hc, hsub, ?_⟩
  rw [Int.toNat_of_nonneg m0]
  have hflag : s.numberOfStagesFeasible = true := by
    rw [g.feasible] at hf
    unfold Solution.allFeasible at hf
    simp only [Bool.and_eq_true] at hf
    exact hf.1.1.1.1.1.1.1.1.1.1.1.1.1.1
  have hle := (g.stagesFeasible hst).mp hflag
  have hb' := g.stages.2.1 _ (List.mem_map_of_mem (f := (·.numberOfStages)) hb)
  by_cases hl : LastStageFree inst.parameters.cutType bin.nodes bin.numberOfStagesReal
  · have := e1 hl
    by_cases hk : bin.numberOfStagesReal ≤ inst.parameters.numberOfStages
    · exact .inl hk
    · exact .inr ⟨by omega, hl⟩
  · have := e2 hl
    exact .inl (by omega)

/-- The hypotheses are met by a bin with a hard trim. -/
example : ∃ bin ∈ TotalsEx.sol.bins, TotalsEx.sol.feasible = true
    ∧ 0 ≤ TotalsEx.inst.parameters.numberOfStages ∧ bin.firstCutOrientation ≠ .any
    ∧ Sized (TotalsEx.inst.binType bin.binTypeId) ∧ bin.numberOfStagesReal = 2 :=
  ⟨TotalsEx.sol.bins.getD 0 default, by decide +kernel, by decide +kernel, by decide,
    by decide +kernel, TotalsEx.sized _ (by decide +kernel), by decide +kernel⟩

end

end PackingSolver.Guil
