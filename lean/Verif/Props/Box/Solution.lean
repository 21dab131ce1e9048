import Verif.Lemmas.Box.Reach
import Verif.Props.OneDim.Examples

/-!
# Box solutions (C84, C85)
-/

namespace PackingSolver.Box

open Spec
open PackingSolver.OneDim.Examples (okD)

/-! ## A concrete solution -/

namespace SolEx

/-- One bin type 10 × 6 × 5 with a penalized and a hard resource, one bin type 8 × 8 × 8; an item type
with two rotations and one that must stay upright. -/
def inst : Instance := {
  objective := .binPacking
  itemTypes := [
    { box := ⟨4, 2, 3⟩, rotations := [.xyz, .yzx], profit := 5, copies := 4, copiesMin := 1, weight := 3,
      resourceIds := [[0, 1], []] },
    { box := ⟨3, 5, 2⟩, rotations := [.xyz], profit := 7, copies := 2, copiesMin := 0, weight := 1,
      resourceIds := [[0], []] }]
  binTypes := [
    { box := ⟨10, 6, 5⟩, cost := 7, copies := 2, resources := [
      { capacity := 3, penalize := true, penalty := 2, itemConsumptions := [[1, 1], [2, 1]] },
      { capacity := 5, penalize := false, penalty := 0, itemConsumptions := [[2, 3], []] }] },
    { box := ⟨8, 8, 8⟩, cost := 6, copies := 2 }]
  numberOfItems := 6 }

/-- Two copies of a bin with items of both types, then a bin with a rotated item. -/
def ops : List BuilderOp :=
  [.addBin 0 1, .addItem 0 0 0 0 0 .xyz, .addItem 0 0 4 0 0 .xyz, .addItem 0 1 0 2 0 .xyz,
   .addBin 1 2, .addItem 1 0 1 0 2 .yzx]

def sol : Solution := okD {} (SolutionBuilder.runOps inst ops)

theorem sol_reachable : Reachable inst sol := .built ops sol (by decide +kernel)

theorem resourceIdsOk : ResourceIdsOk inst := by
  intro i hi b hb
  have hi : i = 0 ∨ i = 1 := by change i < 2 at hi; omega
  have hb : b = 0 ∨ b = 1 := by change b < 2 at hb; omega
  rcases hi with rfl | rfl <;> rcases hb with rfl | rfl
  · refine ⟨by decide +kernel, fun r => ?_⟩
    change r ∈ [0, 1] ↔ r < 2 ∧ _
    constructor
    · intro h
      simp only [List.mem_cons, List.not_mem_nil, or_false] at h
      rcases h with rfl | rfl <;> decide +kernel
    · rintro ⟨h, -⟩
      simp only [List.mem_cons, List.not_mem_nil, or_false]; omega
  · refine ⟨by decide +kernel, fun r => ?_⟩
    change r ∈ [] ↔ r < 0 ∧ _
    simp
  · refine ⟨by decide +kernel, fun r => ?_⟩
    change r ∈ [0] ↔ r < 2 ∧ _
    constructor
    · intro h
      simp only [List.mem_cons, List.not_mem_nil, or_false] at h
      subst h; decide +kernel
    · rintro ⟨h, h2⟩
      simp only [List.mem_cons, List.not_mem_nil, or_false]
      by_contra hne
      have : r = 1 := by omega
      subst this
      exact h2 (by decide +kernel)
  · refine ⟨by decide +kernel, fun r => ?_⟩
    change r ∈ [] ↔ r < 0 ∧ _
    simp

theorem capacitiesNonneg : CapacitiesNonneg inst := by
  intro b hb r hr
  have : ∀ b ∈ inst.binTypes, ∀ r ∈ b.resources, 0 ≤ r.capacity := by decide +kernel
  exact this b hb r hr

theorem consumptionsNonneg : ConsumptionsNonneg inst := by
  have : ∀ b ∈ inst.binTypes, ∀ r ∈ b.resources, ∀ s ∈ r.itemConsumptions, ∀ q ∈ s, 0 ≤ q := by
    decide +kernel
  exact this

end SolEx

variable {inst : Instance} {s : Solution}

/-! ## C84: totals -/

/-- **C84** (structure): a solution made by the builder lists exactly the bins and items the
caller described, in that order and at those places, and all the types exist. -/
theorem builder_packing {ops : List BuilderOp} (h : SolutionBuilder.runOps inst ops = .ok s) :
    packingOf s = opsPacking ops ∧ WellTyped inst (packingOf s)
    ∧ ∀ b ∈ packingOf s, ∀ i ∈ b.items, 
        i.rotation ∈ (inst.itemType i.itemTypeId).rotations := by
  have h' := h
  unfold SolutionBuilder.runOps at h'
  obtain ⟨sb, h1, -⟩ := bind_ok.mp h'
  obtain ⟨hg, hv, -⟩ := build_ok ops s h
  refine ⟨hv, hg.typed, ?_⟩
  change ∀ b ∈ binsView s.bins, _
  rw [hv]
  exact (raw_ops ops sb h1).rotations

/-- The builder refuses an item in a rotation that is not allowed, an item type that does not
exist and a bin that does not exist. -/
theorem builder_rejects (sb : SolutionBuilder) (k i : Nat) (x y z : Int) (r : Rotation)
    (h : sb.sol.bins.length ≤ k ∨ inst.numberOfItemTypes ≤ i
      ∨ r ∉ (inst.itemType i).rotations) :
    sb.addItem inst k i x y z r = .error .invalidArgument := by
  unfold SolutionBuilder.addItem
  by_cases h1 : k ≥ sb.sol.bins.length
  · rw [if_pos h1]
  rw [if_neg h1]
  by_cases h2 : i ≥ inst.numberOfItemTypes
  · rw [if_pos h2]
  rw [if_neg h2]
  obtain h | h | h := h
  · omega
  · omega
  · rw [if_pos (by
      simp only [ItemType.canRotate, Bool.not_eq_true', List.any_eq_false, decide_eq_true_eq]
      exact fun x hx e => h (e ▸ hx))]

/-- … and accepts everything else. -/
theorem builder_accepts (sb : SolutionBuilder) (k i : Nat) (x y z : Int) (r : Rotation)
    (hk : k < sb.sol.bins.length) (hi : i < inst.numberOfItemTypes)
    (hr : r ∈ (inst.itemType i).rotations) :
    ∃ sb', sb.addItem inst k i x y z r = .ok sb' := by
  unfold SolutionBuilder.addItem
  rw [if_neg (by omega), if_neg (by omega), if_neg]
  · exact ⟨_, rfl⟩
  · simpa [ItemType.canRotate] using hr

example : packingOf SolEx.sol = [⟨0, 1, [⟨0, 0, 0, 0, .xyz⟩, ⟨0, 4, 0, 0, .xyz⟩, ⟨1, 0, 2, 0, .xyz⟩]⟩,
    ⟨1, 2, [⟨0, 1, 0, 2, .yzx⟩]⟩] := by decide +kernel

/-- **C84** (`append_bins`): the bins of the other solution are appended, relabelled, with their
copies, positions and rotations. -/
theorem appendBins_packing {s' other : Solution} {mb mi : List Nat} (h : Reachable inst s)
    (h2 : s.appendBins inst other mb mi = .ok s') :
    packingOf s' = packingOf s ++ (packingOf other).map (relabelBin mb mi) := by
  have := (appendBins_ok h.good h2).2
  simpa [packingOf, binsView, List.map_map, Function.comp_def] using this

/-- **C84** (`append_bin`): one bin of the other solution, with the given number of copies. -/
theorem appendBin_packing {s' other : Solution} {k : Nat} {c : Int} {mb mi : List Nat}
    (h : Reachable inst s) (h2 : s.appendBin inst other k c mb mi = .ok s') :
    ∃ b, (packingOf other)[k]? = some b
      ∧ packingOf s' = packingOf s ++ [relabelBin mb mi { b with copies := c }] := by
  obtain ⟨hk, -, hv⟩ := appendBin_ok h.good h2
  refine ⟨viewBin (other.bins.getD k default), ?_, hv⟩
  unfold packingOf
  rw [List.getElem?_map, List.getElem?_eq_getElem hk, List.getD_eq_getElem _ _ hk]
  rfl

/-- **C84** (totals): after any sequence of calls, the reported totals are those of the listed
bins. -/
theorem indicators_exact (h : Reachable inst s) :
    s.numberOfBins = Spec.numberOfBins (packingOf s)
    ∧ s.numberOfItems = Spec.numberOfItems (packingOf s)
    ∧ s.binArea = Spec.binArea inst (packingOf s)
    ∧ s.binVolume = Spec.binVolume inst (packingOf s)
    ∧ s.itemVolume = Spec.itemVolume inst (packingOf s)
    ∧ s.itemWeight = Spec.itemWeight inst (packingOf s)
    ∧ s.binCost = Spec.cost inst (packingOf s)
    ∧ (∀ t, t < inst.numberOfBinTypes → s.binCopies[t]? = some (Spec.binCopies (packingOf s) t))
    ∧ (∀ i, i < inst.numberOfItemTypes →
        s.itemCopies[i]? = some (Spec.itemCopies (packingOf s) i)) := by
  have g := h.good.indic
  refine ⟨g.numberOfBins, g.numberOfItems, g.binArea, g.binVolume, g.itemVolume, g.itemWeight, g.cost, ?_,
    ?_⟩
  · intro t ht
    have hl : t < s.binCopies.length := by rw [g.binCopiesLen]; exact ht
    have := g.binCopies t ht
    rw [List.getD_eq_getElem _ _ hl] at this
    rw [List.getElem?_eq_getElem hl, this]; rfl
  · intro t ht
    have hl : t < s.itemCopies.length := by rw [g.itemCopiesLen]; exact ht
    have := g.itemCopies t ht
    rw [List.getD_eq_getElem _ _ hl] at this
    rw [List.getElem?_eq_getElem hl, this]; rfl

/-- **C84** (waste of whole bins). -/
theorem fullWaste_exact (h : Reachable inst s) :
    s.fullWaste = Spec.binVolume inst (packingOf s) - Spec.itemVolume inst (packingOf s) := by
  obtain ⟨-, -, -, h3, h4, -⟩ := indicators_exact h
  rw [Solution.fullWaste, h3, h4]

/-- **C84** (profit): item profits times bin copies minus the penalties of each listed bin. -/
theorem profit_exact (h : Reachable inst s) (hR : ResourceIdsOk inst)
    (hcap : CapacitiesNonneg inst) (hnn : ConsumptionsNonneg inst) :
    s.itemProfit = reportedProfit inst (packingOf s) := h.good.indic.profit hR hcap hnn

/-- **C84** (weight and profit of each bin): those of its items, once. -/
theorem bin_weights_exact (h : Reachable inst s) :
    ∀ b ∈ s.bins, b.weight = binWeight inst b.items ∧ b.profit = itemsProfit inst b.items :=
  h.good.weights

/-- **C84** (extents): `x_max()` and `y_max()` are the largest ends of the items of the last bin
along x and y (0 if it is empty), `z_max()` is at least the largest top of these items and is the top
of some packed item, and if the last bin is not empty `waste()` is the volume of the bins minus that
of the items, the last bin being counted up to these ends only. -/
theorem extents_exact_partial (h : Reachable inst s) :
    OneDim.Spec.IsMaxWithZero ((lastItems (packingOf s)).map (rightEnd inst)) s.xMax
    ∧ OneDim.Spec.IsMaxWithZero ((lastItems (packingOf s)).map (rearEnd inst)) s.yMax
    ∧ (∀ i ∈ lastItems (packingOf s), topEnd inst i ≤ s.zMax)
    ∧ 0 ≤ s.zMax
    ∧ (s.zMax = 0 ∨ ∃ b ∈ packingOf s, ∃ i ∈ b.items, s.zMax = topEnd inst i)
    ∧ ∀ q b, packingOf s = q ++ [b] → b.items ≠ [] →
        s.waste = Spec.binVolume inst (packingOf s) - volumeOf (inst.binType b.binTypeId).box
          + s.xMax * s.yMax * s.zMax - Spec.itemVolume inst (packingOf s) := by
  have g := h.good.extents
  refine ⟨g.xMax, g.yMax, g.zLower, h.good.zNonneg, h.good.zUpper, fun q b hp hb => ?_⟩
  have := (g.volume q b hp hb).1
  rw [Solution.waste, this, (indicators_exact h).2.2.2.2.1]
  rfl

/-- The height of the last bin is reported for a solution made by the builder and for a solution
with at most one bin. -/
def HeightTracked (inst : Instance) (s : Solution) : Prop :=
  (∃ ops, SolutionBuilder.runOps inst ops = .ok s) ∨ (packingOf s).length ≤ 1

/-- **C84** (height): for such a solution `z_max()` is the largest top of the items of the last bin. -/
theorem zMax_exact_partial (h : Reachable inst s) (hz : HeightTracked inst s) :
    OneDim.Spec.IsMaxWithZero ((lastItems (packingOf s)).map (topEnd inst)) s.zMax := by
  rcases hz with ⟨ops, ho⟩ | hl
  · obtain ⟨-, hv, hm⟩ := build_ok ops s ho
    have : packingOf s = opsPacking ops := hv
    rw [this]; exact hm
  · obtain ⟨-, -, h1, h2, h3, -⟩ := extents_exact_partial h
    refine ⟨?_, h2, ?_⟩
    · intro x hx
      obtain ⟨i, hi, rfl⟩ := List.mem_map.mp hx
      exact h1 i hi
    · rcases h3 with e | ⟨b, hb, i, hi, e⟩
      · exact .inl e
      · right
        have hp : packingOf s = [b] := by
          match hps : packingOf s, hl, hb with
          | [], _, hb => simp at hb
          | [c], _, hb => rw [List.mem_singleton.mp hb]
          | c :: d :: q, hl, _ => simp at hl
        rw [hp, e]
        exact List.mem_map_of_mem hi

/-- The hypotheses of the theorems of C84 are met by a solution with penalties, a rotated item and
a bin with two copies. -/
example : Reachable SolEx.inst SolEx.sol ∧ ResourceIdsOk SolEx.inst ∧ CapacitiesNonneg SolEx.inst
    ∧ ConsumptionsNonneg SolEx.inst
    ∧ SolEx.sol.itemProfit = 5 + 5 + 7 - 2 + 2 * 5
    ∧ HeightTracked SolEx.inst SolEx.sol
    ∧ [SolEx.sol.numberOfBins, SolEx.sol.numberOfItems, SolEx.sol.binArea, SolEx.sol.binVolume,
        SolEx.sol.itemVolume, SolEx.sol.xMax, SolEx.sol.yMax, SolEx.sol.zMax, SolEx.sol.waste]
      = [3, 5, 188, 1324, 126, 3, 3, 6, 1324 - 512 + 54 - 126] :=
  ⟨SolEx.sol_reachable, SolEx.resourceIdsOk, SolEx.capacitiesNonneg, SolEx.consumptionsNonneg,
    by decide +kernel, .inl ⟨SolEx.ops, by decide +kernel⟩, by decide +kernel⟩

/-- **C84**, negation: with an empty last bin `waste()` is not the waste: the builder gives a
solution whose reported waste is negative. -/
theorem empty_last_bin_negative_waste : ∃ (ops : List BuilderOp) (s : Solution),
    SolutionBuilder.runOps SolEx.inst ops = .ok s ∧ s.feasible = true ∧ s.waste < 0
    ∧ 0 ≤ s.fullWaste :=
  ⟨[.addBin 0 1, .addItem 0 0 0 0 0 .xyz, .addBin 0 1],
    okD {} (SolutionBuilder.runOps SolEx.inst
      [.addBin 0 1, .addItem 0 0 0 0 0 .xyz, .addBin 0 1]),
    by decide +kernel, by decide +kernel, by decide +kernel, by decide +kernel⟩

/-- **C84**, negation: the same two bins listed as one entry with two copies or as two entries
report different profits. -/
theorem copies_do_not_scale_penalties : ∃ (a b : Solution),
    Reachable SolEx.inst a ∧ Reachable SolEx.inst b
    ∧ a.itemCopies = b.itemCopies ∧ a.binCopies = b.binCopies ∧ a.itemProfit ≠ b.itemProfit :=
  ⟨okD {} (SolutionBuilder.runOps SolEx.inst [.addBin 0 2, .addItem 0 0 0 0 0 .xyz,
      .addItem 0 0 4 0 0 .xyz, .addItem 0 1 0 2 0 .xyz]),
   okD {} (SolutionBuilder.runOps SolEx.inst [.addBin 0 1, .addItem 0 0 0 0 0 .xyz,
      .addItem 0 0 4 0 0 .xyz, .addItem 0 1 0 2 0 .xyz, .addBin 0 1, .addItem 1 0 0 0 0 .xyz,
      .addItem 1 0 4 0 0 .xyz, .addItem 1 1 0 2 0 .xyz]),
   .built [.addBin 0 2, .addItem 0 0 0 0 0 .xyz,
      .addItem 0 0 4 0 0 .xyz, .addItem 0 1 0 2 0 .xyz] _ (by decide +kernel),
   .built [.addBin 0 1, .addItem 0 0 0 0 0 .xyz,
      .addItem 0 0 4 0 0 .xyz, .addItem 0 1 0 2 0 .xyz, .addBin 0 1, .addItem 1 0 0 0 0 .xyz,
      .addItem 1 0 4 0 0 .xyz, .addItem 1 1 0 2 0 .xyz] _ (by decide +kernel), by decide +kernel,
   by decide +kernel, by decide +kernel⟩

/-- Without penalized resources a bin listed with `k` copies counts `k` times. -/
theorem copies_scale_profit_partial (h : Reachable inst s) (hR : ResourceIdsOk inst)
    (hcap : CapacitiesNonneg inst) (hnn : ConsumptionsNonneg inst)
    (hpen : ∀ t ∈ inst.binTypes, ∀ r ∈ t.resources, r.penalize = false) :
    s.itemProfit = ((packingOf s).map fun b => (b.copies : ℚ) * itemsProfit inst b.items).sum := by
  rw [profit_exact h hR hcap hnn, reportedProfit]
  congr 1
  apply List.map_congr_left
  intro b hb
  have ht := (h.good.typed b hb).1
  have : penalties inst b.binTypeId b.items = 0 := by
    unfold penalties
    rw [List.sum_eq_zero]
    intro q hq
    obtain ⟨r, hr, rfl⟩ := List.mem_map.mp hq
    have ht' : b.binTypeId < inst.binTypes.length := ht
    have hm : inst.binType b.binTypeId ∈ inst.binTypes := by
      rw [Instance.binType, List.getD_eq_getElem _ _ ht']; exact List.getElem_mem _
    rw [if_neg]
    simp [hpen _ hm r hr]
  rw [this, sub_zero]

/-- An instance without penalized resources. -/
def hardInst : Instance := {
  objective := .knapsack
  itemTypes := [{ box := ⟨1, 1, 1⟩, rotations := [.xyz], profit := 5, copies := 6, resourceIds := [[0]] }]
  binTypes := [
    { box := ⟨3, 3, 3⟩, copies := 2, resources := [
      { capacity := 3, penalize := false, penalty := 0, itemConsumptions := [[1]] }] }] }

example : (∀ t ∈ hardInst.binTypes, ∀ r ∈ t.resources, r.penalize = false)
    ∧ ∃ s, Reachable hardInst s ∧ s.itemProfit = 30 :=
  ⟨by decide +kernel, okD {} (SolutionBuilder.runOps hardInst
      [.addBin 0 3, .addItem 0 0 0 0 0 .xyz, .addItem 0 0 1 0 0 .xyz]),
    .built [.addBin 0 3, .addItem 0 0 0 0 0 .xyz, .addItem 0 0 1 0 0 .xyz] _ (by decide +kernel),
    by decide +kernel⟩

/-- **C84**, negation: `number_of_stacks()` and `stack_area()` (and so `area_load()`) are zero
whatever is packed. -/
theorem stacks_not_counted (h : Reachable inst s) : s.numberOfStacks = 0 ∧ s.stackArea = 0 :=
  h.good.indic.stackIndic

example : SolEx.sol.numberOfItems = 5 ∧ SolEx.sol.numberOfStacks = 0 := by decide +kernel

/-- **C84**, negation: after `append_bin`, `z_max()` is not the height of the last bin: the height of
an earlier, higher bin is kept.  The same bins described to the builder give another height, another
waste and another leftover. -/
theorem append_keeps_old_height : ∃ (inst : Instance) (a b : Solution) (ops : List BuilderOp),
    Reachable inst a ∧ SolutionBuilder.runOps inst ops = .ok b ∧ packingOf a = packingOf b
    ∧ a.zMax = 9 ∧ b.zMax = 1 ∧ a.waste ≠ b.waste ∧ a.leftoverValue < b.leftoverValue := by
  let i : Instance := {
    objective := .binPackingWithLeftovers
    itemTypes := [{ box := ⟨2, 2, 9⟩, rotations := [.xyz] }, { box := ⟨2, 2, 1⟩, rotations := [.xyz] }]
    binTypes := [{ box := ⟨2, 2, 9⟩, copies := 2 }] }
  let o1 : List BuilderOp := [.addBin 0 1, .addItem 0 0 0 0 0 .xyz]
  let o2 : List BuilderOp := [.addBin 0 1, .addItem 0 1 0 0 0 .xyz]
  let o3 : List BuilderOp := o1 ++ [.addBin 0 1, .addItem 1 1 0 0 0 .xyz]
  let s1 := okD {} (SolutionBuilder.runOps i o1)
  let s2 := okD {} (SolutionBuilder.runOps i o2)
  exact ⟨i, okD {} (s1.appendBins i s2 [] []), okD {} (SolutionBuilder.runOps i o3), o3,
    .appendBins s1 _ s2 [] [] (.built o1 s1 (by decide +kernel)) (by decide +kernel),
    by decide +kernel, by decide +kernel, by decide +kernel, by decide +kernel,
    by decide +kernel, by decide +kernel⟩

/-! ## C85: feasibility -/

/-- **C85**: a non-empty solution reports to be feasible exactly if every item type is packed
between `copies_min` and `copies` times, the callback accepts the bins and no hard resource is
ever exceeded. -/
theorem feasible_iff_partial (h : Reachable inst s) (hne : packingOf s ≠ [])
    (hR : ResourceIdsOk inst) (hcap : CapacitiesNonneg inst) :
    s.feasible = true ↔ CopiesOk inst (packingOf s) ∧ inst.callback (packingOf s) = true
      ∧ ∀ b ∈ packingOf s, ResourcesOk inst b.binTypeId b.items := by
  have g := h.good
  have hb : s.bins ≠ [] := fun e => hne (by simp [packingOf, e])
  rw [g.indic.feasible]
  simp only [Bool.and_eq_true, decide_eq_true_eq]
  rw [g.indic.itemCopiesFeasible hne, g.indic.resources hR hcap, g.callback hb, g.indic.missing,
    missing_eq_zero]
  unfold CopiesOk
  constructor
  · rintro ⟨⟨⟨h1, h2⟩, h3⟩, h4⟩
    exact ⟨fun i hi => ⟨h4 i hi, h1 i hi⟩, h2, h3⟩
  · rintro ⟨h1, h2, h3⟩
    exact ⟨⟨⟨fun i hi => (h1 i hi).2, h2⟩, h3⟩, fun i hi => (h1 i hi).1⟩

/-- The empty solution is feasible exactly if no item type is required. -/
theorem feasible_empty (h : Reachable inst s) (he : packingOf s = []) (hR : ResourceIdsOk inst)
    (hcap : CapacitiesNonneg inst) :
    s.feasible = true ↔ ∀ i, i < inst.numberOfItemTypes → (inst.itemType i).copiesMin ≤ 0 := by
  have g := h.good
  have hb : s.bins = [] := by simpa [packingOf] using he
  have hv : binsView s.bins = [] := he
  have hr := g.indic.resources hR hcap
  rw [hv] at hr
  have hr' : s.resourceFeasible = true := hr.mpr (by simp)
  rw [g.indic.feasible]
  rw [g.indic.itemCopiesNil hv, g.callback_nil hb, hr', g.indic.missing, hv]
  simp only [Bool.and_self, Bool.true_and, decide_eq_true_eq]
  rw [missing_eq_zero]
  simp [Spec.itemCopies]

example : packingOf SolEx.sol ≠ [] ∧ SolEx.sol.feasible = true
    ∧ (okD {} (SolutionBuilder.runOps SolEx.inst [.addBin 0 1, .addItem 0 1 0 0 0 .xyz])).feasible
      = false :=
  ⟨by decide +kernel, by decide +kernel, by decide +kernel⟩

/-- **C85**, negation: `feasible()` says nothing about the geometry: overlapping items, items
outside the bin, too heavy, and more bins than there are, are all reported as feasible. -/
theorem feasible_ignores_geometry : ∃ (inst : Instance) (s : Solution),
    Reachable inst s ∧ s.feasible = true
    ∧ (∃ b ∈ packingOf s,
        ¬ b.items.Pairwise (fun p q => Separated (occupies inst p) (occupies inst q)))
    ∧ (∃ b ∈ packingOf s, ∃ p ∈ b.items,
        ¬ Inside (inst.binType b.binTypeId).box (occupies inst p))
    ∧ (∃ b ∈ packingOf s, ∃ w, (inst.binType b.binTypeId).maximumWeight = .fin w
        ∧ binWeight inst b.items > w)
    ∧ ∃ t, t < inst.numberOfBinTypes
        ∧ Spec.binCopies (packingOf s) t > (inst.binType t).copies := by
  let i : Instance := {
    objective := .binPacking
    itemTypes := [
      { box := ⟨4, 4, 4⟩, copies := 9, copiesMin := 0, weight := 5, rotations := [.xyz] }]
    binTypes := [{ box := ⟨10, 10, 10⟩, copies := 1, maximumWeight := .fin 9 }] }
  let l : List PlacedItem := [⟨0, 0, 0, 0, .xyz⟩, ⟨0, 2, 2, 2, .xyz⟩, ⟨0, 0, 0, 20, .xyz⟩]
  let ops : List BuilderOp := [.addBin 0 2, .addItem 0 0 0 0 0 .xyz, .addItem 0 0 2 2 2 .xyz,
    .addItem 0 0 0 0 20 .xyz]
  have hp : packingOf (okD {} (SolutionBuilder.runOps i ops)) = [⟨0, 2, l⟩] := by decide +kernel
  refine ⟨i, okD {} (SolutionBuilder.runOps i ops), .built ops _ (by decide +kernel),
    by decide +kernel, ?_⟩
  rw [hp]
  refine ⟨⟨_, List.mem_singleton.mpr rfl, ?_⟩,
    ⟨_, List.mem_singleton.mpr rfl, ⟨0, 0, 0, 20, .xyz⟩, by decide +kernel, ?_⟩,
    ⟨_, List.mem_singleton.mpr rfl, 9, rfl, by decide +kernel⟩,
    ⟨0, by decide, by decide +kernel⟩⟩
  · unfold Separated; decide +kernel
  · unfold Inside; decide +kernel

/-- **C85**, negation: a callback that rejects every packing is not asked about the empty
solution. -/
theorem feasible_empty_ignores_callback : ∃ (inst : Instance) (s : Solution), Reachable inst s
    ∧ inst.callback (packingOf s) = false ∧ s.feasible = true :=
  ⟨{ objective := .binPacking, itemTypes := [], binTypes := [], callback := fun _ => false },
    _, .init, rfl, by decide +kernel⟩

end PackingSolver.Box
