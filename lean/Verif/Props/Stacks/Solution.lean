import Verif.Lemmas.Stacks.Weights
import Verif.Props.OneDim.Examples

/-!
# Boxstacks solutions (C90, C91)
-/

namespace PackingSolver.Stacks

open Spec
open PackingSolver.Box (Rotation)
open PackingSolver.Box.Spec (rotated)
open PackingSolver.OneDim.Examples (okD)

/-! ## A concrete solution -/

namespace SolEx

/-- A trailer 10 × 6 × 8 and a bin 8 × 8 × 8; an item type that sinks by 1 into the one below and one
that does not; two groups, the weight constraints of the second one being ignored. -/
def inst : Instance := {
  objective := .binPacking
  itemTypes := [
    { box := ⟨4, 2, 3⟩, rotations := [.xyz, .yzx], profit := 5, copies := 4, copiesMin := 1, weight := 3,
      nestingHeight := 1 },
    { box := ⟨4, 2, 2⟩, rotations := [.xyz], profit := 7, copies := 3, copiesMin := 0, weight := 1,
      groupId := 1 }]
  binTypes := [
    { box := ⟨10, 6, 8⟩, cost := 7, copies := 2, maximumWeight := .fin 9, truck := {
        is := true
        tractorWeight := 7
        frontAxleMiddleAxleDistance := 4
        frontAxleTractorGravityCenterDistance := 1
        frontAxleHarnessDistance := 3
        emptyTrailerWeight := 6
        harnessRearAxleDistance := 8
        trailerGravityCenterRearAxleDistance := 4
        trailerStartHarnessDistance := 1
        middleAxleMaximumWeight := .fin 20
        rearAxleMaximumWeight := .fin 9 } },
    { box := ⟨8, 8, 8⟩, cost := 6, copies := 2 }]
  checkWeightConstraintsList := [true, false]
  numberOfGroups := 2
  numberOfItems := 7 }

/-- Two stacks in the trailer, one of three items. -/
def ops : List BuilderOp :=
  [.addBin 0 1, .addStack 0 0 4 0 2, .addItem 0 0 0 .xyz, .addItem 0 0 1 .xyz, .addItem 0 0 0 .xyz,
   .addStack 0 4 8 0 2, .addItem 0 1 1 .xyz]

def first : Solution := okD {} (SolutionBuilder.runOps inst ops)

/-- A rotated item in the other bin. -/
def ops2 : List BuilderOp := [.addBin 1 1, .addStack 0 1 3 0 3, .addItem 0 0 0 .yzx]

def second : Solution := okD {} (SolutionBuilder.runOps inst ops2)

/-- The trailer, then two copies of the other bin. -/
def sol : Solution := okD {} (first.appendBin inst second 0 2 [] [])

theorem first_built : SolutionBuilder.runOps inst ops = .ok first := by decide +kernel

theorem sol_reachable : Reachable inst sol :=
  .appendBin first sol second 0 2 [] [] (.built ops first first_built) (by decide +kernel)

theorem trucksOk : TrucksOk inst := by
  intro t ht
  have : t = 0 ∨ t = 1 := by change t < 2 at ht; omega
  rcases this with rfl | rfl
  · exact ⟨fun _ => ⟨by decide +kernel, by decide +kernel⟩, fun h => by simp [inst, Instance.binType] at h⟩
  · exact ⟨fun h => by simp [inst, Instance.binType] at h, fun _ => ⟨trivial, trivial⟩⟩

theorem sol_packing : packingOf sol = [
    ⟨0, 1, [⟨0, 4, 0, 2, [(0, .xyz), (1, .xyz), (0, .xyz)]⟩, ⟨4, 8, 0, 2, [(1, .xyz)]⟩]⟩,
    ⟨1, 2, [⟨1, 3, 0, 3, [(0, .yzx)]⟩]⟩] := by decide +kernel

theorem sol_fitting : Fitting inst (packingOf sol) := by
  rw [sol_packing]; unfold Fitting; decide +kernel

end SolEx

variable {inst : Instance} {s : Solution}

theorem packingOf_eq (s : Solution) : packingOf s = binsView s.bins := rfl

/-! ## C90: structure -/

/-- **C90** (structure): a solution made by the builder lists exactly the bins, stacks and items the
caller described, in that order; all the types exist, the rotations are allowed and every item has the
size of its stack. -/
theorem builder_packing {ops : List BuilderOp} (h : SolutionBuilder.runOps inst ops = .ok s) :
    packingOf s = opsPacking ops ∧ WellTyped inst (packingOf s)
    ∧ (∀ b ∈ packingOf s, ∀ i ∈ binItems b, i.2 ∈ (inst.itemType i.1).rotations)
    ∧ Fitting inst (packingOf s) := by
  have h' := h
  unfold SolutionBuilder.runOps at h'
  obtain ⟨sb, h1, -⟩ := bind_ok.mp h'
  obtain ⟨hg, hv⟩ := build_ok ops s h
  have hr := (raw_ops ops sb h1).typed
  rw [packingOf_eq, hv]
  refine ⟨rfl, ?_, ?_, ?_⟩
  · intro b hb
    refine ⟨(hr b hb).1, fun i hi => ?_⟩
    obtain ⟨q, hq, hiq⟩ := List.mem_flatMap.mp hi
    exact ((hr b hb).2 q hq i hiq).1
  · intro b hb i hi
    obtain ⟨q, hq, hiq⟩ := List.mem_flatMap.mp hi
    exact ((hr b hb).2 q hq i hiq).2.1
  · intro b hb q hq i hi
    exact ((hr b hb).2 q hq i hi).2.2

/-- The builder refuses an item in a rotation that is not allowed or of another size than the stack,
an item type that does not exist and a bin that does not exist. -/
theorem builder_rejects (sb : SolutionBuilder) (k j i : Nat) (r : Rotation) (p : SolutionStack)
    (hp : (sb.sol.bins.getD k default).piles[j]? = some p)
    (h : sb.sol.bins.length ≤ k ∨ inst.numberOfItemTypes ≤ i ∨ r ∉ (inst.itemType i).rotations
      ∨ (rotated (inst.itemType i).box r).x ≠ p.xEnd - p.xStart
      ∨ (rotated (inst.itemType i).box r).y ≠ p.yEnd - p.yStart) :
    sb.addItem inst k j i r = .error .invalidArgument := by
  unfold SolutionBuilder.addItem
  by_cases h1 : k ≥ sb.sol.bins.length
  · rw [if_pos h1]
  rw [if_neg h1]
  by_cases h2 : i ≥ inst.numberOfItemTypes
  · rw [if_pos h2]
  rw [if_neg h2, hp]
  simp only [x_eq, y_eq]
  by_cases h3 : (!(inst.itemType i).canRotate r) = true
  · rw [if_pos h3]
  rw [if_neg h3]
  by_cases h4 : (rotated (inst.itemType i).box r).x ≠ p.xEnd - p.xStart
  · rw [if_pos h4]
  rw [if_neg h4]
  by_cases h5 : (rotated (inst.itemType i).box r).y ≠ p.yEnd - p.yStart
  · rw [if_pos h5]
  exfalso
  obtain h | h | h | h | h := h
  · omega
  · omega
  · apply h3
    simp only [ItemType.canRotate, Bool.not_eq_true', List.any_eq_false, decide_eq_true_eq]
    exact fun x hx e => h (e ▸ hx)
  · exact h4 h
  · exact h5 h

/-- … and accepts everything else. -/
theorem builder_accepts (sb : SolutionBuilder) (k j i : Nat) (r : Rotation) (p : SolutionStack)
    (hk : k < sb.sol.bins.length) (hi : i < inst.numberOfItemTypes)
    (hp : (sb.sol.bins.getD k default).piles[j]? = some p)
    (hr : r ∈ (inst.itemType i).rotations)
    (hx : (rotated (inst.itemType i).box r).x = p.xEnd - p.xStart)
    (hy : (rotated (inst.itemType i).box r).y = p.yEnd - p.yStart) :
    ∃ sb', sb.addItem inst k j i r = .ok sb' := by
  unfold SolutionBuilder.addItem
  rw [if_neg (by omega), if_neg (by omega), hp]
  simp only [x_eq, y_eq]
  rw [if_neg (by simpa [ItemType.canRotate] using hr), if_neg (by simpa using hx),
    if_neg (by simpa using hy)]
  exact ⟨_, rfl⟩

/-- A stack is refused exactly if its bin does not exist; otherwise that bin, and no other, gets a
further empty stack at the given place. -/
theorem builder_stack (sb : SolutionBuilder) (k : Nat) (x xe y ye : Int) :
    (sb.addStack k x xe y ye = .error .invalidArgument ↔ sb.sol.bins.length ≤ k)
    ∧ ∀ sb', sb.addStack k x xe y ye = .ok sb' → sb'.sol.bins.length = sb.sol.bins.length
      ∧ ∀ l, (sb'.sol.bins.getD l default).piles = (sb.sol.bins.getD l default).piles
        ++ if l = k then [{ xStart := x, xEnd := xe, yStart := y, yEnd := ye }] else [] := by
  unfold SolutionBuilder.addStack
  constructor
  · constructor
    · intro h
      by_contra hc
      rw [if_neg hc] at h
      cases h
    · intro h
      rw [if_pos h]
  · intro sb' h
    split_ifs at h with h1
    cases h
    refine ⟨List.length_modify _ _ _, fun l => ?_⟩
    dsimp only
    rw [List.getD_eq_getElem?_getD, List.getElem?_modify, List.getD_eq_getElem?_getD]
    by_cases c : k = l
    · subst c
      rw [List.getElem?_eq_getElem (by omega)]
      simp
    · rw [if_neg (Ne.symm c)]
      simp [c]

example : SolutionBuilder.runOps SolEx.inst [.addBin 0 1, .addStack 1 0 4 0 2]
    = .error .invalidArgument := by decide +kernel

example : SolutionBuilder.runOps SolEx.inst SolEx.ops = .ok SolEx.first
    ∧ packingOf SolEx.first = [⟨0, 1, [⟨0, 4, 0, 2, [(0, .xyz), (1, .xyz), (0, .xyz)]⟩,
        ⟨4, 8, 0, 2, [(1, .xyz)]⟩]⟩]
    ∧ SolutionBuilder.runOps SolEx.inst
        [.addBin 0 1, .addStack 0 0 4 0 2, .addItem 0 0 0 .yzx] = .error .invalidArgument :=
  ⟨SolEx.first_built, by decide +kernel, by decide +kernel⟩

/-- **C90** (`append_bins`): the bins of the other solution are appended, relabelled, with their
copies, stacks and rotations. -/
theorem appendBins_packing {s' other : Solution} {mb mi : List Nat} (h : Reachable inst s)
    (h2 : s.appendBins inst other mb mi = .ok s') :
    packingOf s' = packingOf s ++ (packingOf other).map (relabelBin mb mi) := by
  have := (appendBins_ok h.good h2).2
  simpa [packingOf_eq, binsView, List.map_map, Function.comp_def] using this

/-- **C90** (`append_bin`): one bin of the other solution, with the given number of copies. -/
theorem appendBin_packing {s' other : Solution} {k : Nat} {c : Int} {mb mi : List Nat}
    (h : Reachable inst s) (h2 : s.appendBin inst other k c mb mi = .ok s') :
    ∃ b, (packingOf other)[k]? = some b
      ∧ packingOf s' = packingOf s ++ [relabelBin mb mi { b with copies := c }] := by
  obtain ⟨hk, -, hv⟩ := appendBin_ok h.good h2
  refine ⟨viewBin (other.bins.getD k default), ?_, hv⟩
  rw [packingOf_eq, binsView, List.getElem?_map, List.getElem?_eq_getElem hk,
    List.getD_eq_getElem _ _ hk]
  rfl

example : Reachable SolEx.inst SolEx.first
    ∧ (∃ s', SolEx.first.appendBins SolEx.inst SolEx.second [] [1, 0] = .ok s')
    ∧ SolEx.first.appendBin SolEx.inst SolEx.second 0 2 [] [] = .ok SolEx.sol :=
  ⟨.built SolEx.ops _ SolEx.first_built,
    ⟨okD {} (SolEx.first.appendBins SolEx.inst SolEx.second [] [1, 0]), by decide +kernel⟩,
    by decide +kernel⟩

/-! ## C90: totals -/

/-- **C90** (totals): after any sequence of calls, the reported totals are those of the listed
bins. -/
theorem indicators_exact (h : Reachable inst s) :
    s.numberOfBins = Spec.numberOfBins (packingOf s)
    ∧ s.numberOfStacks = Spec.numberOfStacks (packingOf s)
    ∧ s.numberOfItems = Spec.numberOfItems (packingOf s)
    ∧ s.binArea = Spec.binArea inst (packingOf s)
    ∧ s.binVolume = Spec.binVolume inst (packingOf s)
    ∧ s.stackArea = Spec.stackArea (packingOf s)
    ∧ s.itemWeight = Spec.itemWeight inst (packingOf s)
    ∧ s.itemProfit = Spec.itemProfit inst (packingOf s)
    ∧ s.binCost = Spec.cost inst (packingOf s)
    ∧ (∀ t, t < inst.numberOfBinTypes → s.binCopies[t]? = some (Spec.binCopies (packingOf s) t))
    ∧ (∀ i, i < inst.numberOfItemTypes →
        s.itemCopies[i]? = some (Spec.itemCopies (packingOf s) i)) := by
  have g := h.good.indic
  refine ⟨g.numberOfBins, g.numberOfStacks, g.numberOfItems, g.binArea, g.binVolume, g.stackArea,
    g.itemWeight, g.itemProfit, g.cost, ?_, ?_⟩
  · intro t ht
    have hl : t < s.binCopies.length := by rw [g.binCopiesLen]; exact ht
    have := g.binCopies t ht
    rw [List.getD_eq_getElem _ _ hl] at this
    rw [List.getElem?_eq_getElem hl, this]; rfl
  · intro t ht
    have hl : t < s.itemCopies.length := by rw [g.itemCopiesLen]; exact ht
    have := g.itemCopies t ht
    rw [List.getD_eq_getElem _ _ hl] at this
    rw [List.getElem?_eq_getElem hl, this]; rfl

theorem sum_flatMap {α : Type} (l : List α) (f : α → List Int) :
    (l.flatMap f).sum = (l.map fun a => (f a).sum).sum := by
  induction l with
  | nil => rfl
  | cons a l ih => simp [ih]

theorem rotated_volume (d : Box.Dims) (r : Rotation) :
    (rotated d r).z * ((rotated d r).x * (rotated d r).y) = volumeOf d := by
  cases r <;> simp only [rotated, volumeOf] <;> ring

/-- **C90** (volume of the items): if the items have the size of their stacks, which the builder
ensures, `item_volume()` is the volume of the packed items. -/
theorem itemVolume_exact_partial (h : Reachable inst s) (hf : Fitting inst (packingOf s)) :
    s.itemVolume = Spec.itemVolume inst (packingOf s) := by
  rw [h.good.indic.itemVolume, Spec.itemVolume, ← packingOf_eq]
  congr 1
  apply List.map_congr_left
  intro b hb
  congr 1
  rw [binItems, List.map_flatMap, sum_flatMap]
  congr 1
  apply List.map_congr_left
  intro q hq
  unfold packedVolume
  congr 1
  apply List.map_congr_left
  intro i hi
  obtain ⟨h1, h2⟩ := hf b hb q hq i hi
  rw [itemHeight, floorArea, ← h1, ← h2, rotated_volume]

/-- **C90** (waste of whole bins). -/
theorem fullWaste_exact_partial (h : Reachable inst s) (hf : Fitting inst (packingOf s)) :
    s.fullWaste = Spec.binVolume inst (packingOf s) - Spec.itemVolume inst (packingOf s) := by
  rw [Solution.fullWaste, itemVolume_exact_partial h hf, (indicators_exact h).2.2.2.2.1]

/-- **C90** (heights): in every stack the items lie one on the other in the given order, every item but
the lowest sinking into the one below it by its nesting height: the top of the `k`-th item is the height
of the pile of the first `k` items, and the stack is as high as the pile of all its items. -/
theorem heights_exact (h : Reachable inst s) : ∀ b ∈ s.bins, ∀ p ∈ b.piles,
    p.zEnd = pileHeight inst (p.items.map fun i => (i.itemTypeId, i.rotation))
    ∧ ∀ k (hk : k < p.items.length),
        p.items[k].zStart + itemHeight inst (p.items[k].itemTypeId, p.items[k].rotation)
        = pileHeight inst ((p.items.map fun i => (i.itemTypeId, i.rotation)).take (k + 1)) :=
  fun b hb p hp => ⟨((h.good.bins b hb).piles p hp).height, ((h.good.bins b hb).piles p hp).bottoms⟩

/-- **C90** (weights): for every group the weight and the moment recorded for a bin are those of its
items of this group and of the later ones, and its profit is that of its items. -/
theorem bin_weights_exact (h : Reachable inst s) : ∀ b ∈ s.bins,
    (∀ g, g < inst.numberOfGroups →
      b.weight[g]? = some (weightFrom inst g (binItems (viewBin b)))
      ∧ b.weightWeightedSum[g]? = some (momentFrom inst g (viewBin b)))
    ∧ b.profit = itemsProfit inst (binItems (viewBin b)) := by
  intro b hb
  have g := h.good.bins b hb
  refine ⟨fun k hk => ⟨?_, ?_⟩, g.profit⟩
  · have hl : k < b.weight.length := by rw [g.weightLen]; exact hk
    rw [List.getElem?_eq_getElem hl, ← g.weight k hk, List.getD_eq_getElem _ _ hl]
  · have hl : k < b.weightWeightedSum.length := by rw [g.momentLen]; exact hk
    rw [List.getElem?_eq_getElem hl, ← g.moment k hk, List.getD_eq_getElem _ _ hl]

/-- **C90** (extents): `x_max()` and `y_max()` are the largest ends of the stacks of the last bin
along x and y (0 if it is empty). -/
theorem extents_exact (h : Reachable inst s) :
    OneDim.Spec.IsMaxWithZero ((lastPiles (packingOf s)).map (·.xEnd)) s.xMax
    ∧ OneDim.Spec.IsMaxWithZero ((lastPiles (packingOf s)).map (·.yEnd)) s.yMax :=
  ⟨h.good.extents.xMax, h.good.extents.yMax⟩

/-- **C90** (waste): if the largest part of the last bin that is left lies beyond the end of the stacks
along x, `waste()` is the volume of the bins without this part minus that of the items.  Otherwise the
reported waste is at least that. -/
theorem waste_exact_partial (h : Reachable inst s) (hf : Fitting inst (packingOf s)) (q : Packing)
    (b : PackedBin) (hp : packingOf s = q ++ [b]) (hb : b.piles ≠ [])
    (hx : 1 ≤ (inst.binType b.binTypeId).box.x) (hy : 0 ≤ (inst.binType b.binTypeId).box.y)
    (hz : 0 ≤ (inst.binType b.binTypeId).box.z) :
    Spec.binVolume inst (packingOf s) - largestSlab (inst.binType b.binTypeId) s.xMax s.yMax
        - Spec.itemVolume inst (packingOf s) ≤ s.waste
    ∧ (((inst.binType b.binTypeId).box.y - s.yMax) * (inst.binType b.binTypeId).box.x
        ≤ ((inst.binType b.binTypeId).box.x - s.xMax) * (inst.binType b.binTypeId).box.y →
      s.waste = Spec.binVolume inst (packingOf s)
        - largestSlab (inst.binType b.binTypeId) s.xMax s.yMax
        - Spec.itemVolume inst (packingOf s)) := by
  have hv := h.good.extents.volume q b hp hb
  rw [← packingOf_eq] at hv
  rw [Solution.waste, hv, itemVolume_exact_partial h hf]
  set B := (inst.binType b.binTypeId).box with hB
  have hle : B.y - s.yMax * B.x ≤ (B.y - s.yMax) * B.x := by nlinarith
  constructor
  · unfold largestSlab
    have : max ((B.x - s.xMax) * B.y) (B.y - s.yMax * B.x)
        ≤ max ((B.x - s.xMax) * B.y) ((B.y - s.yMax) * B.x) := max_le_max (le_refl _) hle
    have := mul_le_mul_of_nonneg_left this hz
    rw [← hB]
    linarith
  · intro hc
    unfold largestSlab
    rw [← hB, max_eq_left hc, max_eq_left (le_trans hle hc)]

/-- The hypotheses of the theorems of C90 are met by a solution with a nested item, a rotated item, two
groups and a bin with two copies. -/
example : Reachable SolEx.inst SolEx.sol ∧ Fitting SolEx.inst (packingOf SolEx.sol)
    ∧ SolEx.sol.itemProfit = 5 + 7 + 5 + 7 + 2 * 5
    ∧ [SolEx.sol.numberOfBins, SolEx.sol.numberOfStacks, SolEx.sol.numberOfItems,
        SolEx.sol.binArea, SolEx.sol.binVolume, SolEx.sol.stackArea, SolEx.sol.itemVolume,
        SolEx.sol.xMax, SolEx.sol.yMax, SolEx.sol.waste]
      = [3, 4, 6, 188, 1504, 28, 128, 3, 3, 1504 - 8 * (5 * 8) - 128]
    ∧ (SolEx.sol.bins.map fun b => b.piles.map fun p => (p.zEnd, p.items.map (·.zStart)))
      = [[(7, [0, 3, 4]), (2, [0])], [(4, [0])]]
    ∧ (SolEx.sol.bins.map fun b => (b.weight, b.weightWeightedSum))
      = [([8, 2], [20, 8]), ([3, 0], [6, 0])] :=
  ⟨SolEx.sol_reachable, SolEx.sol_fitting, by decide +kernel, by decide +kernel, by decide +kernel,
    by decide +kernel⟩

/-- **C90**, negation: if the largest part left lies beyond the stacks along y, `waste()` is more than
the volume of the bins without this part minus that of the items, because of a misplaced
parenthesis. -/
theorem waste_overreported : ∃ (inst : Instance) (ops : List BuilderOp) (s : Solution)
    (b : PackedBin), SolutionBuilder.runOps inst ops = .ok s ∧ s.feasible = true
    ∧ packingOf s = [b] ∧ b.piles ≠ []
    ∧ Spec.binVolume inst (packingOf s) - largestSlab (inst.binType b.binTypeId) s.xMax s.yMax
        - Spec.itemVolume inst (packingOf s) = 0
    ∧ s.waste = 900 := by
  let i : Instance := {
    objective := .binPackingWithLeftovers
    itemTypes := [{ box := ⟨10, 1, 10⟩, rotations := [.xyz] }]
    binTypes := [{ box := ⟨10, 10, 10⟩ }]
    numberOfGroups := 1 }
  let ops : List BuilderOp := [.addBin 0 1, .addStack 0 0 10 0 1, .addItem 0 0 0 .xyz]
  exact ⟨i, ops, okD {} (SolutionBuilder.runOps i ops), ⟨0, 1, [⟨0, 10, 0, 1, [(0, .xyz)]⟩]⟩,
    by decide +kernel, by decide +kernel, by decide +kernel, by decide +kernel, by decide +kernel,
    by decide +kernel⟩

/-- **C90**, negation: with an empty last bin `waste()` is not the waste: it is negative. -/
theorem empty_last_bin_negative_waste : ∃ (inst : Instance) (ops : List BuilderOp) (s : Solution),
    SolutionBuilder.runOps inst ops = .ok s ∧ s.feasible = true ∧ s.waste < 0
    ∧ 0 ≤ s.fullWaste := by
  let i : Instance := {
    objective := .binPackingWithLeftovers
    itemTypes := [{ box := ⟨10, 1, 10⟩, rotations := [.xyz] }]
    binTypes := [{ box := ⟨10, 10, 10⟩ }]
    checkWeightConstraintsList := [false]
    numberOfGroups := 1 }
  let ops : List BuilderOp :=
    [.addBin 0 1, .addStack 0 0 10 0 1, .addItem 0 0 0 .xyz, .addBin 0 1]
  exact ⟨i, ops, okD {} (SolutionBuilder.runOps i ops), by decide +kernel, by decide +kernel,
    by decide +kernel, by decide +kernel⟩

end PackingSolver.Stacks
