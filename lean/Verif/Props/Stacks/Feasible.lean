import Verif.Lemmas.Stacks.Succeed
import Verif.Props.Stacks.Solution

/-!
# C91: feasibility of boxstacks solutions, and when the builder succeeds
-/

namespace PackingSolver.Stacks

open Spec
open PackingSolver.Box (Rotation)
open PackingSolver.OneDim.Examples (okD)

variable {inst : Instance} {s : Solution}

/-- **C91**: a non-empty solution reports to be feasible exactly if every bin is within its maximum
weight, the axles of every trailer are within their maximum weights for every group whose constraints
are checked, every item type is packed between `copies_min` and `copies` times and the callback accepts
the bins. -/
theorem feasible_iff_partial (h : Reachable inst s) (hne : packingOf s ≠ []) (hT : TrucksOk inst) :
    s.feasible = true ↔ (∀ b ∈ packingOf s, WeightOk inst b ∧ AxlesOk inst b)
      ∧ CopiesOk inst (packingOf s) ∧ inst.callback (packingOf s) = true := by
  have g := h.good
  have hb : s.bins ≠ [] := fun e => hne (by simp [packingOf, e])
  have ht : ∀ b ∈ s.bins, BinTyped inst (viewBin b) :=
    fun b hb => g.typed _ (List.mem_map_of_mem hb)
  obtain ⟨r, hr, hi⟩ := feasibleAxleWeights_good s.bins g.bins
  have hne' : binsView s.bins ≠ [] := hne
  rw [g.feasible hb, totalWeight_good _ g.bins ht, hr, Except.ok.injEq, hi, g.callback hb,
    g.indic.itemCopiesFeasible hne', g.indic.missing, missing_eq_zero, packingOf_eq]
  have hax : (∀ b ∈ s.bins, ∀ g, g < inst.numberOfGroups → groupFine inst b g)
      ↔ ∀ b ∈ s.bins, AxlesOk inst (viewBin b) :=
    forall_congr' fun b => forall_congr' fun hm => groupFine_iff (g.bins b hm) (ht b hm).1 hT
  rw [hax]
  unfold CopiesOk
  have hmap : (∀ b ∈ binsView s.bins, WeightOk inst b ∧ AxlesOk inst b)
      ↔ (∀ b ∈ s.bins, WeightOk inst (viewBin b)) ∧ ∀ b ∈ s.bins, AxlesOk inst (viewBin b) := by
    constructor
    · exact fun h => ⟨fun b hb => (h _ (List.mem_map_of_mem hb)).1,
        fun b hb => (h _ (List.mem_map_of_mem hb)).2⟩
    · rintro ⟨h1, h2⟩ b hb
      obtain ⟨x, hx, rfl⟩ := List.mem_map.mp hb
      exact ⟨h1 x hx, h2 x hx⟩
  rw [hmap]
  constructor
  · rintro ⟨h1, h2, h3, h4, h5⟩
    exact ⟨⟨h1, h2⟩, fun i hi => ⟨h5 i hi, h4 i hi⟩, h3⟩
  · rintro ⟨⟨h1, h2⟩, h4, h3⟩
    exact ⟨h1, h2, h3, fun i hi => (h4 i hi).2, fun i hi => (h4 i hi).1⟩

/-- The empty solution is feasible exactly if no item type is required. -/
theorem feasible_empty (h : Reachable inst s) (he : packingOf s = []) :
    s.feasible = true ↔ ∀ i, i < inst.numberOfItemTypes → (inst.itemType i).copiesMin ≤ 0 := by
  have g := h.good
  have hb : s.bins = [] := by simpa [packingOf] using he
  have hv : binsView s.bins = [] := he
  rw [g.feasible_nil hb, g.indic.missing, missing_eq_zero, hv]
  simp [Spec.itemCopies]

/-- The axle weights that are compared are determined by the balance of the moments: there is exactly
one solution. -/
theorem axle_balance_unique {d : TruckData} (hd : TruckOk d) (his : d.is = true) (w m : ℚ) :
    (∃ h a r, AxleBalance d w (m / w) h a r)
    ∧ ∀ h a r h' a' r', AxleBalance d w (m / w) h a r → AxleBalance d w (m / w) h' a' r' →
        h = h' ∧ a = a' ∧ r = r' := by
  refine ⟨⟨_, _, _, (balance_iff hd his _ _ _).mpr ⟨rfl, rfl, rfl⟩⟩, ?_⟩
  intro h a r h' a' r' h1 h2
  obtain ⟨e1, e2, e3⟩ := (balance_iff hd his _ _ _).mp h1
  obtain ⟨f1, f2, f3⟩ := (balance_iff hd his _ _ _).mp h2
  exact ⟨e1.trans f1.symm, e2.trans f2.symm, e3.trans f3.symm⟩

/-- **C91** (violation): if no maximum axle weight is negative, the reported violation of the weight
constraints is never negative, and it is 0 exactly if the axle constraints hold in every bin. -/
theorem weight_violation_zero_iff (h : Reachable inst s) (hT : TrucksOk inst)
    (hmax : ∀ t, t < inst.numberOfBinTypes →
      (∀ m, (inst.binType t).truck.middleAxleMaximumWeight = .fin m → 0 ≤ m)
      ∧ ∀ m, (inst.binType t).truck.rearAxleMaximumWeight = .fin m → 0 ≤ m) :
    0 ≤ s.weightViolation inst
    ∧ (s.weightViolation inst = 0 ↔ ∀ b ∈ packingOf s, AxlesOk inst b) := by
  have g := h.good
  have ht : ∀ b ∈ s.bins, b.binTypeId < inst.numberOfBinTypes :=
    fun b hb => (g.typed _ (List.mem_map_of_mem hb)).1
  obtain ⟨h1, h2⟩ := violation_bins (inst := inst) s.bins 0 (fun b hb => hmax _ (ht b hb))
  refine ⟨h1, ?_⟩
  rw [Solution.weightViolation, h2, packingOf_eq]
  constructor
  · intro hf b hb
    obtain ⟨x, hx, rfl⟩ := List.mem_map.mp hb
    exact (groupFine_iff (g.bins x hx) (ht x hx) hT).mp (hf x hx)
  · intro hf b hb
    exact (groupFine_iff (g.bins b hb) (ht b hb) hT).mpr (hf _ (List.mem_map_of_mem hb))

/-- The same trailer with a heavier rear: the weight constraints of the first group are violated. -/
def rearOps : List BuilderOp :=
  [.addBin 0 1, .addStack 0 6 10 0 2, .addItem 0 0 0 .xyz, .addItem 0 0 1 .xyz, .addItem 0 0 0 .xyz]

def rearSol : Solution := okD {} (SolutionBuilder.runOps SolEx.inst rearOps)

example : TrucksOk SolEx.inst ∧ Reachable SolEx.inst SolEx.sol ∧ packingOf SolEx.sol ≠ []
    ∧ SolEx.sol.feasible = true ∧ SolEx.sol.weightViolation SolEx.inst = 0
    ∧ Reachable SolEx.inst rearSol ∧ rearSol.feasible = false
    ∧ rearSol.weightViolation SolEx.inst = 1/8 :=
  ⟨SolEx.trucksOk, SolEx.sol_reachable, by decide +kernel, by decide +kernel, by decide +kernel,
    .built rearOps _ (by decide +kernel), by decide +kernel, by decide +kernel⟩

/-- Another trailer, too heavy. -/
example : (okD {} (SolutionBuilder.runOps SolEx.inst (SolEx.ops ++ [.addItem 0 1 0 .xyz]))).feasible
    = false := by decide +kernel

/-- **C91**, negation: `feasible()` says nothing about the geometry nor about the stacking rules:
overlapping stacks outside of the bin, stacks higher than the bin, too dense, with more items than the
maximum stackability and more weight than an item bears, of items that cannot be stacked together, and
more bins than there are, are all reported as feasible. -/
theorem feasible_ignores_geometry : ∃ (inst : Instance) (s : Solution) (b : PackedBin)
    (p q : PackedStack), Reachable inst s ∧ s.feasible = true ∧ packingOf s = [b] ∧ b.piles = [p, q]
    ∧ p = q ∧ (inst.binType b.binTypeId).box.x < p.xEnd
    ∧ (inst.binType b.binTypeId).box.z < pileHeight inst p.items
    ∧ (∃ i j, p.items = [i, j]
        ∧ (inst.itemType i.1).maximumStackability = 1
        ∧ (inst.itemType i.1).maximumWeightAbove = .fin 0 ∧ 0 < (inst.itemType j.1).weight
        ∧ (inst.itemType i.1).stackabilityId ≠ (inst.itemType j.1).stackabilityId
        ∧ (inst.binType b.binTypeId).maximumStackDensity = .fin 0)
    ∧ Spec.binCopies (packingOf s) b.binTypeId > (inst.binType b.binTypeId).copies := by
  let i : Instance := {
    objective := .binPacking
    itemTypes := [
      { box := ⟨4, 4, 4⟩, copies := 9, copiesMin := 0, weight := 5, rotations := [.xyz],
        maximumStackability := 1, maximumWeightAbove := .fin 0 },
      { box := ⟨4, 4, 4⟩, copies := 9, copiesMin := 0, weight := 5, rotations := [.xyz],
        stackabilityId := 1 }]
    binTypes := [{ box := ⟨6, 6, 6⟩, copies := 1, maximumStackDensity := .fin 0 }]
    numberOfGroups := 1 }
  let ops : List BuilderOp := [.addBin 0 2, .addStack 0 4 8 0 4, .addItem 0 0 0 .xyz,
    .addItem 0 0 1 .xyz, .addStack 0 4 8 0 4, .addItem 0 1 0 .xyz, .addItem 0 1 1 .xyz]
  let p : PackedStack := ⟨4, 8, 0, 4, [(0, .xyz), (1, .xyz)]⟩
  exact ⟨i, okD {} (SolutionBuilder.runOps i ops), ⟨0, 2, [p, p]⟩, p, p,
    .built ops _ (by decide +kernel), by decide +kernel, by decide +kernel, rfl, rfl,
    by decide +kernel, by decide +kernel, ⟨(0, .xyz), (1, .xyz), rfl, rfl, rfl, by decide +kernel,
      by decide +kernel, rfl⟩, by decide +kernel⟩

/-- **C91**, negation: a callback that rejects every packing is not asked about the empty
solution. -/
theorem feasible_empty_ignores_callback : ∃ (inst : Instance) (s : Solution), Reachable inst s
    ∧ inst.callback (packingOf s) = false ∧ s.feasible = true :=
  ⟨{ objective := .binPacking, itemTypes := [], binTypes := [], callback := fun _ => false },
    _, .init, rfl, by decide +kernel⟩

/-! ## When the calls succeed -/

/-- The groups of the items exist. -/
def GroupsExist (inst : Instance) (p : Packing) : Prop :=
  ∀ b ∈ p, ∀ i ∈ binItems b, (inst.itemType i.1).groupId < inst.numberOfGroups

/-- **C90** (the builder succeeds): if at most one bin is described, or no group has its weight
constraints checked, then `build()` succeeds whenever all the calls before it do. -/
theorem builder_succeeds_partial {ops : List BuilderOp} {sb : SolutionBuilder}
    (h : ops.foldlM (SolutionBuilder.step inst) (SolutionBuilder.new inst) = .ok sb)
    (hg : GroupsExist inst (opsPacking ops))
    (hc : (opsPacking ops).length ≤ 1
      ∨ ∀ g, g < inst.numberOfGroups → inst.checkWeightConstraints g = false) :
    ∃ s, SolutionBuilder.runOps inst ops = .ok s := by
  obtain ⟨s, hs⟩ := build_succeeds (raw_ops ops sb h) hg hc
  exact ⟨s, bind_ok.mpr ⟨sb, h, hs⟩⟩

/-- **C90**, negation: as soon as two bins are described, the first of which is within its limits,
`build()` reads weights that have not been computed yet: its behaviour is undefined.  (The constraints
of every group are checked unless the caller has disabled them.) -/
theorem builder_two_bins_undefined {ops : List BuilderOp} {sb : SolutionBuilder} {b c : PackedBin}
    {q : Packing} (h : ops.foldlM (SolutionBuilder.step inst) (SolutionBuilder.new inst) = .ok sb)
    (hp : opsPacking ops = b :: c :: q) (hg : GroupsExist inst (opsPacking ops))
    (hT : TrucksOk inst) (hw : WeightOk inst b) (ha : AxlesOk inst b)
    (hmax : ∀ t, t < inst.numberOfBinTypes → Within 0 (inst.binType t).maximumWeight)
    (hc : ∃ g, g < inst.numberOfGroups ∧ inst.checkWeightConstraints g = true) :
    SolutionBuilder.runOps inst ops = .error .ub := by
  have hr := raw_ops ops sb h
  rw [hp] at hr hg
  unfold SolutionBuilder.runOps
  rw [h]
  exact build_second_ub hr (hg b (by simp)) hT hw ha hmax hc

/-- A solution with two bins that is feasible cannot be made by the builder, if the constraints of some
group are checked. -/
theorem builder_no_feasible_pair {ops : List BuilderOp}
    (hT : TrucksOk inst)
    (hmax : ∀ t, t < inst.numberOfBinTypes → Within 0 (inst.binType t).maximumWeight)
    (hc : ∃ g, g < inst.numberOfGroups ∧ inst.checkWeightConstraints g = true)
    (h : SolutionBuilder.runOps inst ops = .ok s) (hf : s.feasible = true) :
    (packingOf s).length ≤ 1 := by
  by_contra hl
  have h' := h
  unfold SolutionBuilder.runOps at h'
  obtain ⟨sb, h1, -⟩ := bind_ok.mp h'
  have hpk := (builder_packing h).1
  obtain ⟨b, c, q, hp⟩ : ∃ b c q, opsPacking ops = b :: c :: q := by
    rw [hpk] at hl
    match hm : opsPacking ops, hl with
    | [], hl => simp at hl
    | [_], hl => simp at hl
    | b :: c :: q, _ => exact ⟨b, c, q, rfl⟩
  have hr := Reachable.built ops s h
  have hne : packingOf s ≠ [] := by rw [hpk, hp]; simp
  have hfe := ((feasible_iff_partial hr hne hT).mp hf).1 b (by rw [hpk, hp]; simp)
  have hg : GroupsExist inst (opsPacking ops) := by
    intro x hx i hi
    have := hr.good.typed x (by rw [← packingOf_eq, hpk]; exact hx)
    exact (this.2 i hi).2
  rw [builder_two_bins_undefined h1 hp hg hT hfe.1 hfe.2 hmax hc] at h
  cases h

/-- The first bin of the example and then another one. -/
def twoOps : List BuilderOp := SolEx.ops ++ [.addBin 1 1]

/-- The calls before `build` all succeed, the bins are within their limits, and the result is
undefined. -/
example : (∃ sb, twoOps.foldlM (SolutionBuilder.step SolEx.inst)
      (SolutionBuilder.new SolEx.inst) = .ok sb)
    ∧ (opsPacking twoOps).length = 2
    ∧ SolEx.first.feasible = true
    ∧ SolutionBuilder.runOps SolEx.inst twoOps = .error .ub
    ∧ (∀ t, t < SolEx.inst.numberOfBinTypes → Within 0 (SolEx.inst.binType t).maximumWeight)
    ∧ ∃ g, g < SolEx.inst.numberOfGroups ∧ SolEx.inst.checkWeightConstraints g = true := by
  refine ⟨⟨okD ⟨{}⟩ (twoOps.foldlM (SolutionBuilder.step SolEx.inst)
      (SolutionBuilder.new SolEx.inst)), ?_⟩, by decide +kernel, by decide +kernel, by decide +kernel, ?_,
    ⟨0, by decide +kernel, by decide +kernel⟩⟩
  · rfl
  · intro t ht
    have : t = 0 ∨ t = 1 := by change t < 2 at ht; omega
    rcases this with rfl | rfl
    · change (0 : ℚ) ≤ 9 * (1 + 1 / 1000000000); norm_num
    · trivial

/-- **C90** (appending succeeds): a bin of another solution can be appended, with any number of copies,
to any solution a user can obtain, provided that the id maps cover its ids and that the relabelled
types and their groups exist. -/
theorem appendBin_succeeds_of {other : Solution} {k : Nat} {c : Int} {mb mi : List Nat}
    {b : PackedBin} (h : Reachable inst s) (hb : (packingOf other)[k]? = some b)
    (hmb : mb = [] ∨ b.binTypeId < mb.length)
    (hmi : ∀ i ∈ binItems b, mi = [] ∨ i.1 < mi.length)
    (ht : WellTyped inst [relabelBin mb mi b]) (hg : GroupsExist inst [relabelBin mb mi b]) :
    ∃ s', s.appendBin inst other k c mb mi = .ok s' := by
  have hk : k < other.bins.length := by
    by_contra hge
    rw [packingOf_eq, binsView, List.getElem?_map, List.getElem?_eq_none (by omega)] at hb
    simp at hb
  have hv : viewBin (other.bins.getD k default) = b := by
    rw [packingOf_eq, binsView, List.getElem?_map, List.getElem?_eq_getElem hk] at hb
    rw [List.getD_eq_getElem _ _ hk]
    simpa using hb
  apply appendBin_succeeds h.good hk
  · rw [← hv] at hmb; exact hmb
  · rw [hv]; exact hmi
  · rw [hv]
    have h1 := ht _ (List.mem_singleton.mpr rfl)
    exact ⟨h1.1, fun i hi => ⟨h1.2 i hi, hg _ (List.mem_singleton.mpr rfl) i hi⟩⟩

/-- **C90** (empty bins): a bin of an existing type can be appended. -/
theorem appendEmptyBin_succeeds {t : Nat} (h : Reachable inst s) (ht : t < inst.numberOfBinTypes)
    (c : Int) : ∃ s', s.appendEmptyBin inst t c = .ok s'
      ∧ packingOf s' = packingOf s ++ [⟨t, c, []⟩] := by
  obtain ⟨s', hs⟩ := pushBin_succeeds h.good { binTypeId := t, copies := c }
    ⟨ht, by simp [binItems, viewBin]⟩
  exact ⟨s', hs, (appendEmptyBin_ok h.good hs).2⟩

example : Reachable SolEx.inst SolEx.sol ∧ (packingOf SolEx.second)[0]? = some ⟨1, 1, [⟨1, 3, 0, 3, [(0, .yzx)]⟩]⟩
    ∧ (∃ s', SolEx.sol.appendBin SolEx.inst SolEx.second 0 3 [1, 0] [1] = .ok s')
    ∧ ∃ s', SolEx.sol.appendEmptyBin SolEx.inst 1 2 = .ok s' :=
  ⟨SolEx.sol_reachable, by decide +kernel,
    ⟨okD {} (SolEx.sol.appendBin SolEx.inst SolEx.second 0 3 [1, 0] [1]), by decide +kernel⟩,
    ⟨okD {} (SolEx.sol.appendEmptyBin SolEx.inst 1 2), by decide +kernel⟩⟩

end PackingSolver.Stacks
