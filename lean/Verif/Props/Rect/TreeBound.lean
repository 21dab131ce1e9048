import Verif.Lemmas.Rect.TreeDominance
import Verif.Props.Rect.TreeSearch

/-!
# Rectangle tree search: ranking and pruning of nodes (C59, C60)
-/

namespace PackingSolver.Rect.TreeSearch

open Rect.Spec FlipLemmas

variable {ops : List InstanceBuilder.Op} {inst : Instance} {params : Parameters}
  {sort : List PlacedItem → List PlacedItem} {s : Scheme} {n n1 n2 m : Node}

/-- The packing a node is exported to. -/
theorem exported_pack (hc : Ctx s) (hn : Reached s n) {sol : Solution}
    (h : toSolution s n = .ok sol) : Reachable s.inst sol ∧ packingOf sol = pack s n := by
  obtain ⟨sol', h1, h2, h3⟩ := toSolution_ok hc (inv_reached hc hn)
  rw [h1] at h
  cases h
  exact ⟨h2, h3⟩

/-! ## C59: the ranking of nodes is the objective of their solutions -/

/-- The directions `tree_search` chooses suit the objective. -/
theorem directions_suit (inst : Instance) : ∀ d ∈ directions inst, SuitsObjective d inst := by
  intro d hd
  unfold directions at hd
  by_cases h1 : inst.objective = .openDimensionX
  · rw [if_pos h1] at hd
    simp [SuitsObjective, h1, List.mem_singleton.mp hd]
  rw [if_neg h1] at hd
  by_cases h2 : inst.objective = .openDimensionY
  · rw [if_pos h2] at hd
    simp [SuitsObjective, h2, List.mem_singleton.mp hd]
  rw [if_neg h2] at hd
  by_cases h3 : inst.objective = .binPackingWithLeftovers
  · cases hm : inst.parameters.leftoverMode <;> simp [h3, hm] at hd <;>
      simp [SuitsObjective, h3, hm, hd]
  · simp [SuitsObjective, h1, h2, h3]

/-- For every objective with an order of values (all but Default and the sequential subproblem), a search prefers a node to another one exactly when
the solution of the first has a better objective value; under the packing objectives a solution
with all items is preferred to one without, and two solutions without all items are not ranked. -/
theorem better_iff (hb : InstanceBuilder.runOps ops = .ok inst)
    (hs : Scheme.new inst params sort = .ok s) (hf : params.fixedItems = none)
    (hc : CapacitiesNonneg inst) (hr : DefectsReach inst) (hd : CopiesDefinite inst)
    (ho : Ordered inst.objective) (hdir : SuitsObjective params.direction inst)
    (hnn : ConsumptionsNonneg inst) (hcost : ∀ b ∈ inst.binTypes, 0 < b.cost)
    (h1 : Reached s n1) (h2 : Reached s n2) {sol1 sol2 : Solution}
    (e1 : toSolution s n1 = .ok sol1) (e2 : toSolution s n2 = .ok sol2) :
    ∃ r, better s n1 n2 = .ok r ∧ (r = true ↔
      if inst.objective = .knapsack ∨ inst.objective = .feasibility then
        Better inst (packingOf sol2) (packingOf sol1)
      else AllPacked inst (packingOf sol1) ∧ (¬ AllPacked inst (packingOf sol2)
        ∨ Better inst (packingOf sol2) (packingOf sol1))) := by
  have hx := ctx_of_new hb hs hf hc hr hd
  obtain ⟨-, e, ep, -⟩ := new_fields hs hf
  subst e ep
  rw [(exported_pack hx h1 e1).2, (exported_pack hx h2 e2).2]
  have l1 : AllPacked s.inst (pack s n1) ↔ leaf s n1 = true := (leaf_iff hx (inv_reached hx h1)).symm
  have l2 : AllPacked s.inst (pack s n2) ↔ leaf s n2 = true := (leaf_iff hx (inv_reached hx h2)).symm
  rw [l1, l2]
  have b1 : Spec.numberOfBins (pack s n1) = n1.numberOfBins := numberOfBins_packing _ _
  have b2 : Spec.numberOfBins (pack s n2) = n2.numberOfBins := numberOfBins_packing _ _
  have p1 := rank_profit hx h1 hnn
  have p2 := rank_profit hx h2 hnn
  have c12 := rank_cost hx h1 h2 hcost
  unfold better Better
  unfold SuitsObjective at hdir
  generalize hobj : s.inst.objective = obj at ho hdir ⊢
  cases obj <;> simp only [Ordered] at ho
  case binPacking =>
    refine ⟨_, rfl, ?_⟩
    cases leaf s n1 <;> cases leaf s n2 <;> simp [b1, b2]
  case binPackingWithLeftovers =>
    have r1 := rank_remaining hx h1 (hdir.2.2 rfl)
    have r2 := rank_remaining hx h2 (hdir.2.2 rfl)
    refine ⟨_, rfl, ?_⟩
    cases leaf s n1 <;> cases leaf s n2 <;> simp [b1, b2]
    rw [r1, r2]
    by_cases hne : n2.numberOfBins = n1.numberOfBins
    · simp [hne]
    · have hne' : ¬ n1.numberOfBins = n2.numberOfBins := fun h => hne h.symm
      simp [hne, hne']
  case openDimensionX =>
    have r1 := rank_x hx h1 (hdir.1 rfl)
    have r2 := rank_x hx h2 (hdir.1 rfl)
    refine ⟨_, rfl, ?_⟩
    cases leaf s n1 <;> cases leaf s n2 <;> simp [r1, r2]
  case openDimensionY =>
    have r1 := rank_y hx h1 (hdir.2.1 rfl)
    have r2 := rank_y hx h2 (hdir.2.1 rfl)
    refine ⟨_, rfl, ?_⟩
    cases leaf s n1 <;> cases leaf s n2 <;> simp [r1, r2]
  case knapsack => exact ⟨_, rfl, by simp [p1, p2]⟩
  case feasibility => exact ⟨_, rfl, by simp [p1, p2]⟩
  case variableSizedBinPacking =>
    refine ⟨_, rfl, ?_⟩
    cases leaf s n1 <;> cases leaf s n2 <;> simp [c12]

/-! ## C60: what pruning drops -/

theorem bound_binPacking (hx : Ctx s) (hst : s.parameters.staircase = false)
    (ho : s.inst.objective = .binPacking ∨ s.inst.objective = .variableSizedBinPacking)
    (h1 : Reached s n1) (hd : Descends s n1 m)
    (hex : 0 < n1.numberOfBins → ¬ (n1.numberOfBins < s.inst.numberOfBins
      ∧ s.inst.itemArea - n1.itemArea < (s.inst.binType (s.binTypeIds.getD (n1.numberOfBins - 1) 0)).area))
    (hb : bound s n1 n2 = .ok true) (hl : leaf s m = true) :
    leaf s n2 = true ∧ n2.numberOfBins ≤ m.numberOfBins := by
  have hm := descends_reached h1 hd
  have hg := grows_descends hx h1 hd
  have hle := (inv_reached hx h1).binsLe
  have hw := waste_bound hx hst h1 hd hl hex (binsArea s m.numberOfBins)
    (closedArea_le hx (inv_reached hx hm)) (by
      intro h0
      obtain ⟨-, q⟩ := bin_sky_le hx (inv_reached hx h1) h0
      have hmono := binsArea_mono hx hg.bins
      obtain ⟨K, hK⟩ : ∃ K, n1.numberOfBins = K + 1 := ⟨n1.numberOfBins - 1, by omega⟩
      rw [hK] at q hmono ⊢
      rw [Nat.add_sub_cancel] at q ⊢
      rw [binsArea_succ hx (by omega)] at hmono
      omega)
  obtain ⟨r, hr, hrle⟩ := binsForArea_le _ _ 0 m.numberOfBins hw
  have key : (if !leaf s n2 then false
      else match binsForArea (s.binTypeIds.map fun b => (s.inst.binType b).area)
          (s.inst.itemArea + n1.waste) 0 with
        | none => true
        | some k => decide (k ≥ n2.numberOfBins)) = true := by
    unfold bound at hb
    rcases ho with e | e <;> rw [e] at hb <;> exact Except.ok.inj hb
  rw [hr] at key
  cases hl2 : leaf s n2
  · rw [hl2] at key; simp at key
  · rw [hl2] at key
    have : r ≥ n2.numberOfBins := by simpa using key
    exact ⟨rfl, by omega⟩

/-- A node dropped because of a known solution leads to no solution with all items that uses fewer
bins (`BinPacking`, and by the order of the bins a cheaper one for `VariableSizedBinPacking`).
Missing: the option `staircase` (which the driver never sets), and the nodes where the search believes to know that
another bin is needed (see `optimum_dropped`). -/
theorem bound_binPacking_partial (hb : InstanceBuilder.runOps ops = .ok inst)
    (hs : Scheme.new inst params sort = .ok s) (hf : params.fixedItems = none)
    (hc : CapacitiesNonneg inst) (hr : DefectsReach inst) (hd : CopiesDefinite inst)
    (hst : params.staircase = false)
    (ho : inst.objective = .binPacking ∨ inst.objective = .variableSizedBinPacking)
    (h1 : Reached s n1) (h2 : Reached s n2) (hm : Descends s n1 m)
    (hex : 0 < n1.numberOfBins → ¬ (n1.numberOfBins < inst.numberOfBins
      ∧ inst.itemArea - n1.itemArea < (inst.binType (s.binTypeIds.getD (n1.numberOfBins - 1) 0)).area))
    (hbd : bound s n1 n2 = .ok true) {sol2 solm : Solution}
    (e2 : toSolution s n2 = .ok sol2) (em : toSolution s m = .ok solm)
    (ha : AllPacked inst (packingOf solm)) :
    AllPacked inst (packingOf sol2)
      ∧ Spec.numberOfBins (packingOf sol2) ≤ Spec.numberOfBins (packingOf solm)
      ∧ ((∀ b ∈ inst.binTypes, 0 < b.cost) →
        cost inst (packingOf sol2) ≤ cost inst (packingOf solm)) := by
  have hx := ctx_of_new hb hs hf hc hr hd
  obtain ⟨-, e, ep, -⟩ := new_fields hs hf
  subst e ep
  have hm' := descends_reached h1 hm
  rw [(exported_pack hx hm' em).2] at ha ⊢
  rw [(exported_pack hx h2 e2).2]
  have hl := (leaf_iff hx (inv_reached hx hm')).mpr ha
  obtain ⟨q1, q2⟩ := bound_binPacking hx hst ho h1 hm hex hbd hl
  refine ⟨(leaf_iff hx (inv_reached hx h2)).mp q1, ?_, fun hpos => ?_⟩
  · rw [numberOfBins_packing, numberOfBins_packing]
    exact_mod_cast q2
  · by_contra hlt
    have := (rank_cost hx hm' h2 hpos).mp (not_le.mp hlt)
    omega

/-- A node dropped because of a known solution leads to no solution with all items with a smaller
width (`OpenDimensionX`). -/
theorem bound_openDimensionX_partial (hb : InstanceBuilder.runOps ops = .ok inst)
    (hs : Scheme.new inst params sort = .ok s) (hf : params.fixedItems = none)
    (hc : CapacitiesNonneg inst) (hr : DefectsReach inst) (hd : CopiesDefinite inst)
    (hst : params.staircase = false) (hdir : params.direction = .x)
    (ho : inst.objective = .openDimensionX)
    (h1 : Reached s n1) (h2 : Reached s n2) (hm : Descends s n1 m)
    (hbd : bound s n1 n2 = .ok true) {sol2 solm : Solution}
    (e2 : toSolution s n2 = .ok sol2) (em : toSolution s m = .ok solm)
    (ha : AllPacked inst (packingOf solm)) :
    AllPacked inst (packingOf sol2)
      ∧ usedX inst (packingOf sol2) ≤ usedX inst (packingOf solm) := by
  have hx := ctx_of_new hb hs hf hc hr hd
  obtain ⟨-, e, ep, -⟩ := new_fields hs hf
  subst e ep
  have hm' := descends_reached h1 hm
  rw [(exported_pack hx hm' em).2] at ha ⊢
  rw [(exported_pack hx h2 e2).2]
  have hl := (leaf_iff hx (inv_reached hx hm')).mpr ha
  rw [← rank_x hx h2 hdir, ← rank_x hx hm' hdir]
  have hvm := inv_reached hx hm'
  have hv1 := inv_reached hx h1
  have hg := grows_descends hx h1 hm
  have hids := openDimension_ids hx (Or.inl ho)
  have hlen : s.binTypeIds.length = 1 := by rw [hids]; rfl
  have hnb : s.inst.numberOfBins = 1 := hx.sizes.openDimension (Or.inl ho)
  have hb1 := hv1.binsLe
  have hbm := hvm.binsLe
  have hgb := hg.bins
  have hxm : 0 ≤ m.xeMax := by
    by_cases h0 : m.numberOfBins = 0
    · rw [reached_zero hx hm' h0]; exact le_refl _
    · exact (hvm.cur (by omega)).xeMax.2.1
  have hx1 : n1.xeMax ≤ m.xeMax := by
    by_cases h0 : n1.numberOfBins = 0
    · rw [reached_zero hx h1 h0]; exact hxm
    · exact (hg.same (by omega) (by omega)).2.1
  have hid0 : s.binTypeIds.getD 0 0 = 0 := by rw [hids]; rfl
  have hy0 : 0 ≤ (s.inst.binType 0).y := by
    have h0 := hx.id_lt (k := 0) (by omega)
    rw [hid0] at h0
    exact le_of_lt ((hx.frame .x).binPos _ h0).2
  have hpre : s.previousBinsArea.getD 0 0 = 0 := by
    rw [hx.prev_eq (by omega)]; rfl
  have hw := waste_bound hx hst h1 hm hl (by omega) (m.xeMax * (s.inst.binType 0).y) (by
      unfold closedArea
      by_cases h0 : m.numberOfBins = 0
      · rw [if_pos h0]; exact mul_nonneg hxm hy0
      · rw [if_neg h0]
        obtain ⟨q, -⟩ := bin_sky_le hx hvm (by omega)
        rw [show m.numberOfBins - 1 = 0 by omega, hid0, (last_direction hvm h0).1 hdir] at q
        rw [show m.numberOfBins - 1 = 0 by omega, hpre]
        have : (s.instanceOf .x) = s.inst := rfl
        rw [this] at q
        omega) (by
      intro h0
      rw [show n1.numberOfBins - 1 = 0 by omega, hid0, hpre,
        (last_direction hv1 (by omega)).1 hdir, zero_add]
      exact mul_le_mul_of_nonneg_right hx1 hy0)
  unfold bound at hbd
  rw [ho] at hbd
  have key := Except.ok.inj hbd
  cases hl2 : leaf s n2
  · rw [hl2] at key; simp at key
  · rw [hl2] at key
    refine ⟨(leaf_iff hx (inv_reached hx h2)).mp hl2, ?_⟩
    have key : n2.xeMax ≤ max n1.xeMax
        ((n1.waste + s.inst.itemArea - 1).tdiv ((s.inst.binType 0).y + 1)) := by simpa using key
    refine le_trans key (max_le hx1 ?_)
    have hlt : (n1.waste + s.inst.itemArea - 1) ≤ m.xeMax * ((s.inst.binType 0).y + 1) := by
      rw [mul_add, mul_one]; omega
    have hmono := Int.tdiv_le_tdiv (c := (s.inst.binType 0).y + 1) (by omega) hlt
    rwa [Int.mul_tdiv_cancel _ (by omega)] at hmono

/-- A node dropped because of a known solution leads to no solution with all items that uses fewer
bins, or as many with a larger leftover in the last one (`BinPackingWithLeftovers`). -/
theorem bound_leftovers (hb : InstanceBuilder.runOps ops = .ok inst)
    (hs : Scheme.new inst params sort = .ok s) (hf : params.fixedItems = none)
    (hc : CapacitiesNonneg inst) (hr : DefectsReach inst) (hd : CopiesDefinite inst)
    (hdir : SuitsObjective params.direction inst)
    (ho : inst.objective = .binPackingWithLeftovers)
    (h1 : Reached s n1) (h2 : Reached s n2) (hm : Descends s n1 m)
    (hbd : bound s n1 n2 = .ok true) {sol2 solm : Solution}
    (e2 : toSolution s n2 = .ok sol2) (em : toSolution s m = .ok solm) :
    AllPacked inst (packingOf sol2) ∧ ¬ Better inst (packingOf sol2) (packingOf solm) := by
  have hx := ctx_of_new hb hs hf hc hr hd
  obtain ⟨-, e, ep, -⟩ := new_fields hs hf
  subst e ep
  have hm' := descends_reached h1 hm
  rw [(exported_pack hx hm' em).2, (exported_pack hx h2 e2).2]
  have hg := grows_descends hx h1 hm
  have hv1 := inv_reached hx h1
  have hvm := inv_reached hx hm'
  have hsuit := hdir.2.2 ho
  unfold Better
  rw [ho]
  dsimp only
  rw [← rank_remaining hx hm' hsuit, ← rank_remaining hx h2 hsuit, numberOfBins_packing,
    numberOfBins_packing]
  unfold bound at hbd
  rw [ho] at hbd
  have key := Except.ok.inj hbd
  cases hl2 : leaf s n2
  · rw [hl2] at key; simp at key
  refine ⟨(leaf_iff hx (inv_reached hx h2)).mp hl2, ?_⟩
  rw [hl2] at key
  have hgb := hg.bins
  have hlo : n1.numberOfBins = m.numberOfBins → m.leftoverValue ≤ n1.leftoverValue := by
    intro e
    by_cases h0 : n1.numberOfBins = 0
    · rw [reached_zero hx h1 h0, reached_zero hx hm' (by omega)]
    · obtain ⟨g1, g2, g3⟩ := hg.same e (by omega)
      rw [(bnd_reached hx h1 (by omega)).leftover, (bnd_reached hx hm' (by omega)).leftover, g1, ← e]
      have hp1 := (hv1.cur (by omega)).xeMax.2.1
      have hp2 := (bnd_reached hx h1 (by omega)).yeMax.2.1
      generalize s.instanceOf n1.lastBinDirection = J
      cases J.parameters.leftoverMode with
      | area =>
        dsimp only
        have : n1.xeMax * n1.yeMax ≤ m.xeMax * m.yeMax := mul_le_mul g2 g3 hp2 (by omega)
        exact sub_le_sub_left this _
      | x => exact sub_le_sub_left g2 _
      | y => exact sub_le_sub_left g2 _
  simp only [Bool.not_true, Bool.false_eq_true, if_false] at key
  by_cases q1 : n1.numberOfBins > n2.numberOfBins
  · omega
  rw [if_neg q1] at key
  by_cases q2 : n1.numberOfBins < n2.numberOfBins
  · rw [if_pos q2] at key; cases key
  rw [if_neg q2] at key
  have key : n1.leftoverValue ≤ n2.leftoverValue := by simpa using key
  intro h
  rcases h with h | ⟨h, h'⟩
  · omega
  · have := hlo (by omega)
    omega

/-- A node dropped because of a known solution leads to no solution with a higher profit
(`Knapsack`, `Feasibility`), when no profit is negative and no resource is penalized. -/
theorem bound_knapsack_partial (hb : InstanceBuilder.runOps ops = .ok inst)
    (hs : Scheme.new inst params sort = .ok s) (hf : params.fixedItems = none)
    (hc : CapacitiesNonneg inst) (hr : DefectsReach inst) (hd : CopiesDefinite inst)
    (ho : inst.objective = .knapsack ∨ inst.objective = .feasibility)
    (hpos : ∀ t ∈ inst.itemTypes, 0 ≤ t.profit)
    (hpen : ∀ b ∈ inst.binTypes, ∀ r ∈ b.resources, r.penalize = false)
    (h1 : Reached s n1) (h2 : Reached s n2) (hm : Descends s n1 m)
    (hbd : bound s n1 n2 = .ok true) {sol2 solm : Solution}
    (e2 : toSolution s n2 = .ok sol2) (em : toSolution s m = .ok solm) :
    AllPacked inst (packingOf sol2)
      ∧ reportedProfit inst (packingOf solm) ≤ reportedProfit inst (packingOf sol2) := by
  have hx := ctx_of_new hb hs hf hc hr hd
  obtain ⟨-, e, ep, -⟩ := new_fields hs hf
  subst e ep
  have hm' := descends_reached h1 hm
  rw [(exported_pack hx hm' em).2, (exported_pack hx h2 e2).2]
  have hl : leaf s n2 = true := by
    unfold bound at hbd
    rcases ho with e | e <;> rw [e] at hbd <;> exact Except.ok.inj hbd
  exact ⟨(leaf_iff hx (inv_reached hx h2)).mp hl, leaf_profit hx h2 hm' hl hpen hpos⟩

/-! ## C61: the dominance test -/

theorem top_ye {l : List UncoveredItem} {y : Int} (h : Tiles 0 l y) (h0 : 0 < y) :
    (l.reverse.headD default).ye = y ∧ (l.reverse.headD default).ys < y := by
  have d := down_of_tiles l [] 0 y rfl h
  rw [List.append_nil] at d
  generalize l.reverse = k at d ⊢
  cases k with
  | nil => have : y = 0 := d; omega
  | cons u r => obtain ⟨e, h1, -⟩ := d; exact ⟨e, by rw [← e]; exact h1⟩

/-- Comparing two nodes for dominance raises no error once they have a bin.  Among nodes with the
same number of bins, opened in the same direction, the first dominates the second exactly when it
has consumed no more of any resource in its last bin and its skyline is nowhere to the right of the
other one (the part of the skyline too narrow for an item being raised, except at the top). -/
theorem dominates_iff_partial (hb : InstanceBuilder.runOps ops = .ok inst)
    (hs : Scheme.new inst params sort = .ok s) (hf : params.fixedItems = none)
    (hc : CapacitiesNonneg inst) (hr : DefectsReach inst) (hd : CopiesDefinite inst)
    (hst : params.staircase = false)
    (ho : inst.objective ≠ .sequentialOneDimensionalRectangleSubproblem)
    (h1 : Reached s n1) (h2 : Reached s n2) (h0 : n1.numberOfBins ≠ 0)
    (hdir : n1.lastBinDirection = n2.lastBinDirection) :
    ∃ r, dominates s n1 n2 = .ok r ∧ (r = true ↔ n1.numberOfBins < n2.numberOfBins
      ∨ n1.numberOfBins = n2.numberOfBins
        ∧ (∀ k, k < n1.lastBinResourceConsumption.length →
          n1.lastBinResourceConsumption.getD k 0 ≤ n2.lastBinResourceConsumption.getD k 0)
        ∧ LeftOf (frontier n1.uncoveredItems.reverse (n1.uncoveredItems.reverse.headD default).xe)
          (frontier n2.uncoveredItems.reverse
            (n2.uncoveredItems.reverse.headD default).xeDominance)) := by
  have hx := ctx_of_new hb hs hf hc hr hd
  obtain ⟨-, e, ep, -⟩ := new_fields hs hf
  subst e ep
  unfold dominates
  rw [if_neg (by rintro ⟨h, -⟩; exact ho h), if_neg (by rintro ⟨h, -⟩; exact ho h)]
  by_cases q1 : n1.numberOfBins < n2.numberOfBins
  · rw [if_pos q1]; exact ⟨true, rfl, by simp [q1]⟩
  rw [if_neg q1]
  by_cases q2 : n1.numberOfBins > n2.numberOfBins
  · rw [if_pos q2]
    refine ⟨false, rfl, by simp, ?_⟩
    rintro (h | ⟨h, -⟩) <;> omega
  rw [if_neg q2]
  have e : n1.numberOfBins = n2.numberOfBins := by omega
  by_cases q3 : ((List.range n1.lastBinResourceConsumption.length).any (fun r =>
      decide (n1.lastBinResourceConsumption.getD r 0 > n2.lastBinResourceConsumption.getD r 0)))
      = true
  · rw [if_pos q3]
    refine ⟨false, rfl, by simp, ?_⟩
    rintro (h | ⟨-, h, -⟩)
    · omega
    · obtain ⟨k, hk, hgt⟩ := List.any_eq_true.mp q3
      have := h k (List.mem_range.mp hk)
      exact absurd (of_decide_eq_true hgt) (not_lt.mpr this)
  rw [if_neg q3]
  have hv1 := inv_reached hx h1
  have hv2 := inv_reached hx h2
  have hle := hv1.binsLe
  have hid := hx.id_lt (k := n1.numberOfBins - 1) (by omega)
  have hpos := ((hx.frame n1.lastBinDirection).binPos _ hid).2
  have t1 := (hv1.cur (by omega)).sky.tiles
  have t2 := (hv2.cur (by omega)).sky.tiles
  rw [← hdir, ← e] at t2
  have y1 := top_ye t1 hpos
  have y2 := top_ye t2 hpos
  obtain ⟨r, hr1, hr2⟩ := dominates_skylines t1 t2 hpos hpos
    ⟨by rw [y2.1]; exact y1.2, by rw [y1.1]; exact y2.2⟩
  rw [hst]
  dsimp only
  rw [hr1]
  refine ⟨r, rfl, hr2.trans ⟨fun h => Or.inr ⟨e, ?_, h⟩, ?_⟩⟩
  · intro k hk
    by_contra hgt
    exact q3 (List.any_eq_true.mpr ⟨k, List.mem_range.mpr hk, decide_eq_true (not_le.mp hgt)⟩)
  · rintro (h | ⟨-, -, h⟩)
    · omega
    · exact h

end PackingSolver.Rect.TreeSearch
