import Verif.Lemmas.Box.TreeTotals
import Verif.Props.Box.Solution

/-!
# Box tree search (C96–C98)

The theorems hold for every node a search can reach, whatever the order in which the external
tree search expands the nodes and whichever nodes it drops.
-/

namespace PackingSolver.Box.TreeSearch

open Box.Spec FlipLemmas
open PackingSolver.OneDim (getD_mem)
open PackingSolver.OneDim.Examples (okD)

variable {o o' : Objective} {ops : List InstanceBuilder.Op} {inst : Instance} {params : Parameters}
  {s : Scheme} {n : Node}

theorem packing_valid (hc : Ctx s) (h : Inv s n) : ∀ b ∈ packing s n.steps n.numberOfBins,
    b.copies = 1 ∧ BinValid s.inst b.binTypeId b.items
    ∧ (s.parameters.direction = .x → ResourcesRespected s.inst b.binTypeId b.items) := by
  have hdir : s.parameters.direction = .x → ∀ st ∈ n.steps, st.direction = .x := by
    intro hx st hst
    obtain ⟨pos, hp⟩ := h.dirOf st hst
    rw [hp]
    unfold newBinOf
    rw [hx]
    rfl
  intro b hb
  obtain ⟨k, hk, rfl⟩ := List.mem_map.mp hb
  have hk := List.mem_range.mp hk
  refine ⟨rfl, ?_⟩
  have hle := h.binsLe
  by_cases hl : k + 1 < n.numberOfBins
  · obtain ⟨h1, h2⟩ := h.prev k hl
    exact ⟨h1, fun hx => h2 fun st hst => hdir hx st (List.mem_of_mem_filter hst)⟩
  · have hk1 : n.numberOfBins - 1 = k := by omega
    have hcur := h.cur (by omega)
    have := frame_export (hc.frame h.dirNe) (hc.id_lt (k := n.numberOfBins - 1) (by omega)) hcur
    rw [hk1] at this
    dsimp only
    rw [inBin_place (d := n.lastBinDirection)]
    · refine ⟨this.1, fun hx => this.2 ?_⟩
      obtain ⟨st, hst⟩ := List.exists_mem_of_ne_nil _ (h.curNe (by omega))
      have hst' := List.mem_filter.mp hst
      have e : st.numberOfBins = n.numberOfBins := by
        have : st.numberOfBins = n.numberOfBins - 1 + 1 := by simpa using hst'.2
        omega
      rw [← h.dirs st hst'.1 e]
      exact hdir hx st hst'.1
    · intro st hst e
      exact h.dirs st hst (by omega)

/-! ## C96: what the search exports is a valid packing -/

/-- **C96**: every node a search reaches can be turned into a solution.  The solution has been
obtained with the public operations; each of its bins holds items that exist, have an allowed
rotation, lie in the bin, do not overlap and respect the maximum weight; it uses no more copies of an
item type or of a bin type than there are; and its bins are taken in the order of the instance, or by
increasing volume for the knapsack objective.  If the bins are filled along x, the hard resources are
respected too.  Missing: the resources in the other directions (see `resource_exceeded`). -/
theorem exported_valid_partial (hb : InstanceBuilder.runOps o ops = .ok inst)
    (hs : Scheme.new o' inst params = .ok s) (hc : CapacitiesNonneg inst) (hd : CopiesDefinite inst)
    (hn : Reached s n) :
    ∃ sol, toSolution s n = .ok sol ∧ Reachable inst sol
      ∧ (∀ b ∈ packingOf sol, b.copies = 1 ∧ BinValid inst b.binTypeId b.items)
      ∧ (params.direction = .x ∨ NoResources inst →
        ∀ b ∈ packingOf sol, ResourcesRespected inst b.binTypeId b.items)
      ∧ (∀ i, i < inst.numberOfItemTypes →
        itemCopies (packingOf sol) i ≤ (inst.itemType i).copies)
      ∧ (∀ t, t < inst.numberOfBinTypes →
        binCopies (packingOf sol) t ≤ (inst.binType t).copies)
      ∧ (packingOf sol).map (·.binTypeId) <+: ((if inst.objective = .knapsack then
            (List.range inst.numberOfBinTypes).insertionSort
              (fun a b => (inst.binType a).volume ≤ (inst.binType b).volume)
          else List.range inst.numberOfBinTypes).flatMap fun b =>
            List.replicate (inst.binType b).copies.toNat b) := by
  have hx := ctx_of_new hb hs hc hd
  have hv := inv_reached hx hn
  obtain ⟨-, -, e, e2, -⟩ := new_fields hs
  subst e e2
  obtain ⟨sol, h1, h2, h3, -⟩ := toSolution_ok hx hv
  refine ⟨sol, h1, h2, ?_, ?_, ?_, ?_, ?_⟩ <;> rw [h3]
  · intro b hb
    exact ⟨(packing_valid hx hv b hb).1, (packing_valid hx hv b hb).2.1⟩
  · intro hor b hb
    rcases hor with hdir | hno
    · exact (packing_valid hx hv b hb).2.2 hdir
    · obtain ⟨k, hk, rfl⟩ := List.mem_map.mp hb
      have hk := List.mem_range.mp hk
      have hle := hv.binsLe
      intro r hr
      have : (s.inst.binType (s.binTypeIds.getD k 0)).resources = [] :=
        hno _ (getD_mem default (hx.id_lt (k := k) (by omega)))
      dsimp only at hr
      rw [this] at hr
      cases hr
  · intro i hi
    rw [itemCopies_packing hv, ← (hv.copies i hi).1]
    exact (hv.copies i hi).2
  · intro t ht
    rw [binCopies_packing _ hv.binsLe]
    have h1 : (s.binTypeIds.take n.numberOfBins).count t ≤ s.binTypeIds.count t :=
      (List.take_sublist _ _).count_le _
    rw [hx.ids, count_ids _ ht] at h1
    have h2 : 0 ≤ (s.inst.binType t).copies := by
      rcases (hx.sizes.bins _ (getD_mem default ht)).2 with h | h
      · exact le_of_lt h
      · rw [show (s.inst.binType t).copies = s.inst.numberOfItems from h]
        rw [hx.agg.numberOfItems]
        apply List.sum_nonneg
        rw [List.forall_mem_map]
        intro u hu
        obtain ⟨j, hj, rfl⟩ := List.mem_iff_getElem.mp hu
        have := hx.copies j hj
        rw [show s.inst.itemType j = s.inst.itemTypes[j] from List.getD_eq_getElem _ _ hj] at this
        exact le_of_lt this
    rw [hx.ids]
    omega
  · rw [binTypes_packing _ hv.binsLe, hx.ids]
    exact List.take_prefix _ _

/-! ## C97: the search raises no error -/

theorem insertions_total (hc : Ctx s) (h : Inv s n) : ∃ l, insertions s n = .ok l := by
  have hnew : ∀ ps : List Nat, (∀ p ∈ ps, p < s.binTypeIds.length) →
      ∃ l, newBinInsertions s n ps = .ok l := by
    intro ps
    induction ps with
    | nil => intro _; exact ⟨[], rfl⟩
    | cons p ps ih =>
      intro hp
      obtain ⟨l, hl⟩ := ih fun q hq => hp q (List.mem_cons_of_mem _ hq)
      have := hp p List.mem_cons_self
      unfold newBinInsertions
      rw [if_neg (by omega)]
      dsimp only
      by_cases e : (newBinInsertionsAt s n p).isEmpty = true
      · rw [if_pos e]; exact ⟨l, hl⟩
      · rw [if_neg e]; exact ⟨_, rfl⟩
  have hle := h.binsLe
  unfold insertions
  rw [if_neg (fun e => h.dirNe e.2), if_neg (by omega)]
  dsimp only
  by_cases e : (if n.numberOfBins > 0 then currentBinInsertions s n else []).isEmpty = true
  · rw [if_pos e]
    apply hnew
    intro p hp
    have := (List.mem_range'_1.mp hp).2
    rw [hc.numberOfBins] at this
    omega
  · rw [if_neg e]
    exact ⟨_, rfl⟩

/-- **C97**: in every node a search reaches, listing the insertions raises no error, every insertion
listed yields a child, and the node can be exported: no exception and no read out of range.
Missing: the constructor and the comparison of nodes, which throw for some instances (see
`openDimensionZ_throws` and `constructor_throws`). -/
theorem search_total_partial (hb : InstanceBuilder.runOps o ops = .ok inst)
    (hs : Scheme.new o' inst params = .ok s) (hc : CapacitiesNonneg inst) (hd : CopiesDefinite inst)
    (hn : Reached s n) :
    ∃ l, insertions s n = .ok l ∧ (∀ i ∈ l, ∃ n', child s n i = .ok n' ∧ Reached s n')
      ∧ ∃ sol, toSolution s n = .ok sol := by
  have hx := ctx_of_new hb hs hc hd
  have hv := inv_reached hx hn
  obtain ⟨l, hl⟩ := insertions_total hx hv
  refine ⟨l, hl, fun i hi => ?_, ?_⟩
  · obtain ⟨n', h'⟩ := step_accepts (offer_of_mem hv.tiles hl hi)
    exact ⟨n', h', .child hn hl hi h'⟩
  · obtain ⟨sol, h1, -⟩ := toSolution_ok hx hv
    exact ⟨sol, h1⟩

/-- **C97**: the search never goes on for ever: along a path of the tree, the number of items packed
increases by one at each node and never exceeds the number of items of the instance. -/
theorem search_depth (hb : InstanceBuilder.runOps o ops = .ok inst)
    (hs : Scheme.new o' inst params = .ok s) (hc : CapacitiesNonneg inst) (hd : CopiesDefinite inst)
    (hn : Reached s n) : n.numberOfItems = n.steps.length ∧ n.numberOfItems ≤ inst.numberOfItems := by
  have hx := ctx_of_new hb hs hc hd
  have hv := inv_reached hx hn
  obtain ⟨-, -, e, e2, -⟩ := new_fields hs
  subst e
  refine ⟨hv.numberOfItems, ?_⟩
  have hids : ∀ p ∈ n.steps.map Step.frame, p.itemTypeId < s.inst.numberOfItemTypes := by
    intro p hp
    obtain ⟨st, hst, rfl⟩ := List.mem_map.mp hp
    exact hv.items st hst
  have h1 := sum_counts (n.steps.map Step.frame) s.inst.numberOfItemTypes hids
  have h2 := sum_copies s.inst
  rw [hv.numberOfItems, hx.agg.numberOfItems, h2]
  rw [List.length_map] at h1
  rw [← h1]
  apply Finset.sum_le_sum
  intro i hi
  rw [← (hv.copies i (Finset.mem_range.mp hi)).1]
  exact (hv.copies i (Finset.mem_range.mp hi)).2

/-! ## C98: the values of a node -/

/-- The end of the items of the last bin of a solution along a direction. -/
def endAlong (sol : Solution) : Direction → Int
  | .y => sol.yMax
  | .z => sol.zMax
  | _ => sol.xMax

/-- The end of an item along a direction. -/
def itemEndAlong : Direction → Instance → PlacedItem → Int
  | .y => rearEnd
  | .z => topEnd
  | _ => rightEnd

theorem rightEnd_frame {d : Direction} {I J : Instance} (h : FrameOk d I J) {p : PlacedItem}
    (hp : p.itemTypeId < I.numberOfItemTypes) :
    rightEnd J p = itemEndAlong d I (flipPlaced d p) := by
  have := frame_occupies h hp
  cases d <;> (dsimp only [itemEndAlong, rightEnd, rearEnd, topEnd]; rw [this]; rfl)

/-- **C98**: the values a search compares nodes by are those of the solution the node is exported to:
the numbers of items and of bins, the volume and the weight of the items, the end of the items of the
last bin along its direction and, if the bins are filled along x or there are no resources, the profit.
A node is a leaf when its solution contains all items.  Missing: the profit in the other directions
(see `penalties_forgotten`). -/
theorem node_values_partial (hb : InstanceBuilder.runOps o ops = .ok inst)
    (hs : Scheme.new o' inst params = .ok s) (hc : CapacitiesNonneg inst) (hd : CopiesDefinite inst)
    (hn : Reached s n) {sol : Solution} (h : toSolution s n = .ok sol) :
    n.numberOfItems = sol.numberOfItems ∧ (n.numberOfBins : Int) = sol.numberOfBins
      ∧ n.itemVolume = sol.itemVolume ∧ n.itemWeight = sol.itemWeight
      ∧ (ConsumptionsNonneg inst → params.direction = .x → n.profit = sol.itemProfit)
      ∧ (NoResources inst → n.profit = sol.itemProfit)
      ∧ (n.numberOfBins ≠ 0 → n.xeMax = endAlong sol n.lastBinDirection)
      ∧ (leaf s n = true ↔ ∀ i, i < inst.numberOfItemTypes →
        sol.itemCopies[i]? = some (inst.itemType i).copies) := by
  have hx := ctx_of_new hb hs hc hd
  have hv := inv_reached hx hn
  have ht := totals_reached hx hn
  obtain ⟨-, -, e, e2, -⟩ := new_fields hs
  subst e e2
  obtain ⟨sol', h1, h2, h3, bops, h4⟩ := toSolution_ok hx hv
  rw [h1] at h
  cases h
  obtain ⟨i1, i2, -, -, i4, i5, -, -, i8⟩ := indicators_exact h2
  rw [h3] at i1 i2 i4 i5
  refine ⟨?_, ?_, ?_, ?_, ?_, ?_, ?_, ?_⟩
  · rw [i2, numberOfItems_packing hv]
  · rw [i1, numberOfBins_packing]
  · rw [i4, itemVolume_packing hv, ht.volume]
  · rw [i5, itemWeight_packing hv, ht.weight]
  · intro hnn hdir
    rw [profit_exact h2 hx.agg.resourceIds hc hnn, h3, ht.profit hnn]
    intro st hst
    obtain ⟨pos, hp⟩ := hv.dirOf st hst
    rw [hp]
    unfold newBinOf
    rw [hdir]
    rfl
  · intro hno
    rw [profit_exact h2 hx.agg.resourceIds hc (no_resources_nonneg hno).2, h3, ht.plain hno]
  · intro h0
    obtain ⟨K, hK⟩ : ∃ K, n.numberOfBins = K + 1 := ⟨n.numberOfBins - 1, by omega⟩
    have hcur := (hv.cur (by omega)).xeMax
    have hext := extents_exact_partial h2
    have hzm := zMax_exact_partial h2 (.inl ⟨bops, h4⟩)
    have hm : ∀ st ∈ n.steps, st.numberOfBins = K + 1 → st.direction = n.lastBinDirection :=
      fun st hst hb => hv.dirs st hst (by omega)
    have hxm := hext.1
    have hym := hext.2.1
    rw [h3, hK, packing_split, lastItems_snoc, inBin_place hm] at hxm hym hzm
    rw [hK, Nat.add_sub_cancel] at hcur
    have hfr := hx.frame hv.dirNe
    have hids : ∀ st ∈ inBin n.steps K, (Step.frame st).itemTypeId < s.inst.numberOfItemTypes :=
      fun st hst => hv.items st (List.mem_of_mem_filter hst)
    have e : ((inBin n.steps K).map Step.frame).map (rightEnd (s.instanceOf n.lastBinDirection))
        = (((inBin n.steps K).map Step.frame).map (flipPlaced n.lastBinDirection)).map
          (itemEndAlong n.lastBinDirection s.inst) := by
      rw [List.map_map, List.map_map, List.map_map]
      apply List.map_congr_left
      intro st hst
      exact rightEnd_frame hfr (hids st hst)
    rw [e] at hcur
    cases hdir : n.lastBinDirection with
    | x => rw [hdir] at hcur hxm; exact Rect.isMaxWithZero_unique hcur hxm
    | y => rw [hdir] at hcur hym; exact Rect.isMaxWithZero_unique hcur hym
    | z => rw [hdir] at hcur hzm; exact Rect.isMaxWithZero_unique hcur hzm
    | any => exact absurd hdir hv.dirNe
  · rw [leaf_iff hx hv]
    refine forall_congr' fun i => forall_congr' fun hi => ?_
    rw [i8 i hi, h3, Option.some_inj]

end PackingSolver.Box.TreeSearch
