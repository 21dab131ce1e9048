import Verif.Lemmas.Rect.TreeTotals
import Verif.Lemmas.Rect.Run
import Verif.Props.Rect.Solution
import Verif.Model.Rect.TreeSearchRun

/-!
# Rectangle tree search (C55–C58)

The theorems hold for every node a search can reach, whatever the order in which the external
tree search expands the nodes and whichever nodes it drops.
-/

namespace PackingSolver.Rect.TreeSearch

open Rect.Spec FlipLemmas
open PackingSolver.OneDim (getD_mem)
open PackingSolver.OneDim.Examples (okD)

variable {ops : List InstanceBuilder.Op} {inst : Instance} {params : Parameters}
  {sort : List PlacedItem → List PlacedItem} {s : Scheme} {n : Node}

theorem packing_valid (hc : Ctx s) (h : Inv s n) : ∀ b ∈ packing s n.steps n.numberOfBins,
    b.copies = 1 ∧ BinValid s.inst b.binTypeId b.items ∧ UnloadingSpec s.inst b.binTypeId b.items := by
  intro b hb
  obtain ⟨k, hk, rfl⟩ := List.mem_map.mp hb
  have hk := List.mem_range.mp hk
  refine ⟨rfl, ?_⟩
  have hle := h.binsLe
  by_cases hl : k + 1 < n.numberOfBins
  · exact h.prev k hl
  · have hk1 : n.numberOfBins - 1 = k := by omega
    have hcur := h.cur (by omega)
    have := hc.export _ (hc.id_lt (k := n.numberOfBins - 1) (by omega)) hcur
    rw [hk1] at this
    dsimp only
    rw [inBin_place (d := n.lastBinDirection)]
    · exact this
    · intro st hst e
      exact h.dirs st hst (by omega)

/-! ## C55: what the search exports is a valid packing -/

/-- Every node a search reaches can be turned into a solution.  The solution has been obtained with
the public operations; each of its bins holds items that exist, are rotated only if allowed, lie in
the bin, overlap neither one another nor a defect, and respect the maximum weight and the hard
resources; it uses no more copies of an item type or of a bin type than there are; and its bins are
taken in the order of the instance, or by increasing area for the knapsack objective. -/
theorem exported_valid_partial (hb : InstanceBuilder.runOps ops = .ok inst)
    (hs : Scheme.new inst params sort = .ok s) (hf : params.fixedItems = none)
    (hc : CapacitiesNonneg inst) (hr : DefectsReach inst) (hd : CopiesDefinite inst)
    (hn : Reached s n) :
    ∃ sol, toSolution s n = .ok sol ∧ Reachable inst sol
      ∧ (∀ b ∈ packingOf sol, b.copies = 1 ∧ BinValid inst b.binTypeId b.items)
      ∧ (∀ i, i < inst.numberOfItemTypes →
        itemCopies (packingOf sol) i ≤ (inst.itemType i).copies)
      ∧ (∀ t, t < inst.numberOfBinTypes →
        binCopies (packingOf sol) t ≤ (inst.binType t).copies)
      ∧ (packingOf sol).map (·.binTypeId) <+: ((if inst.objective = .knapsack then
            (List.range inst.numberOfBinTypes).insertionSort
              (fun a b => (inst.binType a).area ≤ (inst.binType b).area)
          else List.range inst.numberOfBinTypes).flatMap fun b =>
            List.replicate (inst.binType b).copies.toNat b) := by
  have hx := ctx_of_new hb hs hf hc hr hd
  have hv := inv_reached hx hn
  obtain ⟨-, e, -⟩ := new_fields hs hf
  subst e
  obtain ⟨sol, h1, h2, h3⟩ := toSolution_ok hx hv
  refine ⟨sol, h1, h2, ?_, ?_, ?_, ?_⟩ <;> rw [h3]
  · intro b hb
    exact ⟨(packing_valid hx hv b hb).1, (packing_valid hx hv b hb).2.1⟩
  · intro i hi
    rw [itemCopies_packing hv, ← (hv.copies i hi).1]
    exact (hv.copies i hi).2
  · intro t ht
    rw [binCopies_packing _ hv.binsLe]
    have h1 : (s.binTypeIds.take n.numberOfBins).count t ≤ s.binTypeIds.count t :=
      (List.take_sublist _ _).count_le _
    rw [hx.ids, count_ids _ ht] at h1
    have h2 : 0 ≤ (s.inst.binType t).copies := by
      rcases (hx.sizes.bins _ (getD_mem default ht)).2 with h | h
      · exact le_of_lt h
      · rw [show (s.inst.binType t).copies = s.inst.numberOfItems from h]
        rw [hx.agg.numberOfItems]
        apply List.sum_nonneg
        rw [List.forall_mem_map]
        intro u hu
        obtain ⟨j, hj, rfl⟩ := List.mem_iff_getElem.mp hu
        have := hx.copies j hj
        rw [show s.inst.itemType j = s.inst.itemTypes[j] from List.getD_eq_getElem _ _ hj] at this
        exact le_of_lt this
    rw [hx.ids]
    omega
  · rw [binTypes_packing _ hv.binsLe, hx.ids]
    exact List.take_prefix _ _

/-- When new bins are only opened in direction X, every item is eligible for the bin it is in. -/
theorem exported_eligible_partial (hb : InstanceBuilder.runOps ops = .ok inst)
    (hs : Scheme.new inst params sort = .ok s) (hf : params.fixedItems = none)
    (hc : CapacitiesNonneg inst) (hr : DefectsReach inst) (hd : CopiesDefinite inst)
    (hx : params.direction = .x) (hn : Reached s n) {sol : Solution}
    (h : toSolution s n = .ok sol) :
    ∀ b ∈ packingOf sol, ∀ p ∈ b.items, EligibleIn inst p.itemTypeId b.binTypeId := by
  have hx' := ctx_of_new hb hs hf hc hr hd
  have hv := inv_reached hx' hn
  obtain ⟨-, e, e2, -⟩ := new_fields hs hf
  subst e
  obtain ⟨sol', h1, -, h3⟩ := toSolution_ok hx' hv
  rw [h1] at h
  cases h
  rw [h3]
  intro b hb p hp
  obtain ⟨k, -, rfl⟩ := List.mem_map.mp hb
  obtain ⟨st, hst, rfl⟩ := List.mem_map.mp hp
  have hst := List.mem_filter.mp hst
  have hk : st.numberOfBins = k + 1 := by simpa using hst.2
  obtain ⟨pos, hpos⟩ := hv.dirOf st hst.1
  have : newBinOf s pos = 1 := by unfold newBinOf; rw [e2, hx]
  rw [this] at hpos
  have := hv.eligible st hst.1 hpos
  rw [hk] at this
  rw [place_id]
  exact this

/-! ## C56: the unloading constraint -/

/-- In every bin of an exported solution the items respect the unloading constraint of the
instance; for the two `Increasing` constraints, in the bins without defects. -/
theorem exported_unloading_partial (hb : InstanceBuilder.runOps ops = .ok inst)
    (hs : Scheme.new inst params sort = .ok s) (hf : params.fixedItems = none)
    (hc : CapacitiesNonneg inst) (hr : DefectsReach inst) (hd : CopiesDefinite inst)
    (hn : Reached s n) {sol : Solution} (h : toSolution s n = .ok sol) :
    ∀ b ∈ packingOf sol,
      (inst.parameters.unloadingConstraint = .increasingX
        ∨ inst.parameters.unloadingConstraint = .increasingY →
        (inst.binType b.binTypeId).defects = []) →
      UnloadingOk inst.parameters.unloadingConstraint inst b.items := by
  have hx := ctx_of_new hb hs hf hc hr hd
  have hv := inv_reached hx hn
  obtain ⟨-, e, -⟩ := new_fields hs hf
  subst e
  obtain ⟨sol', h1, -, h3⟩ := toSolution_ok hx hv
  rw [h1] at h
  cases h
  rw [h3]
  exact fun b hb => (packing_valid hx hv b hb).2.2

/-! ## C57: the search raises no error -/

/-- The unloading constraints a direction copes with. -/
def Compatible (d : Direction) (c : UnloadingConstraint) : Prop :=
  c = .none ∨ (d = .x ∧ (c = .onlyXMovements ∨ c = .increasingX))
    ∨ (d = .y ∧ (c = .onlyYMovements ∨ c = .increasingY))

theorem supported_of_compatible (hc : Ctx s) (pos : Nat)
    (hu : Compatible s.parameters.direction s.inst.parameters.unloadingConstraint) :
    Supported (s.instanceOf (Scheme.newBinDirection (newBinOf s pos))).parameters.unloadingConstraint := by
  rcases hu with h | ⟨h, h2⟩ | ⟨h, h2⟩
  · unfold Scheme.instanceOf
    split_ifs
    · exact Or.inl h
    · rw [hc.flipped.unloading, h]; exact Or.inl rfl
  · have : newBinOf s pos = 1 := by unfold newBinOf; rw [h]
    rw [this]
    exact Or.inr h2
  · have : newBinOf s pos = 2 := by unfold newBinOf; rw [h]
    rw [this]
    change Supported s.flipped.parameters.unloadingConstraint
    rw [hc.flipped.unloading]
    rcases h2 with h2 | h2 <;> rw [h2]
    · exact Or.inr (Or.inl rfl)
    · exact Or.inr (Or.inr rfl)

theorem insertions_total (hc : Ctx s) (h : Inv s n)
    (hu : Compatible s.parameters.direction s.inst.parameters.unloadingConstraint) :
    ∃ l, insertions s n = .ok l := by
  obtain ⟨f, hf⟩ := runAttempts_total (s := s) (n := n) (l := currentBinAttempts s n) (by
    intro a ha
    obtain ⟨h0, item, r, up, d, rfl, -⟩ := mem_currentBinAttempts hc.fixed ha
    refine insertionItem_total ?_
    obtain ⟨l, st, hl⟩ : ∃ l st, n.steps = l ++ [st] := by
      rcases List.eq_nil_or_concat n.steps with e | ⟨l, st, e⟩
      · have := h.none e; omega
      · exact ⟨l, st, by simpa using e⟩
    have hm : st ∈ n.steps := by rw [hl]; simp
    obtain ⟨pos, hp⟩ := h.dirOf st hm
    have := h.dirs st hm (h.last l st hl)
    change Supported (s.instanceOf n.lastBinDirection).parameters.unloadingConstraint
    rw [← this, hp]
    exact supported_of_compatible hc pos hu)
  have hnew : ∀ ps, ∃ l, newBinInsertions s n ps = .ok l := by
    intro ps
    induction ps with
    | nil => exact ⟨[], rfl⟩
    | cons p ps ih =>
      obtain ⟨f, hf⟩ := runAttempts_total (s := s) (n := n) (l := newBinAttempts s n p) (by
        intro a ha
        obtain ⟨item, r, up, d, rfl, -⟩ := mem_newBinAttempts ha
        refine insertionItem_total ?_
        have h0 : newBinOf s p ≠ 0 := by rcases newBinOf_cases s p with e | e <;> rw [e] <;> simp
        have : tryDir n (newBinOf s p) = Scheme.newBinDirection (newBinOf s p) := by
          unfold tryDir; rw [if_neg h0]
        rw [this]
        exact supported_of_compatible hc p hu)
      unfold newBinInsertions
      rw [hf]
      by_cases e : f.isEmpty
      · obtain ⟨l, hl⟩ := ih
        exact ⟨l, by simpa [bind, Except.bind, e] using hl⟩
      · exact ⟨f, by simp [bind, Except.bind, e]⟩
  unfold insertions
  rw [hf]
  by_cases e : f.isEmpty
  · obtain ⟨l, hl⟩ := hnew (List.range' n.numberOfBins (s.inst.numberOfBins - n.numberOfBins))
    exact ⟨l, by simpa [bind, Except.bind, e] using hl⟩
  · exact ⟨f, by simp [bind, Except.bind, e]⟩

/-- In every node a search reaches, listing the insertions raises no error, every insertion listed
yields a child, and the node can be exported: no exception, no read out of range, no negative
waste.  Missing: an unloading constraint along the other axis (see `openDimension_throws`). -/
theorem search_total_partial (hb : InstanceBuilder.runOps ops = .ok inst)
    (hs : Scheme.new inst params sort = .ok s) (hf : params.fixedItems = none)
    (hc : CapacitiesNonneg inst) (hr : DefectsReach inst) (hd : CopiesDefinite inst)
    (hu : Compatible params.direction inst.parameters.unloadingConstraint)
    (hn : Reached s n) :
    ∃ l, insertions s n = .ok l ∧ (∀ i ∈ l, ∃ n', child s n i = .ok n' ∧ Reached s n')
      ∧ ∃ sol, toSolution s n = .ok sol := by
  have hx := ctx_of_new hb hs hf hc hr hd
  have hv := inv_reached hx hn
  obtain ⟨-, e, e2, -⟩ := new_fields hs hf
  subst e e2
  obtain ⟨l, hl⟩ := insertions_total hx hv hu
  refine ⟨l, hl, fun i hi => ?_, ?_⟩
  · obtain ⟨n', h'⟩ := step_accepts hx (offer_of_mem hx hv.binsLe hv.tiles hl hi) hv
    exact ⟨n', h', .child hn hl hi h'⟩
  · obtain ⟨sol, h1, -⟩ := toSolution_ok hx hv
    exact ⟨sol, h1⟩

/-- The directions `tree_search` chooses cope with the unloading constraint, unless the objective
already imposes the other axis. -/
theorem directions_compatible_partial (inst : Instance)
    (h : inst.objective ≠ .openDimensionX ∧ inst.objective ≠ .openDimensionY
      ∧ (inst.objective = .binPackingWithLeftovers → inst.parameters.leftoverMode = .area)) :
    ∀ d ∈ directions inst, Compatible d inst.parameters.unloadingConstraint := by
  intro d hd
  unfold directions at hd
  rw [if_neg h.1, if_neg h.2.1, if_neg (by rintro ⟨h1, h2⟩; rw [h.2.2 h1] at h2; cases h2),
    if_neg (by rintro ⟨h1, h2⟩; rw [h.2.2 h1] at h2; cases h2)] at hd
  unfold Compatible
  cases hu : inst.parameters.unloadingConstraint <;> simp [hu] at hd ⊢ <;> simp [hd]

/-! ## C58: the values of a node -/

/-- The values a search compares nodes by are those of the solution the node is exported to: the
numbers of items and of bins, the area and the weight of the items, the profit, and the end of the
items of the last bin along its direction.  A node is a leaf when its solution contains all items. -/
theorem node_values (hb : InstanceBuilder.runOps ops = .ok inst)
    (hs : Scheme.new inst params sort = .ok s) (hf : params.fixedItems = none)
    (hc : CapacitiesNonneg inst) (hr : DefectsReach inst) (hd : CopiesDefinite inst)
    (hn : Reached s n) {sol : Solution} (h : toSolution s n = .ok sol) :
    n.numberOfItems = sol.numberOfItems ∧ (n.numberOfBins : Int) = sol.numberOfBins
      ∧ n.itemArea = sol.itemArea ∧ n.itemWeight = sol.itemWeight
      ∧ (ConsumptionsNonneg inst → n.profit = sol.itemProfit)
      ∧ (n.numberOfBins ≠ 0 → n.xeMax = if n.lastBinDirection = .x then sol.xMax else sol.yMax)
      ∧ (leaf s n = true ↔ ∀ i, i < inst.numberOfItemTypes →
        sol.itemCopies[i]? = some (inst.itemType i).copies) := by
  have hx := ctx_of_new hb hs hf hc hr hd
  have hv := inv_reached hx hn
  have ht := totals_reached hx hn
  obtain ⟨-, e, -⟩ := new_fields hs hf
  subst e
  obtain ⟨sol', h1, h2, h3⟩ := toSolution_ok hx hv
  rw [h1] at h
  cases h
  obtain ⟨i1, i2, -, i4, i5, -, -, i8⟩ := indicators_exact h2
  rw [h3] at i1 i2 i4 i5
  refine ⟨?_, ?_, ?_, ?_, ?_, ?_, ?_⟩
  · rw [i2, numberOfItems_packing hv]
  · rw [i1, numberOfBins_packing]
  · rw [i4, itemArea_packing hv, ht.area]
  · rw [i5, itemWeight_packing hv, ht.weight]
  · intro hnn
    rw [profit_exact h2 hx.agg.resourceIds hc hnn, h3, ht.profit hnn]
  · intro h0
    obtain ⟨K, hK⟩ : ∃ K, n.numberOfBins = K + 1 := ⟨n.numberOfBins - 1, by omega⟩
    have hcur := (hv.cur (by omega)).xeMax
    have hext := extents_exact_partial h2
    have hm : ∀ st ∈ n.steps, st.numberOfBins = K + 1 → st.direction = n.lastBinDirection :=
      fun st hst hb => hv.dirs st hst (by omega)
    have hxm := hext.1
    have hym := hext.2.1
    rw [h3, hK, packing_split, lastItems_snoc, inBin_place hm] at hxm hym
    rw [hK, Nat.add_sub_cancel] at hcur
    by_cases hdir : n.lastBinDirection = .x
    · rw [if_pos hdir]
      rw [hdir] at hcur hxm
      refine isMaxWithZero_unique hcur ?_
      have e : unframe .x = id := by funext p; rfl
      rw [e, List.map_id] at hxm
      exact hxm
    · rw [if_neg hdir]
      refine isMaxWithZero_unique hcur ?_
      have e : ((inBin n.steps K).map Step.frame).map (rightEnd (s.instanceOf n.lastBinDirection))
          = (((inBin n.steps K).map Step.frame).map (unframe n.lastBinDirection)).map
            (upperEnd s.inst) := by
        rw [List.map_map, List.map_map, List.map_map]
        apply List.map_congr_left
        intro st hst
        have hst' := List.mem_of_mem_filter hst
        have hfl := occupies_flip hx.flipped (p := Step.frame st) (hv.items st hst')
        have e1 : s.instanceOf n.lastBinDirection = s.flipped := by
          unfold Scheme.instanceOf; rw [if_neg hdir]
        have e2 : unframe n.lastBinDirection (Step.frame st) = flipPlaced (Step.frame st) := by
          unfold unframe; rw [if_neg hdir]
        simp only [Function.comp_apply]
        rw [e1, e2]
        change (occupies s.flipped (Step.frame st)).x + (occupies s.flipped (Step.frame st)).w
          = (occupies s.inst (flipPlaced (Step.frame st))).y
            + (occupies s.inst (flipPlaced (Step.frame st))).h
        rw [hfl]
        rfl
      rw [e]
      exact hym
  · rw [leaf_iff hx hv]
    refine forall_congr' fun i => forall_congr' fun hi => ?_
    rw [i8 i hi, h3, Option.some_inj]

end PackingSolver.Rect.TreeSearch
