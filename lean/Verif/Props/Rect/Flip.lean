import Verif.Lemmas.Rect.Unflip
import Verif.Lemmas.Rect.Run
import Verif.Props.Rect.Build
import Verif.Props.Rect.Solution
import Verif.Props.Rect.Compare

/-!
# Exchanging the axes of an instance and of a solution (C42)
-/

namespace PackingSolver.Rect

open Rect.Spec FlipLemmas
open PackingSolver.OneDim.Examples (okD)
open PackingSolver.OneDim (getD_mem)

variable {a f : Instance} {s s' : Solution}

/-- **C42**: the flipped instance of a built instance has the same item and bin types with the
axes exchanged (sides, defects, unloading constraint, `OpenDimensionY`), the same profits, copies,
groups, weights, costs, limits, resources and consumptions, and it is itself consistent.  Not
kept: the minimum numbers of copies of item types (replaced by the default), eligibility and the
callback. -/
theorem flip_exchanges_axes {ops : List InstanceBuilder.Op}
    (h : InstanceBuilder.runOps ops = .ok a) (hf : Flipper.flip a = .ok f) :
    FlippedOf a f ∧ Aggregates f ∧ Sizes f := by
  obtain ⟨h1, h2, h3, -⟩ := flip_ok (build_aggregates h) (build_sizes_partial h) hf
  exact ⟨h1, h2, h3⟩

theorem flipped_map_items {β : Type} (h : FlippedOf a f) (g g' : ItemType → β)
    (hg : ∀ t t', FlippedItem t t' → g' t' = g t) : f.itemTypes.map g' = a.itemTypes.map g := by
  have hl : f.itemTypes.length = a.itemTypes.length := h.numberOfItemTypes
  apply List.ext_getElem
  · simp [hl]
  · intro i h1 h2
    have hi : i < a.itemTypes.length := by simpa using h2
    have := hg _ _ (h.items i hi)
    unfold Instance.itemType at this
    rw [List.getD_eq_getElem _ _ (by omega), List.getD_eq_getElem _ _ hi] at this
    simpa using this

theorem flipped_map_bins {β : Type} (h : FlippedOf a f) (g g' : BinType → β)
    (hg : ∀ t t', FlippedBin t t' → g' t' = g t) : f.binTypes.map g' = a.binTypes.map g := by
  have hl : f.binTypes.length = a.binTypes.length := h.numberOfBinTypes
  apply List.ext_getElem
  · simp [hl]
  · intro i h1 h2
    have hi : i < a.binTypes.length := by simpa using h2
    have := hg _ _ (h.bins i hi)
    unfold Instance.binType at this
    rw [List.getD_eq_getElem _ _ (by omega), List.getD_eq_getElem _ _ hi] at this
    simpa using this

/-- **C42**: totals of the flipped instance. -/
theorem flip_derived {ops : List InstanceBuilder.Op}
    (h : InstanceBuilder.runOps ops = .ok a) (hf : Flipper.flip a = .ok f) :
    f.numberOfItems = a.numberOfItems ∧ f.itemArea = a.itemArea ∧ f.itemProfit = a.itemProfit
    ∧ f.itemWeight = a.itemWeight ∧ f.totalItemWidth = a.totalItemHeight
    ∧ f.totalItemHeight = a.totalItemWidth ∧ f.binArea = a.binArea
    ∧ f.binTypeIds = a.binTypeIds := by
  obtain ⟨h1, h2, -⟩ := flip_exchanges_axes h hf
  have ha := build_aggregates h
  have hb := flipped_map_bins h1 (·.copies) (·.copies) (fun t t' e => e.copies)
  refine ⟨?_, ?_, ?_, ?_, ?_, ?_, ?_, ?_⟩
  · rw [h2.numberOfItems, ha.numberOfItems, flipped_map_items h1 (·.copies) _ fun t t' e => e.copies]
  · rw [h2.itemArea, ha.itemArea, flipped_map_items h1 (fun t => t.copies * t.area)]
    intro t t' e
    rw [e.copies, ItemType.area, ItemType.area, e.x, e.y, mul_comm t.y]
  · rw [h2.itemProfit, ha.itemProfit, flipped_map_items h1 (fun t => (t.copies : ℚ) * t.profit)]
    intro t t' e
    rw [e.copies, e.profit]
  · rw [h2.itemWeight, ha.itemWeight, flipped_map_items h1 (fun t => (t.copies : ℚ) * t.weight)]
    intro t t' e
    rw [e.copies, e.weight]
  · rw [h2.totalItemWidth, ha.totalItemHeight, flipped_map_items h1 (fun t => t.copies * t.y)]
    intro t t' e
    rw [e.copies, e.x]
  · rw [h2.totalItemHeight, ha.totalItemWidth, flipped_map_items h1 (fun t => t.copies * t.x)]
    intro t t' e
    rw [e.copies, e.y]
  · rw [h2.binArea, ha.binArea, flipped_map_bins h1 (fun t => t.copies * t.area)]
    intro t t' e
    rw [e.copies, BinType.area, BinType.area, e.x, e.y, mul_comm t.y]
  · rw [h2.binTypeIds, ha.binTypeIds, binPositions_copies, binPositions_copies, hb]

/-- **C42** (geometry): a list of placed items is a packing of a bin of the flipped instance
exactly if the items with exchanged coordinates are a packing of that bin of the original. -/
theorem flip_binPacking_iff (h : FlippedOf a f) {k : Nat} (hk : k < a.numberOfBinTypes)
    (l : List PlacedItem) : BinPacking a k (l.map flipPlaced) ↔ BinPacking f k l := by
  have hb := h.bins k hk
  have ho : ∀ p ∈ l, p.itemTypeId < a.numberOfItemTypes →
      occupies a (flipPlaced p) = flipRect (occupies f p) := fun p _ hp => occupies_flip h hp
  constructor
  · intro hp
    have he : ∀ p ∈ l, p.itemTypeId < a.numberOfItemTypes := fun p hpl =>
      hp.exist (flipPlaced p) (List.mem_map.mpr ⟨p, hpl, rfl⟩)
    refine ⟨fun p hpl => h.numberOfItemTypes ▸ he p hpl, fun p hpl hr => ?_, fun p hpl => ?_, ?_⟩
    · rw [(h.items _ (he p hpl)).oriented]
      exact hp.rotation (flipPlaced p) (List.mem_map.mpr ⟨p, hpl, rfl⟩) hr
    · have := hp.inside (flipPlaced p) (List.mem_map.mpr ⟨p, hpl, rfl⟩)
      rw [ho p hpl (he p hpl), inside_flip, ← hb.x, ← hb.y] at this
      exact this
    · have := hp.separated
      rw [List.pairwise_map] at this
      refine this.imp_of_mem ?_
      intro p q hpl hql hs
      rwa [ho p hpl (he p hpl), ho q hql (he q hql), separated_flip] at hs
  · intro hp
    have he : ∀ p ∈ l, p.itemTypeId < a.numberOfItemTypes := fun p hpl =>
      h.numberOfItemTypes ▸ hp.exist p hpl
    refine ⟨?_, ?_, ?_, ?_⟩
    · rw [List.forall_mem_map]; exact he
    · rw [List.forall_mem_map]
      intro p hpl hr
      have := hp.rotation p hpl hr
      rwa [(h.items _ (he p hpl)).oriented] at this
    · rw [List.forall_mem_map]
      intro p hpl
      rw [ho p hpl (he p hpl), inside_flip, ← hb.x, ← hb.y]
      exact hp.inside p hpl
    · rw [List.pairwise_map]
      refine hp.separated.imp_of_mem ?_
      intro p q hpl hql hs
      rwa [ho p hpl (he p hpl), ho q hql (he q hql), separated_flip]

/-- **C42** (defects): avoiding the defects is preserved. -/
theorem flip_avoidsDefects_iff (h : FlippedOf a f) {k : Nat} (hk : k < a.numberOfBinTypes)
    (l : List PlacedItem) (hl : ∀ p ∈ l, p.itemTypeId < a.numberOfItemTypes) :
    AvoidsDefects a k (l.map flipPlaced) ↔ AvoidsDefects f k l := by
  unfold AvoidsDefects
  rw [List.forall_mem_map, (h.bins k hk).defects]
  constructor
  · intro hp p hpl
    rw [List.forall_mem_map]
    intro d hd
    have := hp p hpl d hd
    rw [occupies_flip h (hl p hpl)] at this
    rw [← separated_flip]
    exact this
  · intro hp p hpl d hd
    have := hp p hpl _ (List.mem_map.mpr ⟨d, hd, rfl⟩)
    rw [occupies_flip h (hl p hpl)]
    rw [← separated_flip] at this
    exact this

/-- **C42** (resources): respecting the hard resources of a bin is preserved. -/
theorem flip_resourcesOk_iff (h : FlippedOf a f) {k : Nat} (hk : k < a.numberOfBinTypes)
    (l : List PlacedItem) : ResourcesOk a k (l.map flipPlaced) ↔ ResourcesOk f k l := by
  have hl := (h.bins k hk).numberOfResources
  unfold ResourcesOk
  constructor
  · intro hp r hr hpen p hpl
    obtain ⟨n, hn, rfl⟩ := List.mem_iff_getElem.mp hr
    have hn' : n < (a.binType k).resources.length := by omega
    have hs := (h.bins k hk).resources n hn'
    have hc := consumption_flip h hk hn' p
    rw [List.getD_eq_getElem _ _ hn, List.getD_eq_getElem _ _ hn'] at hs hc
    rw [← hc, hs.capacity]
    exact hp _ (List.getElem_mem hn') (hs.penalize ▸ hpen) _ (hpl.map _)
  · intro hp r hr hpen p hpl
    obtain ⟨n, hn', rfl⟩ := List.mem_iff_getElem.mp hr
    have hn : n < (f.binType k).resources.length := by omega
    have hs := (h.bins k hk).resources n hn'
    have hc := consumption_flip h hk hn' (p.map flipPlaced)
    rw [List.getD_eq_getElem _ _ hn, List.getD_eq_getElem _ _ hn'] at hs hc
    have e : (p.map flipPlaced).map flipPlaced = p := by
      rw [List.map_map]; exact (List.map_congr_left fun q _ => rfl).trans (List.map_id p)
    have e2 : (l.map flipPlaced).map flipPlaced = l := by
      rw [List.map_map]; exact (List.map_congr_left fun q _ => rfl).trans (List.map_id l)
    rw [e] at hc
    rw [hc, ← hs.capacity]
    refine hp _ (List.getElem_mem hn) (hs.penalize.trans hpen) _ ?_
    have := hpl.map flipPlaced
    rwa [e2] at this

/-- **C42** (structure): `unflip_solution` lists the same bins with the same items, coordinates
exchanged, as a solution of the original instance that a caller could have built. -/
theorem unflip_packing (h : Flipper.unflipSolution a s = .ok s') :
    packingOf s' = flipPacking (packingOf s) ∧ Reachable a s' := by
  obtain ⟨-, h2, ops, h3⟩ := unflip_ok h
  exact ⟨h2, .built ops s' h3⟩

/-- **C42**: `unflip_solution` accepts every solution of the flipped instance that its builder
makes. -/
theorem unflip_accepts (h : FlippedOf a f) {ops : List BuilderOp}
    (hs : SolutionBuilder.runOps f ops = .ok s) : ∃ s', Flipper.unflipSolution a s = .ok s' := by
  obtain ⟨-, ht, hro⟩ := builder_packing hs
  have hta : WellTyped a (packingOf s) := by
    unfold WellTyped at ht ⊢
    rwa [← h.numberOfItemTypes, ← h.numberOfBinTypes]
  obtain ⟨sb, h1⟩ := (unflip_bins s.bins (raw_new a)).2 hta (by
    intro b hb p hp hr
    have hb' : (⟨b.binTypeId, b.copies, b.items⟩ : PackedBin) ∈ packingOf s :=
      List.mem_map.mpr ⟨b, hb, rfl⟩
    have := hro _ hb' p hp hr
    rwa [(h.items _ ((hta _ hb').2 p hp)).oriented] at this)
  have hr := (unflip_bins s.bins (raw_new a)).1 sb h1
  rw [List.nil_append] at hr
  obtain ⟨s', h2⟩ := build_succeeds hr ((wellTyped_flip h _).mpr ht)
  exact ⟨s', bind_ok.mpr ⟨sb, h1, h2⟩⟩

/-- **C42** (totals): the unflipped solution reports the same totals as the flipped one.  The
costs agree if no bin type has the reserved cost `-1`. -/
theorem unflip_totals (h : FlippedOf a f) (hs : Reachable f s)
    (hu : Flipper.unflipSolution a s = .ok s') :
    s'.numberOfBins = s.numberOfBins ∧ s'.numberOfItems = s.numberOfItems
    ∧ s'.binArea = s.binArea ∧ s'.itemArea = s.itemArea ∧ s'.itemWeight = s.itemWeight
    ∧ ((∀ t ∈ a.binTypes, t.cost ≠ -1) → s'.binCost = s.binCost)
    ∧ (∀ t, t < a.numberOfBinTypes → s'.binCopies[t]? = s.binCopies[t]?)
    ∧ (∀ i, i < a.numberOfItemTypes → s'.itemCopies[i]? = s.itemCopies[i]?) := by
  obtain ⟨hp, hs'⟩ := unflip_packing hu
  obtain ⟨a1, a2, a3, a4, a5, a6, a7, a8⟩ := indicators_exact hs'
  obtain ⟨b1, b2, b3, b4, b5, b6, b7, b8⟩ := indicators_exact hs
  have ht : WellTyped f (packingOf s) := hs.good.typed
  unfold WellTyped at ht
  rw [h.numberOfItemTypes, h.numberOfBinTypes] at ht
  rw [hp] at a1 a2 a3 a4 a5 a6 a7 a8
  refine ⟨?_, ?_, ?_, ?_, ?_, fun hc => ?_, fun t htt => ?_, fun i hi => ?_⟩
  · rw [a1, b1]; unfold Spec.numberOfBins flipPacking; rw [List.map_map]; rfl
  · rw [a2, b2]; unfold Spec.numberOfItems flipPacking; rw [List.map_map]
    apply map_congr_sum; intro b _; simp
  · rw [a3, b3]; unfold Spec.binArea flipPacking; rw [List.map_map]
    apply map_congr_sum; intro b hb
    have := h.bins _ (ht b hb).1
    simp only [Function.comp_apply]
    rw [this.x, this.y, mul_comm (a.binType b.binTypeId).x]
  · rw [a4, b4]; unfold Spec.itemArea flipPacking; rw [List.map_map]
    apply map_congr_sum; intro b hb
    simp only [Function.comp_apply, List.map_map]
    congr 2
    apply List.map_congr_left
    intro p hpb
    have := h.items _ ((ht b hb).2 p hpb)
    simp only [Function.comp_apply]
    change (a.itemType p.itemTypeId).x * (a.itemType p.itemTypeId).y = _
    rw [this.x, this.y, mul_comm]
  · rw [a5, b5]; unfold Spec.itemWeight flipPacking; rw [List.map_map]
    apply map_congr_sum; intro b hb
    simp only [Function.comp_apply]
    rw [binWeight_flip h (ht b hb).2]
  · rw [a6, b6]; unfold Spec.cost flipPacking; rw [List.map_map]
    apply map_congr_sum; intro b hb
    have hb' := h.bins _ (ht b hb).1
    have hne : (a.binType b.binTypeId).cost ≠ -1 := hc _ (getD_mem default (ht b hb).1)
    simp only [Function.comp_apply]
    rw [hb'.cost, if_neg hne]
  · rw [a7 t htt, b7 t (h.numberOfBinTypes ▸ htt)]
    unfold Spec.binCopies flipPacking; rw [List.map_map]; rfl
  · rw [a8 i hi, b8 i (h.numberOfItemTypes ▸ hi)]
    unfold Spec.itemCopies flipPacking; rw [List.map_map]
    congr 1
    apply map_congr_sum; intro b _
    simp only [Function.comp_apply]
    rw [count_flip]

theorem flip_capacities (h : FlippedOf a f) (hc : CapacitiesNonneg a) : CapacitiesNonneg f := by
  intro b hb r hr
  obtain ⟨k, hk, rfl⟩ := List.mem_iff_getElem.mp hb
  obtain ⟨n, hn, rfl⟩ := List.mem_iff_getElem.mp hr
  have hl : f.binTypes.length = a.binTypes.length := h.numberOfBinTypes
  have hk' : k < a.binTypes.length := by omega
  have hbk := h.bins k hk'
  have e : f.binType k = f.binTypes[k] := List.getD_eq_getElem _ _ hk
  have hlr := hbk.numberOfResources
  rw [e] at hbk hlr
  have hn' : n < (a.binType k).resources.length := by omega
  have := (hbk.resources n hn').capacity
  rw [List.getD_eq_getElem _ _ hn, List.getD_eq_getElem _ _ hn'] at this
  rw [this]
  exact hc _ (getD_mem default hk') _ (List.getElem_mem hn')

theorem flip_consumptions (h : FlippedOf a f) (hc : ConsumptionsNonneg a) :
    ConsumptionsNonneg f := by
  intro b hb r hr sch hsch q hq
  obtain ⟨k, hk, rfl⟩ := List.mem_iff_getElem.mp hb
  obtain ⟨n, hn, rfl⟩ := List.mem_iff_getElem.mp hr
  have hl : f.binTypes.length = a.binTypes.length := h.numberOfBinTypes
  have hk' : k < a.binTypes.length := by omega
  have hbk := h.bins k hk'
  have e : f.binType k = f.binTypes[k] := List.getD_eq_getElem _ _ hk
  have hlr := hbk.numberOfResources
  rw [e] at hbk hlr
  have hn' : n < (a.binType k).resources.length := by omega
  have hs := (hbk.resources n hn').schedule
  rw [List.getD_eq_getElem _ _ hn, List.getD_eq_getElem _ _ hn'] at hs
  obtain ⟨i, hi, rfl⟩ := List.mem_iff_getElem.mp hsch
  have hsi := hs i
  rw [List.getD_eq_getElem _ _ hi] at hsi
  rw [hsi] at hq
  by_cases hi' : i < ((a.binType k).resources[n]).itemConsumptions.length
  · rw [List.getD_eq_getElem _ _ hi'] at hq
    exact hc _ (getD_mem default hk') _ (List.getElem_mem hn') _ (List.getElem_mem hi') q hq
  · rw [List.getD_eq_default _ _ (by omega)] at hq
    simp at hq

/-- **C42** (profit): the unflipped solution has the same profit. -/
theorem unflip_profit {ops : List InstanceBuilder.Op} (h : InstanceBuilder.runOps ops = .ok a)
    (hf : Flipper.flip a = .ok f) (hs : Reachable f s) (hu : Flipper.unflipSolution a s = .ok s')
    (hcap : CapacitiesNonneg a) (hnn : ConsumptionsNonneg a) : s'.itemProfit = s.itemProfit := by
  obtain ⟨hfl, hag, -⟩ := flip_exchanges_axes h hf
  obtain ⟨hp, hs'⟩ := unflip_packing hu
  have ht : WellTyped f (packingOf s) := hs.good.typed
  unfold WellTyped at ht
  rw [hfl.numberOfItemTypes, hfl.numberOfBinTypes] at ht
  rw [profit_exact hs' (build_aggregates h).resourceIds hcap hnn,
    profit_exact hs hag.resourceIds (flip_capacities hfl hcap) (flip_consumptions hfl hnn), hp]
  unfold reportedProfit flipPacking
  rw [List.map_map]
  apply map_congr_sum
  intro b hb
  simp only [Function.comp_apply]
  rw [itemsProfit_flip hfl (ht b hb).2, penalties_flip hfl (ht b hb).1]

/-- **C42** (feasibility): if the original instance has the default minimum numbers of copies and
a callback that accepts the unflipped packing, the unflipped solution is reported as feasible
exactly if the flipped one is.  Missing: other minimum numbers of copies and callbacks are not
passed to the flipped instance (see below). -/
theorem unflip_feasible_partial {ops : List InstanceBuilder.Op}
    (h : InstanceBuilder.runOps ops = .ok a) (hf : Flipper.flip a = .ok f)
    (hs : Reachable f s) (hu : Flipper.unflipSolution a s = .ok s') (hne : packingOf s ≠ [])
    (hcap : CapacitiesNonneg a)
    (hmin : ∀ i, i < a.numberOfItemTypes → (a.itemType i).copiesMin
      = if a.objective = .knapsack then 0 else (a.itemType i).copies)
    (hcb : a.callback (packingOf s') = f.callback (packingOf s)) :
    s'.feasible = s.feasible := by
  obtain ⟨hfl, hag, -⟩ := flip_exchanges_axes h hf
  obtain ⟨hp, hs'⟩ := unflip_packing hu
  have ht : WellTyped f (packingOf s) := hs.good.typed
  unfold WellTyped at ht
  rw [hfl.numberOfItemTypes, hfl.numberOfBinTypes] at ht
  have hne' : packingOf s' ≠ [] := by rw [hp]; unfold flipPacking; simpa using hne
  rw [Bool.eq_iff_iff, feasible_iff_partial hs' hne' (build_aggregates h).resourceIds hcap,
    feasible_iff_partial hs hne hag.resourceIds (flip_capacities hfl hcap), hcb]
  have h1 : CopiesOk a (packingOf s') ↔ CopiesOk f (packingOf s) := by
    unfold CopiesOk
    rw [hfl.numberOfItemTypes]
    refine forall_congr' fun i => forall_congr' fun hi => ?_
    have e : Spec.itemCopies (packingOf s') i = Spec.itemCopies (packingOf s) i := by
      rw [hp]
      unfold Spec.itemCopies flipPacking; rw [List.map_map]
      apply map_congr_sum; intro b _
      simp only [Function.comp_apply]
      rw [count_flip]
    rw [e, hfl.copiesMin i hi, ← hmin i hi, (hfl.items i hi).copies]
  have h2 : (∀ b ∈ packingOf s', ResourcesOk a b.binTypeId b.items)
      ↔ ∀ b ∈ packingOf s, ResourcesOk f b.binTypeId b.items := by
    rw [hp]
    unfold flipPacking
    rw [List.forall_mem_map]
    refine forall_congr' fun b => forall_congr' fun hb => ?_
    exact flip_resourcesOk_iff hfl (ht b hb).1 b.items
  rw [h1, h2]

/-- **C42** (extents): the extents of the last bin are exchanged: in particular the
`OpenDimensionY` value of the unflipped solution is the `OpenDimensionX` value of the flipped
one. -/
theorem unflip_extents (h : FlippedOf a f) (hs : Reachable f s)
    (hu : Flipper.unflipSolution a s = .ok s') : s'.xMax = s.yMax ∧ s'.yMax = s.xMax := by
  obtain ⟨hp, hs'⟩ := unflip_packing hu
  have ht : WellTyped f (packingOf s) := hs.good.typed
  unfold WellTyped at ht
  rw [h.numberOfItemTypes, h.numberOfBinTypes] at ht
  obtain ⟨hx, hy, -⟩ := extents_exact_partial hs
  obtain ⟨hx', hy', -⟩ := extents_exact_partial hs'
  have hl : lastItems (packingOf s') = (lastItems (packingOf s)).map flipPlaced := by
    rw [hp]
    unfold lastItems flipPacking
    rw [List.getLast?_map]
    cases (packingOf s).getLast? <;> rfl
  have hmem : ∀ p ∈ lastItems (packingOf s), p.itemTypeId < a.numberOfItemTypes := by
    intro p hpl
    unfold lastItems at hpl
    cases hg : (packingOf s).getLast? with
    | none => rw [hg] at hpl; simp at hpl
    | some b =>
      rw [hg] at hpl
      exact (ht b (List.mem_of_getLast? hg)).2 p hpl
  have e1 : (lastItems (packingOf s')).map (rightEnd a)
      = (lastItems (packingOf s)).map (upperEnd f) := by
    rw [hl, List.map_map]
    apply List.map_congr_left
    intro p hpl
    simp only [Function.comp_apply, rightEnd, upperEnd]
    rw [occupies_flip h (hmem p hpl)]
    rfl
  have e2 : (lastItems (packingOf s')).map (upperEnd a)
      = (lastItems (packingOf s)).map (rightEnd f) := by
    rw [hl, List.map_map]
    apply List.map_congr_left
    intro p hpl
    simp only [Function.comp_apply, rightEnd, upperEnd]
    rw [occupies_flip h (hmem p hpl)]
    rfl
  rw [e1] at hx'
  rw [e2] at hy'
  exact ⟨isMaxWithZero_unique hx' hy, isMaxWithZero_unique hy' hx⟩

/-! ### Non-vacuity -/

namespace FlipEx

/-- A strip of width 10: two defects, a hard resource, an item type that may be rotated and an
oriented one. -/
def ops : List InstanceBuilder.Op :=
  [.setObjective .openDimensionY,
   .addBinType 10 6, .addDefect 0 3 3 1 1, .addDefect 0 0 5 2 1, .addBinTypeResource 0 6 false 0,
   .addItemType 4 2 false, .setItemTypeCopies 0 3, .setItemTypeProfit 0 5,
   .addItemType 3 5 true, .setItemTypeGroup 1 2, .addResourceConsumption 0 0 1 0 3]

def inst : Instance := okD noInst (InstanceBuilder.runOps ops)

theorem inst_ok : InstanceBuilder.runOps ops = .ok inst := eq_ok_okD (by decide +kernel)

def flipped : Instance := okD noInst (Flipper.flip inst)

theorem flipped_ok : Flipper.flip inst = .ok flipped := eq_ok_okD (by decide +kernel)

def solOps : List BuilderOp := [.addBin 0 1, .addItem 0 0 0 0 true, .addItem 0 1 0 5 false]

def sol : Solution := okD {} (SolutionBuilder.runOps flipped solOps)

theorem sol_ok : SolutionBuilder.runOps flipped solOps = .ok sol := by decide +kernel

def back : Solution := okD {} (Flipper.unflipSolution inst sol)

theorem back_ok : Flipper.unflipSolution inst sol = .ok back := by decide +kernel

/-- The hypotheses of the theorems of this file are met: the item of the flipped packing occupies
4 × 2 and 5 × 3, the defects are avoided. -/
example : FlippedOf inst flipped ∧ 0 < inst.numberOfBinTypes ∧ CapacitiesNonneg inst
    ∧ ConsumptionsNonneg inst ∧ Reachable flipped sol
    ∧ packingOf sol = [⟨0, 1, [⟨0, 0, 0, true⟩, ⟨1, 0, 5, false⟩]⟩]
    ∧ packingOf back = [⟨0, 1, [⟨0, 0, 0, true⟩, ⟨1, 5, 0, false⟩]⟩]
    ∧ [sol.xMax, sol.yMax, back.xMax, back.yMax] = [5, 8, 8, 5] :=
  ⟨(flip_exchanges_axes inst_ok flipped_ok).1, by decide +kernel,
    by unfold CapacitiesNonneg; decide +kernel, by unfold ConsumptionsNonneg; decide +kernel,
    .built solOps sol sol_ok, by decide +kernel, by decide +kernel, by decide +kernel⟩

example : flipped.objective = .openDimensionX
    ∧ flipped.binTypes.map (fun t => (t.x, t.y, t.defects))
      = [(6, 10, [⟨3, 3, 1, 1⟩, ⟨5, 0, 1, 2⟩])] := by decide +kernel

example : BinPacking flipped 0 [⟨0, 0, 0, true⟩, ⟨1, 0, 5, false⟩]
    ∧ AvoidsDefects flipped 0 [⟨0, 0, 0, true⟩, ⟨1, 0, 5, false⟩] := by
  refine ⟨⟨by decide +kernel, by decide +kernel, ?_, ?_⟩, ?_⟩
  · unfold Inside; decide +kernel
  · unfold Separated; decide +kernel
  · unfold AvoidsDefects Separated; decide +kernel

/-- The default minimum numbers of copies, as `unflip_feasible_partial` asks. -/
example : packingOf sol ≠ [] ∧ (∀ i, i < inst.numberOfItemTypes → (inst.itemType i).copiesMin
      = if inst.objective = .knapsack then 0 else (inst.itemType i).copies)
    ∧ inst.callback (packingOf back) = flipped.callback (packingOf sol) := by
  refine ⟨by decide +kernel, ?_, by decide +kernel⟩
  intro i hi
  have hi : i < 2 := hi
  have : i = 0 ∨ i = 1 := by omega
  rcases this with rfl | rfl <;> decide +kernel

end FlipEx

/-! ### Limits -/

/-- **C42**, negation: `OpenDimensionX` is not exchanged for `OpenDimensionY`: of two solutions of
the flipped instance the better one becomes the worse one. -/
theorem flip_keeps_openDimensionX : ∃ (ops : List InstanceBuilder.Op) (a f : Instance)
    (s t s' t' : Solution),
    InstanceBuilder.runOps ops = .ok a ∧ Flipper.flip a = .ok f ∧ a.objective = .openDimensionX
    ∧ f.objective = .openDimensionX ∧ Reachable f s ∧ Reachable f t
    ∧ Flipper.unflipSolution a s = .ok s' ∧ Flipper.unflipSolution a t = .ok t'
    ∧ Solution.ltB f s t = true ∧ Solution.ltB a t' s' = true := by
  let ops : List InstanceBuilder.Op :=
    [.setObjective .openDimensionX, .addBinType 10 10, .addItemType 4 2 false]
  let a := okD noInst (InstanceBuilder.runOps ops)
  let f := okD noInst (Flipper.flip a)
  let o1 : List BuilderOp := [.addBin 0 1, .addItem 0 0 0 0 true]
  let o2 : List BuilderOp := [.addBin 0 1, .addItem 0 0 0 0 false]
  exact ⟨ops, a, f, okD {} (SolutionBuilder.runOps f o1), okD {} (SolutionBuilder.runOps f o2),
    okD {} (Flipper.unflipSolution a (okD {} (SolutionBuilder.runOps f o1))),
    okD {} (Flipper.unflipSolution a (okD {} (SolutionBuilder.runOps f o2))),
    eq_ok_okD (by decide +kernel), eq_ok_okD (by decide +kernel), by decide +kernel,
    by decide +kernel, .built o1 _ (by decide +kernel), .built o2 _ (by decide +kernel),
    by decide +kernel, by decide +kernel, by decide +kernel, by decide +kernel⟩

/-- **C42**, negation: the minimum number of copies is lost: a solution that is feasible for the
flipped instance is infeasible for the original. -/
theorem flip_loses_copies_min : ∃ (ops : List InstanceBuilder.Op) (a f : Instance)
    (s s' : Solution), InstanceBuilder.runOps ops = .ok a ∧ Flipper.flip a = .ok f
    ∧ Reachable f s ∧ Flipper.unflipSolution a s = .ok s'
    ∧ s.feasible = true ∧ s'.feasible = false := by
  let ops : List InstanceBuilder.Op :=
    [.setObjective .knapsack, .addBinType 10 10, .addItemType 4 2 false,
      .setItemTypeCopiesMin 0 1]
  let a := okD noInst (InstanceBuilder.runOps ops)
  let f := okD noInst (Flipper.flip a)
  let o1 : List BuilderOp := [.addBin 0 1]
  exact ⟨ops, a, f, okD {} (SolutionBuilder.runOps f o1),
    okD {} (Flipper.unflipSolution a (okD {} (SolutionBuilder.runOps f o1))),
    eq_ok_okD (by decide +kernel), eq_ok_okD (by decide +kernel),
    .built o1 _ (by decide +kernel), by decide +kernel, by decide +kernel, by decide +kernel⟩

/-- **C42**, negation: eligibility is lost: an item that must not go into a bin may go into the
flipped bin. -/
theorem flip_loses_eligibility : ∃ (ops : List InstanceBuilder.Op) (a f : Instance),
    InstanceBuilder.runOps ops = .ok a ∧ Flipper.flip a = .ok f
    ∧ ¬ EligibleIn a 0 0 ∧ EligibleIn f 0 0 := by
  let ops : List InstanceBuilder.Op :=
    [.addBinType 10 10, .addItemType 4 2 false, .setItemTypeEligibility 0 3]
  let a := okD noInst (InstanceBuilder.runOps ops)
  exact ⟨ops, a, okD noInst (Flipper.flip a),
    eq_ok_okD (by decide +kernel), eq_ok_okD (by decide +kernel),
    by unfold EligibleIn; decide +kernel, by unfold EligibleIn; decide +kernel⟩

/-- **C42**, negation: some instances that the builder accepts cannot be flipped. -/
theorem flip_may_throw : ∃ (ops : List InstanceBuilder.Op) (a : Instance),
    InstanceBuilder.runOps ops = .ok a ∧ isOk (Flipper.flip a) = false := by
  let ops : List InstanceBuilder.Op :=
    [.addBinType 10 10, .addItemType 4 2 false, .multiplyItemTypesCopies 0]
  exact ⟨ops, okD noInst (InstanceBuilder.runOps ops), eq_ok_okD (by decide +kernel),
    by decide +kernel⟩

/-- If an instance can be flipped its bins have positive sides and its item types a positive
number of copies (or `-1`). -/
theorem flip_requires {ops : List InstanceBuilder.Op}
    (h : InstanceBuilder.runOps ops = .ok a) (hf : Flipper.flip a = .ok f) :
    (∀ i, i < a.numberOfItemTypes → (a.itemType i).copies = -1 ∨ 0 < (a.itemType i).copies)
    ∧ ∀ k, k < a.numberOfBinTypes → 0 < (a.binType k).x ∧ 0 < (a.binType k).y := by
  obtain ⟨-, -, -, hb, hi⟩ := flip_ok (build_aggregates h) (build_sizes_partial h) hf
  exact ⟨hi, fun k hk => ⟨(hb k hk).x, (hb k hk).y⟩⟩

end PackingSolver.Rect
