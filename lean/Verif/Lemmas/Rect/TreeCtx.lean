import Verif.Lemmas.Rect.TreeLast
import Verif.Props.Rect.Flip

/-! Helper lemmas: the two frames of the rectangle branching scheme. -/

namespace PackingSolver.Rect.TreeSearch

open Rect.Spec FlipLemmas
open PackingSolver.OneDim (getD_mem)

/-- The situation in which the nodes of a scheme are studied. -/
structure Ctx (s : Scheme) : Prop where
  agg : Aggregates s.inst
  sizes : Sizes s.inst
  flipped : FlippedOf s.inst s.flipped
  aggF : Aggregates s.flipped
  sizesF : Sizes s.flipped
  bins : ∀ k, k < s.inst.numberOfBinTypes → BinOk (s.inst.binType k)
  copies : ∀ i, i < s.inst.numberOfItemTypes → 0 < (s.inst.itemType i).copies
  capacities : CapacitiesNonneg s.inst
  reach : DefectsReach s.inst
  ids : s.binTypeIds = schemeBinTypeIds s.inst
  previous : s.previousBinsArea = schemePreviousBinsArea s.inst s.binTypeIds
  root : s.root = none
  fixed : s.parameters.fixedItems = none

theorem new_fields {inst : Instance} {params : Parameters} {sort : List PlacedItem → List PlacedItem}
    {s : Scheme} (h : Scheme.new inst params sort = .ok s) (hf : params.fixedItems = none) :
    Flipper.flip inst = .ok s.flipped ∧ s.inst = inst ∧ s.parameters = params
    ∧ s.binTypeIds = schemeBinTypeIds inst
    ∧ s.previousBinsArea = schemePreviousBinsArea inst (schemeBinTypeIds inst) ∧ s.root = none := by
  unfold Scheme.new at h
  obtain ⟨f, h1, h⟩ := bind_ok.mp h
  obtain ⟨p0, -, h⟩ := bind_ok.mp h
  obtain ⟨p1, -, h⟩ := bind_ok.mp h
  obtain ⟨p2, -, h⟩ := bind_ok.mp h
  rw [hf] at h
  simp only [Except.ok.injEq] at h
  subst h
  exact ⟨h1, rfl, rfl, rfl, rfl, rfl⟩

theorem ctx_of_new {ops : List InstanceBuilder.Op} {inst : Instance} {params : Parameters}
    {sort : List PlacedItem → List PlacedItem} {s : Scheme}
    (hb : InstanceBuilder.runOps ops = .ok inst) (h : Scheme.new inst params sort = .ok s)
    (hf : params.fixedItems = none) (hc : CapacitiesNonneg inst) (hr : DefectsReach inst)
    (hd : CopiesDefinite inst) : Ctx s := by
  obtain ⟨h1, rfl, rfl, h4, h5, h6⟩ := new_fields h hf
  obtain ⟨f1, f2, f3, f4, f5⟩ := flip_ok (build_aggregates hb) (build_sizes_partial hb) h1
  refine ⟨build_aggregates hb, build_sizes_partial hb, f1, f2, f3, f4, ?_, hc, hr, h4, by rw [h5, h4],
    h6, hf⟩
  intro i hi
  rcases f5 i hi with h | h
  · exact absurd h (hd _ (getD_mem default hi))
  · exact h

/-- What the instance in one of the directions has in common with the instance. -/
structure FrameOk (I J : Instance) : Prop where
  agg : Aggregates J
  sizes : Sizes J
  capacities : CapacitiesNonneg J
  nItems : J.numberOfItemTypes = I.numberOfItemTypes
  nBins : J.numberOfBinTypes = I.numberOfBinTypes
  nGroups : J.numberOfGroups = I.numberOfGroups
  copies : ∀ i, i < I.numberOfItemTypes → (J.itemType i).copies = (I.itemType i).copies
  oriented : ∀ i, i < I.numberOfItemTypes → (J.itemType i).oriented = (I.itemType i).oriented
  area : ∀ i, i < I.numberOfItemTypes → (J.itemType i).area = (I.itemType i).area
  weight : ∀ i, i < I.numberOfItemTypes → (J.itemType i).weight = (I.itemType i).weight
  profit : ∀ i, i < I.numberOfItemTypes → (J.itemType i).profit = (I.itemType i).profit
  binArea : ∀ b, b < I.numberOfBinTypes → (J.binType b).area = (I.binType b).area
  reach : ∀ b, b < I.numberOfBinTypes → ∀ d ∈ (J.binType b).defects, 0 ≤ d.posY + d.y
  binPos : ∀ b, b < I.numberOfBinTypes → 0 < (J.binType b).x ∧ 0 < (J.binType b).y

theorem numberOfGroups_eq {a f : Instance} (h : FlippedOf a f) (ha : Aggregates a)
    (hf : Aggregates f) : f.numberOfGroups = a.numberOfGroups := by
  obtain ⟨a1, a2⟩ := ha.numberOfGroups
  obtain ⟨f1, f2⟩ := hf.numberOfGroups
  have e := flipped_map_items h (·.groupId) (·.groupId) (fun t t' e => e.groupId)
  have m1 : ∀ t ∈ a.itemTypes, ∃ t' ∈ f.itemTypes, t'.groupId = t.groupId := by
    intro t ht
    have : t.groupId ∈ f.itemTypes.map (·.groupId) := by rw [e]; exact List.mem_map.mpr ⟨t, ht, rfl⟩
    exact List.mem_map.mp this
  have m2 : ∀ t ∈ f.itemTypes, ∃ t' ∈ a.itemTypes, t'.groupId = t.groupId := by
    intro t ht
    have : t.groupId ∈ a.itemTypes.map (·.groupId) := by
      rw [← e]; exact List.mem_map.mpr ⟨t, ht, rfl⟩
    exact List.mem_map.mp this
  have l1 : a.numberOfGroups ≤ f.numberOfGroups := by
    rcases a2 with h | ⟨t, ht, h⟩
    · omega
    · obtain ⟨t', ht', e⟩ := m1 t ht
      have := f1 t' ht'
      omega
  have l2 : f.numberOfGroups ≤ a.numberOfGroups := by
    rcases f2 with h | ⟨t, ht, h⟩
    · omega
    · obtain ⟨t', ht', e⟩ := m2 t ht
      have := a1 t' ht'
      omega
  omega

theorem Ctx.frame {s : Scheme} (h : Ctx s) (d : Direction) : FrameOk s.inst (s.instanceOf d) := by
  unfold Scheme.instanceOf
  split_ifs
  · exact ⟨h.agg, h.sizes, h.capacities, rfl, rfl, rfl, fun _ _ => rfl, fun _ _ => rfl, fun _ _ => rfl,
      fun _ _ => rfl, fun _ _ => rfl, fun _ _ => rfl,
      fun b hb d hd => (h.reach _ (getD_mem default hb) d hd).2,
      fun b hb => ⟨(h.bins b hb).x, (h.bins b hb).y⟩⟩
  · have hf := h.flipped
    refine ⟨h.aggF, h.sizesF, flip_capacities hf h.capacities, hf.numberOfItemTypes,
      hf.numberOfBinTypes, numberOfGroups_eq hf h.agg h.aggF, fun i hi => (hf.items i hi).copies,
      fun i hi => (hf.items i hi).oriented, ?_, fun i hi => (hf.items i hi).weight,
      fun i hi => (hf.items i hi).profit, ?_, ?_, ?_⟩
    · intro i hi
      unfold ItemType.area
      rw [(hf.items i hi).x, (hf.items i hi).y, mul_comm]
    · intro b hb
      unfold BinType.area
      rw [(hf.bins b hb).x, (hf.bins b hb).y, mul_comm]
    · intro b hb d hd
      rw [(hf.bins b hb).defects] at hd
      obtain ⟨d', hd', rfl⟩ := List.mem_map.mp hd
      exact (h.reach _ (getD_mem default hb) d' hd').1
    · intro b hb
      rw [(hf.bins b hb).x, (hf.bins b hb).y]
      exact ⟨(h.bins b hb).y, (h.bins b hb).x⟩

/-- An item in the frame of a direction, in the coordinates of the instance. -/
def unframe (d : Direction) (p : PlacedItem) : PlacedItem := if d = .x then p else flipPlaced p

/-- The unloading constraint, where the scheme respects it. -/
def UnloadingSpec (I : Instance) (b : Nat) (l : List PlacedItem) : Prop :=
  (I.parameters.unloadingConstraint = .increasingX ∨ I.parameters.unloadingConstraint = .increasingY →
    (I.binType b).defects = []) → UnloadingOk I.parameters.unloadingConstraint I l

variable {s : Scheme}

theorem flip_binValid {a f : Instance} (h : FlippedOf a f) {k : Nat} (hk : k < a.numberOfBinTypes)
    {l : List PlacedItem} (hv : BinValid f k l) : BinValid a k (l.map flipPlaced) := by
  have he : ∀ p ∈ l, p.itemTypeId < a.numberOfItemTypes := fun p hp =>
    h.numberOfItemTypes ▸ hv.packing.exist p hp
  refine ⟨(flip_binPacking_iff h hk l).mpr hv.packing, (flip_avoidsDefects_iff h hk l he).mpr hv.defects,
    ?_, ?_⟩
  · intro hne m hm
    rw [binWeight_flip h he]
    exact hv.weight (by simpa using hne) m ((h.bins k hk).maximumWeight.trans hm)
  · have hl := (h.bins k hk).numberOfResources
    intro r hr hpen p hpl
    obtain ⟨n, hn', rfl⟩ := List.mem_iff_getElem.mp hr
    have hn : n < (f.binType k).resources.length := by omega
    have hs := (h.bins k hk).resources n hn'
    have hc := consumption_flip h hk hn' (p.map flipPlaced)
    rw [List.getD_eq_getElem _ _ hn, List.getD_eq_getElem _ _ hn'] at hs hc
    have e : (p.map flipPlaced).map flipPlaced = p := by
      rw [List.map_map]; exact (List.map_congr_left fun q _ => rfl).trans (List.map_id p)
    have e2 : (l.map flipPlaced).map flipPlaced = l := by
      rw [List.map_map]; exact (List.map_congr_left fun q _ => rfl).trans (List.map_id l)
    rw [e] at hc
    rw [hc, ← hs.capacity]
    refine hv.resources _ (List.getElem_mem hn) (hs.penalize.trans hpen) _ ?_
    have := hpl.map flipPlaced
    rwa [e2] at this

theorem flip_unloading {a f : Instance} (h : FlippedOf a f) {l : List PlacedItem}
    (he : ∀ p ∈ l, p.itemTypeId < a.numberOfItemTypes) {c : UnloadingConstraint}
    (hu : UnloadingOk (exchangeAxes c) f l) : UnloadingOk c a (l.map flipPlaced) := by
  have hg : ∀ p ∈ l, groupOf a (flipPlaced p) = groupOf f p := fun p hp =>
    ((h.items _ (he p hp)).groupId).symm
  have ho : ∀ p ∈ l, occupies a (flipPlaced p) = flipRect (occupies f p) := fun p hp =>
    occupies_flip h (he p hp)
  cases c with
  | none => trivial
  | increasingX =>
    unfold UnloadingOk exchangeAxes at *
    dsimp only at *
    simp only [List.forall_mem_map]
    intro p hp q hq h1
    rw [hg p hp, hg q hq] at h1
    rw [ho p hp, ho q hq]
    exact hu p hp q hq h1
  | increasingY =>
    unfold UnloadingOk exchangeAxes at *
    dsimp only at *
    simp only [List.forall_mem_map]
    intro p hp q hq h1
    rw [hg p hp, hg q hq] at h1
    rw [ho p hp, ho q hq]
    exact hu p hp q hq h1
  | onlyXMovements =>
    unfold UnloadingOk exchangeAxes at *
    dsimp only at *
    simp only [List.forall_mem_map]
    intro p hp q hq h1 h2
    rw [ho p hp, ho q hq] at h1 h2
    rw [hg p hp, hg q hq]
    exact hu p hp q hq h1 h2
  | onlyYMovements =>
    unfold UnloadingOk exchangeAxes at *
    dsimp only at *
    simp only [List.forall_mem_map]
    intro p hp q hq h1 h2
    rw [ho p hp, ho q hq] at h1 h2
    rw [hg p hp, hg q hq]
    exact hu p hp q hq h1 h2

/-- A valid bin in the frame of a direction is valid in the instance. -/
theorem Ctx.export (h : Ctx s) (d : Direction) {b : Nat} (hb : b < s.inst.numberOfBinTypes)
    {l : List PlacedItem} {n : Node} (hl : LastOk (s.instanceOf d) b l n) :
    BinValid s.inst b (l.map (unframe d)) ∧ UnloadingSpec s.inst b (l.map (unframe d)) := by
  unfold Scheme.instanceOf at hl
  by_cases hd : d = .x
  · rw [if_pos hd] at hl
    have e : unframe d = id := by funext p; unfold unframe; rw [if_pos hd]; rfl
    rw [e, List.map_id]
    exact ⟨hl.valid, fun hc => hl.unloading fun e => hc (Or.inl e)⟩
  · rw [if_neg hd] at hl
    have e : unframe d = flipPlaced := by funext p; unfold unframe; rw [if_neg hd]
    rw [e]
    refine ⟨flip_binValid h.flipped hb hl.valid, fun hc => ?_⟩
    apply flip_unloading h.flipped
      (fun p hp => h.flipped.numberOfItemTypes ▸ hl.valid.packing.exist p hp)
    rw [← h.flipped.unloading]
    refine hl.unloading fun e => ?_
    rw [(h.flipped.bins b hb).defects]
    rw [h.flipped.unloading] at e
    rw [hc (Or.inr (by cases hu : s.inst.parameters.unloadingConstraint <;> rw [hu] at e <;>
      simp [exchangeAxes] at e))]
    rfl

theorem empty_valid {I : Instance} {b : Nat} (hb : b < I.numberOfBinTypes)
    (hc : CapacitiesNonneg I) : BinValid I b [] ∧ UnloadingSpec I b [] := by
  refine ⟨⟨⟨by simp, by simp, by simp, List.Pairwise.nil⟩, by intro p hp; simp at hp,
    fun h => absurd rfl h, hardOk_nil hb hc⟩, fun _ => ?_⟩
  unfold UnloadingOk
  split <;> simp

/-! ### Bin positions -/

theorem order_perm (I : Instance) : (binTypeIdOrder I).Perm (List.range I.numberOfBinTypes) := by
  unfold binTypeIdOrder
  split_ifs
  · exact List.perm_insertionSort _ _
  · exact List.Perm.refl _

theorem mem_ids {I : Instance} {b : Nat} (h : b ∈ schemeBinTypeIds I) : b < I.numberOfBinTypes := by
  unfold schemeBinTypeIds at h
  obtain ⟨c, hc, h⟩ := List.mem_flatMap.mp h
  rw [(List.mem_replicate.mp h).2]
  exact List.mem_range.mp ((order_perm I).mem_iff.mp hc)

theorem binPositions_eq (I : Instance) : binPositions I.binTypes
    = (List.range I.numberOfBinTypes).flatMap fun b =>
      List.replicate (I.binType b).copies.toNat b := by
  have e : I.binTypes.zipIdx = (List.range I.numberOfBinTypes).map fun i => (I.binType i, i) := by
    apply List.ext_getElem
    · simp [Instance.numberOfBinTypes]
    · intro i h1 h2
      have h3 : i < I.binTypes.length := by simpa using h1
      have : I.binType i = I.binTypes[i] := List.getD_eq_getElem _ _ h3
      simp [this]
  unfold binPositions
  rw [e, List.flatMap_map]

theorem ids_perm (I : Instance) : (schemeBinTypeIds I).Perm (binPositions I.binTypes) := by
  unfold schemeBinTypeIds
  rw [binPositions_eq]
  exact (order_perm I).flatMap_right _

theorem count_ids (I : Instance) {b : Nat} (hb : b < I.numberOfBinTypes) :
    (schemeBinTypeIds I).count b = (I.binType b).copies.toNat := by
  have key : ∀ l : List Nat, l.Nodup → ((l.flatMap fun b =>
      List.replicate (I.binType b).copies.toNat b).count b)
      = if b ∈ l then (I.binType b).copies.toNat else 0 := by
    intro l
    induction l with
    | nil => simp
    | cons c l ih =>
      intro hn
      rw [List.nodup_cons] at hn
      rw [List.flatMap_cons, List.count_append, ih hn.2, List.count_replicate]
      by_cases h : c = b
      · subst h; simp [hn.1]
      · have : b ≠ c := fun e => h e.symm
        simp [h, this]
  rw [(ids_perm I).count_eq, binPositions_eq, key _ List.nodup_range,
    if_pos (List.mem_range.mpr hb)]

theorem Ctx.numberOfBins (h : Ctx s) : s.inst.numberOfBins = s.binTypeIds.length := by
  rw [h.ids, (ids_perm s.inst).length_eq, ← h.agg.binTypeIds]
  rfl

theorem Ctx.id_lt (h : Ctx s) {k : Nat} (hk : k < s.binTypeIds.length) :
    s.binTypeIds.getD k 0 < s.inst.numberOfBinTypes := by
  have := getD_mem 0 hk
  rw [h.ids] at this ⊢
  exact mem_ids this

theorem Ctx.binPos (h : Ctx s) {b : Nat} (hb : b < s.inst.numberOfBinTypes) :
    0 ≤ (s.inst.binType b).area :=
  mul_nonneg (le_of_lt (h.bins b hb).x) (le_of_lt (h.bins b hb).y)

theorem Ctx.prev_eq (h : Ctx s) {k : Nat} (hk : k < s.binTypeIds.length) :
    s.previousBinsArea.getD k 0
      = ((s.binTypeIds.take k).map fun b => (s.inst.binType b).area).sum := by
  rw [h.previous]
  unfold schemePreviousBinsArea
  simp [List.getD_eq_getElem?_getD, hk]

theorem Ctx.prev_nonneg (h : Ctx s) {k : Nat} (hk : k < s.binTypeIds.length) :
    0 ≤ s.previousBinsArea.getD k 0 := by
  rw [h.prev_eq hk]
  apply List.sum_nonneg
  rw [List.forall_mem_map]
  intro b hb
  have := List.mem_of_mem_take hb
  rw [h.ids] at this
  exact h.binPos (mem_ids this)

theorem Ctx.prev_le (h : Ctx s) {j k : Nat} (hjk : j < k) (hk : k < s.binTypeIds.length) :
    s.previousBinsArea.getD j 0 + (s.inst.binType (s.binTypeIds.getD j 0)).area
      ≤ s.previousBinsArea.getD k 0 := by
  have hj : j < s.binTypeIds.length := by omega
  rw [h.prev_eq hk, h.prev_eq hj]
  obtain ⟨m, rfl⟩ : ∃ m, k = (j + 1) + m := ⟨k - (j + 1), by omega⟩
  rw [List.take_add, List.map_append, List.sum_append, List.take_add_one,
    List.getElem?_eq_getElem hj, List.map_append, List.sum_append, List.getD_eq_getElem _ _ hj]
  have : 0 ≤ (((s.binTypeIds.drop (j + 1)).take m).map fun b => (s.inst.binType b).area).sum := by
    apply List.sum_nonneg
    rw [List.forall_mem_map]
    intro b hb
    have := List.mem_of_mem_drop (List.mem_of_mem_take hb)
    rw [h.ids] at this
    exact h.binPos (mem_ids this)
  simp only [Option.toList_some, List.map_cons, List.map_nil, List.sum_cons, List.sum_nil, add_zero]
  omega

end PackingSolver.Rect.TreeSearch
