import Verif.Lemmas.Box.TreeLast
import Verif.Props.Box.Flip

/-! Helper lemmas: the three frames of the box branching scheme. -/

namespace PackingSolver.Box.TreeSearch

open Box.Spec FlipLemmas
open PackingSolver.OneDim (getD_mem)

/-- The situation in which the nodes of a scheme are studied. -/
structure Ctx (s : Scheme) : Prop where
  agg : Aggregates s.inst
  sizes : Sizes s.inst
  flippedY : FlippedOf .y s.inst s.flippedY
  aggY : Aggregates s.flippedY
  sizesY : Sizes s.flippedY
  flippedZ : FlippedOf .z s.inst s.flippedZ
  aggZ : Aggregates s.flippedZ
  sizesZ : Sizes s.flippedZ
  bins : ∀ k, k < s.inst.numberOfBinTypes → BinOk (s.inst.binType k)
  copies : ∀ i, i < s.inst.numberOfItemTypes → 0 < (s.inst.itemType i).copies
  capacities : CapacitiesNonneg s.inst
  ids : s.binTypeIds = schemeBinTypeIds s.inst
  previous : s.previousBinsVolume = schemePreviousBinsVolume s.inst s.binTypeIds

theorem new_fields {o : Objective} {inst : Instance} {params : Parameters} {s : Scheme}
    (h : Scheme.new o inst params = .ok s) :
    Flipper.flip o inst .y = .ok s.flippedY ∧ Flipper.flip o inst .z = .ok s.flippedZ
    ∧ s.inst = inst ∧ s.parameters = params ∧ s.binTypeIds = schemeBinTypeIds inst
    ∧ s.previousBinsVolume = schemePreviousBinsVolume inst (schemeBinTypeIds inst)
    ∧ s.predecessors = predecessorTable inst := by
  unfold Scheme.new at h
  obtain ⟨f, h1, h⟩ := bind_ok.mp h
  obtain ⟨g, h2, h⟩ := bind_ok.mp h
  simp only [Except.ok.injEq] at h
  subst h
  exact ⟨h1, h2, rfl, rfl, rfl, rfl, rfl⟩

theorem ctx_of_new {o o' : Objective} {ops : List InstanceBuilder.Op} {inst : Instance}
    {params : Parameters} {s : Scheme} (hb : InstanceBuilder.runOps o ops = .ok inst)
    (h : Scheme.new o' inst params = .ok s) (hc : CapacitiesNonneg inst) (hd : CopiesDefinite inst) :
    Ctx s := by
  obtain ⟨h1, h2, rfl, rfl, h4, h5, h6⟩ := new_fields h
  have a := instance_aggregates hb
  have b := instance_sizes_partial hb
  obtain ⟨f1, f2, f3, f4, f5⟩ := flip_ok (by simp) a b h1
  obtain ⟨g1, g2, g3, -, -⟩ := flip_ok (by simp) a b h2
  refine ⟨a, b, f1, f2, f3, g1, g2, g3, f4, ?_, hc, h4, by rw [h5, h4]⟩
  intro i hi
  rcases (f5 i hi).copies with h | h
  · exact absurd h (hd _ (getD_mem default hi))
  · exact h

/-- What the instance in one of the directions has in common with the instance. -/
structure FrameOk (d : Direction) (I J : Instance) : Prop where
  agg : Aggregates J
  sizes : Sizes J
  capacities : CapacitiesNonneg J
  nItems : J.numberOfItemTypes = I.numberOfItemTypes
  nBins : J.numberOfBinTypes = I.numberOfBinTypes
  copies : ∀ i, i < I.numberOfItemTypes → (J.itemType i).copies = (I.itemType i).copies
  box : ∀ i, i < I.numberOfItemTypes → (J.itemType i).box = (I.itemType i).box
  rotations : ∀ i, i < I.numberOfItemTypes →
    (J.itemType i).rotations = (I.itemType i).rotations.map (exchangeRotation d)
  weight : ∀ i, i < I.numberOfItemTypes → (J.itemType i).weight = (I.itemType i).weight
  profit : ∀ i, i < I.numberOfItemTypes → (J.itemType i).profit = (I.itemType i).profit
  binBox : ∀ b, b < I.numberOfBinTypes → (J.binType b).box = exchange d (I.binType b).box
  maximumWeight : ∀ b, b < I.numberOfBinTypes →
    (J.binType b).maximumWeight = (I.binType b).maximumWeight
  binPos : ∀ b, b < I.numberOfBinTypes →
    0 < (J.binType b).box.x ∧ 0 < (J.binType b).box.y ∧ 0 < (J.binType b).box.z
  resources : d ≠ .x → ∀ b, b < I.numberOfBinTypes → (J.binType b).resources = []
  same : d = .x → J = I

theorem exchangeRotation_x : exchangeRotation .x = id := by funext r; cases r <;> rfl

theorem frame_of_flipped {d : Direction} {I J : Instance} (hx : d ≠ .x) (h : FlippedOf d I J)
    (ha : Aggregates J) (hs : Sizes J) (hb : ∀ k, k < I.numberOfBinTypes → BinOk (I.binType k)) :
    FrameOk d I J where
  agg := ha
  sizes := hs
  capacities := by
    intro t ht r hr
    rw [flipped_no_resources h t ht] at hr
    simp at hr
  nItems := h.numberOfItemTypes
  nBins := h.numberOfBinTypes
  copies i hi := (h.items i hi).copies
  box i hi := (h.items i hi).box
  rotations i hi := (h.items i hi).rotations
  weight i hi := (h.items i hi).weight
  profit i hi := (h.items i hi).profit
  binBox b hb := (h.bins b hb).box
  maximumWeight b hb := (h.bins b hb).maximumWeight
  binPos b hk := by
    rw [(h.bins b hk).box]
    exact exchange_pos.mpr ⟨(hb b hk).x, (hb b hk).y, (hb b hk).z⟩
  resources _ b hk := (h.dropped b hk).2
  same e := absurd e hx

theorem Ctx.frame {s : Scheme} (h : Ctx s) {d : Direction} (hd : d ≠ .any) :
    FrameOk d s.inst (s.instanceOf d) := by
  cases d with
  | x =>
    exact ⟨h.agg, h.sizes, h.capacities, rfl, rfl, fun _ _ => rfl, fun _ _ => rfl,
      fun i _ => by rw [exchangeRotation_x, List.map_id]; rfl, fun _ _ => rfl, fun _ _ => rfl,
      fun _ _ => rfl, fun _ _ => rfl, fun b hb => ⟨(h.bins b hb).x, (h.bins b hb).y, (h.bins b hb).z⟩,
      fun e => absurd rfl e, fun _ => rfl⟩
  | y => exact frame_of_flipped (by simp) h.flippedY h.aggY h.sizesY h.bins
  | z => exact frame_of_flipped (by simp) h.flippedZ h.aggZ h.sizesZ h.bins
  | any => exact absurd rfl hd

section
variable {d : Direction} {I J : Instance}

theorem frame_occupies (h : FrameOk d I J) {p : PlacedItem}
    (hp : p.itemTypeId < I.numberOfItemTypes) :
    occupies I (flipPlaced d p) = flipBox d (occupies J p) := by
  obtain ⟨i, x, y, z, r⟩ := p
  unfold occupies flipPlaced flipBox
  simp only [rotated_exchange, h.box _ hp]

theorem frame_binPacking (h : FrameOk d I J) {k : Nat} (hk : k < I.numberOfBinTypes)
    {l : List PlacedItem} (hv : BinPacking J k l) : BinPacking I k (l.map (flipPlaced d)) := by
  have he : ∀ p ∈ l, p.itemTypeId < I.numberOfItemTypes := fun p hp => h.nItems ▸ hv.exist p hp
  have hbox : exchange d (J.binType k).box = (I.binType k).box := by
    rw [h.binBox k hk, exchange_twice]
  refine ⟨?_, ?_, ?_, ?_⟩
  · simp only [List.forall_mem_map]
    exact he
  · simp only [List.forall_mem_map]
    intro p hp
    have := hv.rotation p hp
    rw [h.rotations _ (he p hp), List.mem_map] at this
    obtain ⟨q, hq, e⟩ := this
    change exchangeRotation d p.rotation ∈ (I.itemType p.itemTypeId).rotations
    rw [← e, exchangeRotation_twice]
    exact hq
  · simp only [List.forall_mem_map]
    intro p hp
    rw [frame_occupies h (he p hp), ← hbox, inside_flip]
    exact hv.inside p hp
  · rw [List.pairwise_map]
    refine hv.separated.imp_of_mem ?_
    intro p q hp hq hpq
    rw [frame_occupies h (he p hp), frame_occupies h (he q hq), separated_flip]
    exact hpq

theorem frame_binWeight (h : FrameOk d I J) {l : List PlacedItem}
    (he : ∀ p ∈ l, p.itemTypeId < I.numberOfItemTypes) :
    binWeight I (l.map (flipPlaced d)) = binWeight J l := by
  unfold binWeight
  rw [List.map_map]
  congr 1
  apply List.map_congr_left
  intro p hp
  exact (h.weight _ (he p hp)).symm

theorem flipPlaced_x : flipPlaced .x = id := by
  funext p
  obtain ⟨i, x, y, z, r⟩ := p
  cases r <;> rfl

/-- A valid bin in the frame of a direction is valid in the instance. -/
theorem frame_export (h : FrameOk d I J) {b : Nat} (hb : b < I.numberOfBinTypes)
    {l : List PlacedItem} {n : Node} (hl : LastOk J b l n) :
    BinValid I b (l.map (flipPlaced d))
    ∧ (d = .x → ResourcesRespected I b (l.map (flipPlaced d))) := by
  have he : ∀ p ∈ l, p.itemTypeId < I.numberOfItemTypes := fun p hp =>
    h.nItems ▸ hl.valid.packing.exist p hp
  refine ⟨⟨frame_binPacking h hb hl.valid.packing, ?_⟩, ?_⟩
  · intro hne m hm
    rw [frame_binWeight h he]
    exact hl.valid.weight (by simpa using hne) m ((h.maximumWeight b hb).trans hm)
  · intro e
    have := hl.hard
    rw [h.same e] at this
    rw [e, flipPlaced_x, List.map_id]
    exact this

end

variable {s : Scheme}

theorem empty_valid {I : Instance} {b : Nat} (hb : b < I.numberOfBinTypes)
    (hc : CapacitiesNonneg I) : BinValid I b [] ∧ ResourcesRespected I b [] :=
  ⟨⟨⟨by simp, by simp, by simp, List.Pairwise.nil⟩, fun h => absurd rfl h⟩, hardOk_nil hb hc⟩

/-! ### Bin positions -/

theorem order_perm (I : Instance) : (binTypeIdOrder I).Perm (List.range I.numberOfBinTypes) := by
  unfold binTypeIdOrder
  split_ifs
  · exact List.perm_insertionSort _ _
  · exact List.Perm.refl _

theorem mem_ids {I : Instance} {b : Nat} (h : b ∈ schemeBinTypeIds I) : b < I.numberOfBinTypes := by
  unfold schemeBinTypeIds at h
  obtain ⟨c, hc, h⟩ := List.mem_flatMap.mp h
  rw [(List.mem_replicate.mp h).2]
  exact List.mem_range.mp ((order_perm I).mem_iff.mp hc)

theorem binPositions_eq (I : Instance) : binPositions I.binTypes
    = (List.range I.numberOfBinTypes).flatMap fun b =>
      List.replicate (I.binType b).copies.toNat b := by
  have e : I.binTypes.zipIdx = (List.range I.numberOfBinTypes).map fun i => (I.binType i, i) := by
    apply List.ext_getElem
    · simp [Instance.numberOfBinTypes]
    · intro i h1 h2
      have h3 : i < I.binTypes.length := by simpa using h1
      have : I.binType i = I.binTypes[i] := List.getD_eq_getElem _ _ h3
      simp [this]
  unfold binPositions
  rw [e, List.flatMap_map]

theorem ids_perm (I : Instance) : (schemeBinTypeIds I).Perm (binPositions I.binTypes) := by
  unfold schemeBinTypeIds
  rw [binPositions_eq]
  exact (order_perm I).flatMap_right _

theorem count_ids (I : Instance) {b : Nat} (hb : b < I.numberOfBinTypes) :
    (schemeBinTypeIds I).count b = (I.binType b).copies.toNat := by
  have key : ∀ l : List Nat, l.Nodup → ((l.flatMap fun b =>
      List.replicate (I.binType b).copies.toNat b).count b)
      = if b ∈ l then (I.binType b).copies.toNat else 0 := by
    intro l
    induction l with
    | nil => simp
    | cons c l ih =>
      intro hn
      rw [List.nodup_cons] at hn
      rw [List.flatMap_cons, List.count_append, ih hn.2, List.count_replicate]
      by_cases h : c = b
      · subst h; simp [hn.1]
      · have : b ≠ c := fun e => h e.symm
        simp [h, this]
  rw [(ids_perm I).count_eq, binPositions_eq, key _ List.nodup_range,
    if_pos (List.mem_range.mpr hb)]

theorem Ctx.numberOfBins (h : Ctx s) : s.inst.numberOfBins = s.binTypeIds.length := by
  rw [h.ids, (ids_perm s.inst).length_eq, ← h.agg.binTypeIds]
  rfl

theorem Ctx.id_lt (h : Ctx s) {k : Nat} (hk : k < s.binTypeIds.length) :
    s.binTypeIds.getD k 0 < s.inst.numberOfBinTypes := by
  have := getD_mem 0 hk
  rw [h.ids] at this ⊢
  exact mem_ids this

theorem Ctx.binPos (h : Ctx s) {b : Nat} (hb : b < s.inst.numberOfBinTypes) :
    0 ≤ (s.inst.binType b).volume :=
  mul_nonneg (mul_nonneg (le_of_lt (h.bins b hb).x) (le_of_lt (h.bins b hb).y)) (le_of_lt (h.bins b hb).z)

theorem Ctx.prev_eq (h : Ctx s) {k : Nat} (hk : k < s.binTypeIds.length) :
    s.previousBinsVolume.getD k 0
      = ((s.binTypeIds.take k).map fun b => (s.inst.binType b).volume).sum := by
  rw [h.previous]
  unfold schemePreviousBinsVolume
  simp [List.getD_eq_getElem?_getD, hk]

theorem Ctx.prev_nonneg (h : Ctx s) {k : Nat} (hk : k < s.binTypeIds.length) :
    0 ≤ s.previousBinsVolume.getD k 0 := by
  rw [h.prev_eq hk]
  apply List.sum_nonneg
  rw [List.forall_mem_map]
  intro b hb
  have := List.mem_of_mem_take hb
  rw [h.ids] at this
  exact h.binPos (mem_ids this)

theorem Ctx.prev_le (h : Ctx s) {j k : Nat} (hjk : j < k) (hk : k < s.binTypeIds.length) :
    s.previousBinsVolume.getD j 0 + (s.inst.binType (s.binTypeIds.getD j 0)).volume
      ≤ s.previousBinsVolume.getD k 0 := by
  have hj : j < s.binTypeIds.length := by omega
  rw [h.prev_eq hk, h.prev_eq hj]
  obtain ⟨m, rfl⟩ : ∃ m, k = (j + 1) + m := ⟨k - (j + 1), by omega⟩
  rw [List.take_add, List.map_append, List.sum_append, List.take_add_one,
    List.getElem?_eq_getElem hj, List.map_append, List.sum_append, List.getD_eq_getElem _ _ hj]
  have : 0 ≤ (((s.binTypeIds.drop (j + 1)).take m).map fun b => (s.inst.binType b).volume).sum := by
    apply List.sum_nonneg
    rw [List.forall_mem_map]
    intro b hb
    have := List.mem_of_mem_drop (List.mem_of_mem_take hb)
    rw [h.ids] at this
    exact h.binPos (mem_ids this)
  simp only [Option.toList_some, List.map_cons, List.map_nil, List.sum_cons, List.sum_nil, add_zero]
  omega

end PackingSolver.Box.TreeSearch
