import Verif.Lemmas.Box.Unflip
import Verif.Lemmas.Box.Run
import Verif.Props.Box.Build
import Verif.Props.Box.Solution
import Verif.Props.Box.Compare

/-!
# Exchanging the axes of a box instance and of a solution (C95)
-/

namespace PackingSolver.Box

open Box.Spec FlipLemmas
open PackingSolver.OneDim.Examples (okD)
open PackingSolver.OneDim (getD_mem)

variable {a f : Instance} {s s' : Solution} {d : Direction} {o o' : Objective}

/-- **C95** (rotations): an item turned by the exchanged rotation has the exchanged dimensions, and
exchanging twice changes nothing; the flipper's tables compute this rotation. -/
theorem rotation_exchanged (hd : d ≠ .any) (b : Dims) (r : Rotation) :
    Flipper.flippedRotation r d = .ok (exchangeRotation d r)
    ∧ rotated b (exchangeRotation d r) = exchange d (rotated b r)
    ∧ exchangeRotation d (exchangeRotation d r) = r :=
  ⟨flippedRotation_eq hd r, rotated_exchange d b r, exchangeRotation_twice d r⟩

/-- **C95**: the flipped instance of a built instance has the same item and bin types with two axes
exchanged (bin sides, rotations, open dimension), the same profits, copies, weights, costs and
maximum weights, and it is itself consistent.  Not kept: the minimum numbers of copies, the
resources and the callback. -/
theorem flip_exchanges_axes {ops : List InstanceBuilder.Op} (hd : d ≠ .any)
    (h : InstanceBuilder.runOps o ops = .ok a) (hf : Flipper.flip o' a d = .ok f) :
    FlippedOf d a f ∧ Aggregates f ∧ Sizes f := by
  obtain ⟨h1, h2, h3, -⟩ := flip_ok hd (instance_aggregates h) (instance_sizes_partial h) hf
  exact ⟨h1, h2, h3⟩

theorem copies_sum_eq {f : Instance} (hf : Aggregates f) (hc : ∀ t ∈ f.binTypes, 0 ≤ t.copies) :
    (f.numberOfBins : Int) = (f.binTypes.map (·.copies)).sum := by
  unfold Instance.numberOfBins
  rw [hf.binTypeIds, binPositions_length hc]

theorem flipped_map_items {β : Type} (h : FlippedOf d a f) (g g' : ItemType → β)
    (hg : ∀ t t', FlippedItem d t t' → g' t' = g t) :
    f.itemTypes.map g' = a.itemTypes.map g := by
  have hl : f.itemTypes.length = a.itemTypes.length := h.numberOfItemTypes
  apply List.ext_getElem
  · simp [hl]
  · intro i h1 h2
    have hi : i < a.itemTypes.length := by simpa using h2
    have := hg _ _ (h.items i hi)
    unfold Instance.itemType at this
    rw [List.getD_eq_getElem _ _ (by omega), List.getD_eq_getElem _ _ hi] at this
    simpa using this

theorem flipped_map_bins {β : Type} (h : FlippedOf d a f) (g g' : BinType → β)
    (hg : ∀ t t', FlippedBin d t t' → g' t' = g t) : f.binTypes.map g' = a.binTypes.map g := by
  have hl : f.binTypes.length = a.binTypes.length := h.numberOfBinTypes
  apply List.ext_getElem
  · simp [hl]
  · intro i h1 h2
    have hi : i < a.binTypes.length := by simpa using h2
    have := hg _ _ (h.bins i hi)
    unfold Instance.binType at this
    rw [List.getD_eq_getElem _ _ (by omega), List.getD_eq_getElem _ _ hi] at this
    simpa using this

/-- **C95** (when): a built instance without negative numbers of copies can be flipped exactly if
its bins have positive sides, copies and costs (or cost `-1`), its item types have copies, and an
open dimension comes with one bin. -/
theorem flip_succeeds_iff {ops : List InstanceBuilder.Op} (hd : d ≠ .any)
    (h : InstanceBuilder.runOps o ops = .ok a) (hc : ∀ t ∈ a.itemTypes, 0 ≤ t.copies) :
    (∃ f, Flipper.flip o' a d = .ok f) ↔ Flippable a := by
  have hs := instance_sizes_partial h
  have ha := instance_aggregates h
  constructor
  · rintro ⟨f, hf⟩
    obtain ⟨h1, h2, h3, hb, hi⟩ := flip_ok hd ha hs hf
    have hn : 0 ≤ a.numberOfItems := by
      rw [ha.numberOfItems]
      exact List.sum_nonneg (by
        intro x hx
        obtain ⟨t, ht, rfl⟩ := List.mem_map.mp hx
        exact hc t ht)
    have hbins : ∀ t ∈ a.binTypes, (0 < t.box.x ∧ 0 < t.box.y ∧ 0 < t.box.z) ∧ 0 < t.copies
        ∧ (t.cost = -1 ∨ 0 < t.cost) := by
      intro t ht
      obtain ⟨k, hk, rfl⟩ := List.mem_iff_getElem.mp ht
      have hbk := hb k hk
      have e : a.binType k = a.binTypes[k] := List.getD_eq_getElem _ _ hk
      rw [e] at hbk
      refine ⟨⟨hbk.x, hbk.y, hbk.z⟩, ?_, hbk.cost⟩
      have h4 := (hs.bins _ ht).2
      have h5 := hbk.copies
      omega
    refine ⟨hbins, ?_, ?_⟩
    · intro t ht
      obtain ⟨k, hk, rfl⟩ := List.mem_iff_getElem.mp ht
      have hik := (hi k hk).copies
      have e : a.itemType k = a.itemTypes[k] := List.getD_eq_getElem _ _ hk
      rw [e] at hik
      have := hc _ ht
      omega
    · intro ho
      have ho' : f.objective = .openDimensionX ∨ f.objective = .openDimensionY := by
        rw [h1.objective]
        rcases ho with e | e | e <;> rw [e] <;> simp
      have hcop := flipped_map_bins h1 (·.copies) (·.copies) (fun t t' e => e.copies)
      rw [← hcop, ← copies_sum_eq h2, h3.openDimension ho']
      · rfl
      · intro t ht
        have : t.copies ∈ f.binTypes.map (·.copies) := List.mem_map.mpr ⟨t, ht, rfl⟩
        rw [hcop] at this
        obtain ⟨u, hu, e⟩ := List.mem_map.mp this
        have := (hbins u hu).2.1
        omega
  · intro hf
    exact flip_succeeds o' hd hs hf

/-- **C95**: totals of the flipped instance. -/
theorem flip_totals {ops : List InstanceBuilder.Op} (hd : d ≠ .any)
    (h : InstanceBuilder.runOps o ops = .ok a) (hf : Flipper.flip o' a d = .ok f) :
    f.numberOfItems = a.numberOfItems ∧ f.itemVolume = a.itemVolume ∧ f.itemProfit = a.itemProfit
    ∧ f.itemWeight = a.itemWeight ∧ f.binVolume = a.binVolume ∧ f.binTypeIds = a.binTypeIds := by
  obtain ⟨h1, h2, -⟩ := flip_exchanges_axes hd h hf
  have ha := instance_aggregates h
  have hb := flipped_map_bins h1 (·.copies) (·.copies) (fun t t' e => e.copies)
  refine ⟨?_, ?_, ?_, ?_, ?_, ?_⟩
  · rw [h2.numberOfItems, ha.numberOfItems, flipped_map_items h1 (·.copies) _ fun t t' e => e.copies]
  · rw [h2.itemVolume, ha.itemVolume,
      flipped_map_items h1 (fun t => t.copies * volumeOf t.box)]
    intro t t' e
    rw [e.copies, e.box]
  · rw [h2.itemProfit, ha.itemProfit, flipped_map_items h1 (fun t => (t.copies : ℚ) * t.profit)]
    intro t t' e
    rw [e.copies, e.profit]
  · rw [h2.itemWeight, ha.itemWeight, flipped_map_items h1 (fun t => (t.copies : ℚ) * t.weight)]
    intro t t' e
    rw [e.copies, e.weight]
  · rw [h2.binVolume, ha.binVolume, flipped_map_bins h1 (fun t => t.copies * volumeOf t.box)]
    intro t t' e
    rw [e.copies, e.box]
    congr 1
    cases d <;> simp only [volumeOf, exchange] <;> ring
  · have : ∀ l : List BinType, binPositions l
        = (l.map (·.copies)).zipIdx.flatMap fun p => List.replicate p.1.toNat p.2 := by
      intro l
      unfold binPositions
      rw [List.zipIdx_map, List.flatMap_map]
      rfl
    rw [h2.binTypeIds, ha.binTypeIds, this, this, hb]

/-- **C95** (geometry): a list of placed items is a packing of a bin of the flipped instance
exactly if the items with exchanged coordinates and rotations are a packing of that bin of the
original. -/
theorem flip_binPacking_iff (h : FlippedOf d a f) {k : Nat} (hk : k < a.numberOfBinTypes)
    (l : List PlacedItem) : BinPacking a k (l.map (flipPlaced d)) ↔ BinPacking f k l := by
  have hb := h.bins k hk
  have hbox : exchange d (f.binType k).box = (a.binType k).box := by
    rw [hb.box, exchange_twice]
  have ho : ∀ p ∈ l, p.itemTypeId < a.numberOfItemTypes →
      occupies a (flipPlaced d p) = flipBox d (occupies f p) := fun p _ hp => occupies_flip h hp
  constructor
  · intro hp
    have hm : ∀ p ∈ l, flipPlaced d p ∈ l.map (flipPlaced d) := fun p hpl =>
      List.mem_map.mpr ⟨p, hpl, rfl⟩
    have he : ∀ p ∈ l, p.itemTypeId < a.numberOfItemTypes := fun p hpl =>
      hp.exist (flipPlaced d p) (hm p hpl)
    refine ⟨fun p hpl => h.numberOfItemTypes ▸ he p hpl, fun p hpl => ?_, fun p hpl => ?_, ?_⟩
    · exact (rotation_flip h (he p hpl) _).mp (hp.rotation (flipPlaced d p) (hm p hpl))
    · have := hp.inside (flipPlaced d p) (hm p hpl)
      rwa [ho p hpl (he p hpl), ← hbox, inside_flip] at this
    · have := hp.separated
      rw [List.pairwise_map] at this
      refine this.imp_of_mem ?_
      intro p q hpl hql hs
      rwa [ho p hpl (he p hpl), ho q hql (he q hql), separated_flip] at hs
  · intro hp
    have he : ∀ p ∈ l, p.itemTypeId < a.numberOfItemTypes := fun p hpl =>
      h.numberOfItemTypes ▸ hp.exist p hpl
    refine ⟨?_, ?_, ?_, ?_⟩
    · rw [List.forall_mem_map]; exact he
    · rw [List.forall_mem_map]
      intro p hpl
      exact (rotation_flip h (he p hpl) _).mpr (hp.rotation p hpl)
    · rw [List.forall_mem_map]
      intro p hpl
      rw [ho p hpl (he p hpl), ← hbox, inside_flip]
      exact hp.inside p hpl
    · rw [List.pairwise_map]
      refine hp.separated.imp_of_mem ?_
      intro p q hpl hql hs
      rwa [ho p hpl (he p hpl), ho q hql (he q hql), separated_flip]

/-- **C95** (structure): `unflip_solution` lists the same bins with the same items, coordinates and
rotations exchanged, as a solution of the original instance that a caller could have built. -/
theorem unflip_packing (hd : d ≠ .any) (h : Flipper.unflipSolution a d s = .ok s') :
    packingOf s' = flipPacking d (packingOf s)
    ∧ ∃ ops, SolutionBuilder.runOps a ops = .ok s' := by
  obtain ⟨-, h2, h3⟩ := unflip_ok hd h
  exact ⟨h2, h3⟩

/-- **C95**: `unflip_solution` accepts every solution of the flipped instance that its builder
makes. -/
theorem unflip_accepts (hd : d ≠ .any) (h : FlippedOf d a f) {ops : List BuilderOp}
    (hs : SolutionBuilder.runOps f ops = .ok s) :
    ∃ s', Flipper.unflipSolution a d s = .ok s' := by
  obtain ⟨-, ht, hro⟩ := builder_packing hs
  have hta : WellTyped a (packingOf s) := by
    unfold WellTyped at ht ⊢
    rwa [← h.numberOfItemTypes, ← h.numberOfBinTypes]
  obtain ⟨sb, h1⟩ := (unflip_bins hd s.bins (raw_new a)).2 hta (by
    intro b hb p hp
    have hb' : (⟨b.binTypeId, b.copies, b.items⟩ : PackedBin) ∈ packingOf s :=
      List.mem_map.mpr ⟨b, hb, rfl⟩
    exact (rotation_flip h ((hta _ hb').2 p hp) _).mpr (hro _ hb' p hp))
  have hr := (unflip_bins hd s.bins (raw_new a)).1 sb h1
  rw [List.nil_append] at hr
  obtain ⟨s', h2⟩ := build_succeeds hr ((wellTyped_flip h _).mpr ht)
  exact ⟨s', bind_ok.mpr ⟨sb, h1, h2⟩⟩

/-- **C95** (totals): the unflipped solution reports the same totals as the flipped one.  The
costs agree if no bin type has the reserved cost `-1`. -/
theorem unflip_totals (hd : d ≠ .any) (h : FlippedOf d a f) (hs : Reachable f s)
    (hu : Flipper.unflipSolution a d s = .ok s') :
    s'.numberOfBins = s.numberOfBins ∧ s'.numberOfItems = s.numberOfItems
    ∧ s'.binVolume = s.binVolume ∧ s'.itemVolume = s.itemVolume ∧ s'.itemWeight = s.itemWeight
    ∧ ((∀ t ∈ a.binTypes, t.cost ≠ -1) → s'.binCost = s.binCost)
    ∧ (∀ t, t < a.numberOfBinTypes → s'.binCopies[t]? = s.binCopies[t]?)
    ∧ (∀ i, i < a.numberOfItemTypes → s'.itemCopies[i]? = s.itemCopies[i]?) := by
  obtain ⟨hp, ops, hops⟩ := unflip_packing hd hu
  obtain ⟨a1, a2, -, a3, a4, a5, a6, a7, a8⟩ := indicators_exact (.built ops s' hops)
  obtain ⟨b1, b2, -, b3, b4, b5, b6, b7, b8⟩ := indicators_exact hs
  have ht : WellTyped f (packingOf s) := hs.good.typed
  unfold WellTyped at ht
  rw [h.numberOfItemTypes, h.numberOfBinTypes] at ht
  rw [hp] at a1 a2 a3 a4 a5 a6 a7 a8
  refine ⟨?_, ?_, ?_, ?_, ?_, fun hc => ?_, fun t htt => ?_, fun i hi => ?_⟩
  · rw [a1, b1]; unfold Spec.numberOfBins flipPacking; rw [List.map_map]; rfl
  · rw [a2, b2]; unfold Spec.numberOfItems flipPacking; rw [List.map_map]
    apply map_congr_sum; intro b _; simp
  · rw [a3, b3]; unfold Spec.binVolume flipPacking; rw [List.map_map]
    apply map_congr_sum; intro b hb
    have := h.bins _ (ht b hb).1
    simp only [Function.comp_apply]
    rw [this.box]
    congr 1
    cases d <;> simp only [volumeOf, exchange] <;> ring
  · rw [a4, b4]; unfold Spec.itemVolume flipPacking; rw [List.map_map]
    apply map_congr_sum; intro b hb
    simp only [Function.comp_apply, List.map_map]
    congr 2
    apply List.map_congr_left
    intro p hpb
    have := h.items _ ((ht b hb).2 p hpb)
    simp only [Function.comp_apply]
    rw [this.box]; rfl
  · rw [a5, b5]; unfold Spec.itemWeight flipPacking; rw [List.map_map]
    apply map_congr_sum; intro b hb
    simp only [Function.comp_apply]
    rw [binWeight_flip h (ht b hb).2]
  · rw [a6, b6]; unfold Spec.cost flipPacking; rw [List.map_map]
    apply map_congr_sum; intro b hb
    have hb' := h.bins _ (ht b hb).1
    have hne : (a.binType b.binTypeId).cost ≠ -1 := hc _ (getD_mem default (ht b hb).1)
    simp only [Function.comp_apply]
    rw [hb'.cost, if_neg hne]
  · rw [a7 t htt, b7 t (h.numberOfBinTypes ▸ htt)]
    unfold Spec.binCopies flipPacking; rw [List.map_map]; rfl
  · rw [a8 i hi, b8 i (h.numberOfItemTypes ▸ hi)]
    unfold Spec.itemCopies flipPacking; rw [List.map_map]
    congr 1
    apply map_congr_sum; intro b _
    simp only [Function.comp_apply]
    rw [count_flip]

/-- **C95** (extents): the extents of the last bin are exchanged; in particular the open dimension
y (or z) of the unflipped solution is the open dimension x of the flipped one. -/
theorem unflip_extents (hd : d ≠ .any) (h : FlippedOf d a f) (hs : Reachable f s)
    (hz : HeightTracked f s) (hu : Flipper.unflipSolution a d s = .ok s') :
    (⟨s'.xMax, s'.yMax, s'.zMax⟩ : Dims) = exchange d ⟨s.xMax, s.yMax, s.zMax⟩ := by
  obtain ⟨hp, ops, hops⟩ := unflip_packing hd hu
  have hs' : Reachable a s' := .built ops s' hops
  have ht : WellTyped f (packingOf s) := hs.good.typed
  unfold WellTyped at ht
  rw [h.numberOfItemTypes, h.numberOfBinTypes] at ht
  obtain ⟨hx, hy, -⟩ := extents_exact_partial hs
  obtain ⟨hx', hy', -⟩ := extents_exact_partial hs'
  have hzz := zMax_exact_partial hs hz
  have hz' := zMax_exact_partial hs' (.inl ⟨ops, hops⟩)
  have hl : lastItems (packingOf s') = (lastItems (packingOf s)).map (flipPlaced d) := by
    rw [hp]
    unfold lastItems flipPacking
    rw [List.getLast?_map]
    cases (packingOf s).getLast? <;> rfl
  have hmem : ∀ p ∈ lastItems (packingOf s), p.itemTypeId < a.numberOfItemTypes := by
    intro p hpl
    unfold lastItems at hpl
    cases hg : (packingOf s).getLast? with
    | none => rw [hg] at hpl; simp at hpl
    | some b =>
      rw [hg] at hpl
      exact (ht b (List.mem_of_getLast? hg)).2 p hpl
  have key : ∀ (g : Placed → Int) (e : PlacedItem → Int)
      (_ : ∀ p, e p = g (flipBox d (occupies f p))),
      (lastItems (packingOf s')).map (fun p => g (occupies a p))
        = (lastItems (packingOf s)).map e := by
    intro g e he
    rw [hl, List.map_map]
    apply List.map_congr_left
    intro p hpl
    simp only [Function.comp_apply]
    rw [occupies_flip h (hmem p hpl), he]
  have ex : ∀ e, (∀ p, e p = (fun r : Placed => r.x + r.dx) (flipBox d (occupies f p))) →
      OneDim.Spec.IsMaxWithZero ((lastItems (packingOf s)).map e) s'.xMax := by
    intro e he
    have := key (fun r => r.x + r.dx) e he
    rw [← this]; exact hx'
  have ey : ∀ e, (∀ p, e p = (fun r : Placed => r.y + r.dy) (flipBox d (occupies f p))) →
      OneDim.Spec.IsMaxWithZero ((lastItems (packingOf s)).map e) s'.yMax := by
    intro e he
    have := key (fun r => r.y + r.dy) e he
    rw [← this]; exact hy'
  have ez : ∀ e, (∀ p, e p = (fun r : Placed => r.z + r.dz) (flipBox d (occupies f p))) →
      OneDim.Spec.IsMaxWithZero ((lastItems (packingOf s)).map e) s'.zMax := by
    intro e he
    have := key (fun r => r.z + r.dz) e he
    rw [← this]; exact hz'
  have uniq : ∀ {l : List Int} {m n : Int}, OneDim.Spec.IsMaxWithZero l m →
      OneDim.Spec.IsMaxWithZero l n → m = n := fun h1 h2 => Rect.isMaxWithZero_unique h1 h2
  cases d with
  | any => exact absurd rfl hd
  | x =>
    simp only [exchange, Dims.mk.injEq]
    exact ⟨uniq (ex (rightEnd f) fun p => rfl) hx, uniq (ey (rearEnd f) fun p => rfl) hy,
      uniq (ez (topEnd f) fun p => rfl) hzz⟩
  | y =>
    simp only [exchange, Dims.mk.injEq]
    exact ⟨uniq (ex (rearEnd f) fun p => rfl) hy, uniq (ey (rightEnd f) fun p => rfl) hx,
      uniq (ez (topEnd f) fun p => rfl) hzz⟩
  | z =>
    simp only [exchange, Dims.mk.injEq]
    exact ⟨uniq (ex (topEnd f) fun p => rfl) hzz, uniq (ey (rearEnd f) fun p => rfl) hy,
      uniq (ez (rightEnd f) fun p => rfl) hx⟩

theorem penalties_none {inst : Instance} {b : Nat} (h : (inst.binType b).resources = [])
    (l : List PlacedItem) : penalties inst b l = 0 := by
  unfold penalties; rw [h]; rfl

theorem flipped_no_resources (h : FlippedOf d a f) : ∀ t ∈ f.binTypes, t.resources = [] := by
  intro t ht
  obtain ⟨k, hk, rfl⟩ := List.mem_iff_getElem.mp ht
  have hk' : k < a.numberOfBinTypes := by rw [← h.numberOfBinTypes]; exact hk
  have := (h.dropped k hk').2
  have e : f.binType k = f.binTypes[k] := List.getD_eq_getElem _ _ hk
  rwa [e] at this

theorem no_resources_nonneg {inst : Instance} (h : ∀ t ∈ inst.binTypes, t.resources = []) :
    CapacitiesNonneg inst ∧ ConsumptionsNonneg inst := by
  constructor
  · intro t ht r hr; rw [h t ht] at hr; simp at hr
  · intro t ht r hr; rw [h t ht] at hr; simp at hr

/-- **C95** (profit): for an instance without resources the unflipped solution has the same profit.
Missing: penalties of the original's resources (see `flip_loses_resources`). -/
theorem unflip_profit_partial {ops : List InstanceBuilder.Op} (hd : d ≠ .any)
    (h : InstanceBuilder.runOps o ops = .ok a)
    (hf : Flipper.flip o' a d = .ok f) (hs : Reachable f s)
    (hu : Flipper.unflipSolution a d s = .ok s')
    (hr : ∀ t ∈ a.binTypes, t.resources = []) : s'.itemProfit = s.itemProfit := by
  obtain ⟨hfl, hag, -⟩ := flip_exchanges_axes hd h hf
  obtain ⟨hp, uops, huops⟩ := unflip_packing hd hu
  have ht : WellTyped f (packingOf s) := hs.good.typed
  unfold WellTyped at ht
  rw [hfl.numberOfItemTypes, hfl.numberOfBinTypes] at ht
  have hrf := flipped_no_resources hfl
  rw [profit_exact (.built uops s' huops) (instance_aggregates h).resourceIds
      (no_resources_nonneg hr).1 (no_resources_nonneg hr).2,
    profit_exact hs hag.resourceIds (no_resources_nonneg hrf).1 (no_resources_nonneg hrf).2, hp]
  unfold reportedProfit flipPacking
  rw [List.map_map]
  apply map_congr_sum
  intro b hb
  simp only [Function.comp_apply]
  rw [itemsProfit_flip hfl (ht b hb).2, penalties_none (hr _ (getD_mem default (ht b hb).1)),
    penalties_none (hfl.dropped _ (ht b hb).1).2]

/-- **C95** (feasibility): for an instance without resources, with the default minimum numbers of
copies and a callback that accepts the unflipped packing, the unflipped solution is reported as
feasible exactly if the flipped one is.  Missing: the rest is not passed to the flipped instance
(see below). -/
theorem unflip_feasible_partial {ops : List InstanceBuilder.Op} (hd : d ≠ .any)
    (h : InstanceBuilder.runOps o ops = .ok a) (hf : Flipper.flip o' a d = .ok f)
    (hs : Reachable f s) (hu : Flipper.unflipSolution a d s = .ok s') (hne : packingOf s ≠ [])
    (hr : ∀ t ∈ a.binTypes, t.resources = [])
    (hmin : ∀ i, i < a.numberOfItemTypes → (a.itemType i).copiesMin
      = if a.objective = .knapsack then 0 else (a.itemType i).copies)
    (hcb : a.callback (packingOf s') = true) :
    s'.feasible = s.feasible := by
  obtain ⟨hfl, hag, -⟩ := flip_exchanges_axes hd h hf
  obtain ⟨hp, uops, huops⟩ := unflip_packing hd hu
  have ht : WellTyped f (packingOf s) := hs.good.typed
  unfold WellTyped at ht
  rw [hfl.numberOfItemTypes, hfl.numberOfBinTypes] at ht
  have hrf := flipped_no_resources hfl
  have hne' : packingOf s' ≠ [] := by rw [hp]; unfold flipPacking; simpa using hne
  rw [Bool.eq_iff_iff, feasible_iff_partial (.built uops s' huops) hne'
      (instance_aggregates h).resourceIds (no_resources_nonneg hr).1,
    feasible_iff_partial hs hne hag.resourceIds (no_resources_nonneg hrf).1, hcb,
    hfl.callback]
  have h1 : CopiesOk a (packingOf s') ↔ CopiesOk f (packingOf s) := by
    unfold CopiesOk
    rw [hfl.numberOfItemTypes]
    refine forall_congr' fun i => forall_congr' fun hi => ?_
    have e : Spec.itemCopies (packingOf s') i = Spec.itemCopies (packingOf s) i := by
      rw [hp]
      unfold Spec.itemCopies flipPacking; rw [List.map_map]
      apply map_congr_sum; intro b _
      simp only [Function.comp_apply]
      rw [count_flip]
    rw [e, hfl.copiesMin i hi, ← hmin i hi, (hfl.items i hi).copies]
  have h2 : ∀ b ∈ packingOf s', ResourcesOk a b.binTypeId b.items := by
    rw [hp]
    unfold flipPacking
    rw [List.forall_mem_map]
    intro b hb r hr'
    have he : (a.binType b.binTypeId).resources = [] := hr _ (getD_mem default (ht b hb).1)
    dsimp only at hr'
    rw [he] at hr'
    simp at hr'
  have h3 : ∀ b ∈ packingOf s, ResourcesOk f b.binTypeId b.items := by
    intro b hb r hr'
    rw [(hfl.dropped _ (ht b hb).1).2] at hr'
    simp at hr'
  rw [h1]
  simp only [true_and]
  exact and_congr_right fun _ => ⟨fun _ => h3, fun _ => h2⟩

/-! ### Non-vacuity -/

namespace FlipEx

/-- A container 10 × 6 × 8 that may be extended along z. -/
def ops : List InstanceBuilder.Op :=
  [.setObjective .openDimensionZ, .addBinType 10 6 8, .setBinTypeMaximumWeight 0 (.fin 50),
   .addItemType 4 2 3, .addItemTypeRotation 0 .xyz, .addItemTypeRotation 0 .zxy,
   .setItemTypeCopies 0 3, .setItemTypeProfit 0 5,
   .addItemType 3 5 1, .setItemTypeWeight 1 7]

def inst : Instance := okD noInst (InstanceBuilder.runOps .default ops)

theorem inst_ok : InstanceBuilder.runOps .default ops = .ok inst := eq_ok_okD (by decide +kernel)

def flipped : Instance := okD noInst (Flipper.flip .default inst .z)

theorem flipped_ok : Flipper.flip .default inst .z = .ok flipped := eq_ok_okD (by decide +kernel)

def solOps : List BuilderOp :=
  [.addBin 0 1, .addItem 0 0 0 0 0 .yxz, .addItem 0 1 4 0 0 .zyx]

def sol : Solution := okD {} (SolutionBuilder.runOps flipped solOps)

theorem sol_ok : SolutionBuilder.runOps flipped solOps = .ok sol := by decide +kernel

def back : Solution := okD {} (Flipper.unflipSolution inst .z sol)

theorem back_ok : Flipper.unflipSolution inst .z sol = .ok back := by decide +kernel

/-- The hypotheses of the theorems of this file are met. -/
example : FlippedOf .z inst flipped ∧ 0 < inst.numberOfBinTypes ∧ Reachable flipped sol
    ∧ HeightTracked flipped sol ∧ (∀ t ∈ inst.binTypes, t.resources = []) ∧ Flippable inst
    ∧ (∀ t ∈ inst.itemTypes, 0 ≤ t.copies)
    ∧ packingOf sol = [⟨0, 1, [⟨0, 0, 0, 0, .yxz⟩, ⟨1, 4, 0, 0, .zyx⟩]⟩]
    ∧ packingOf back = [⟨0, 1, [⟨0, 0, 0, 0, .zxy⟩, ⟨1, 0, 0, 4, .xyz⟩]⟩]
    ∧ [sol.xMax, sol.yMax, sol.zMax, back.xMax, back.yMax, back.zMax] = [5, 5, 3, 3, 5, 5] :=
  ⟨(flip_exchanges_axes (by decide) inst_ok flipped_ok).1, by decide +kernel,
    .built solOps sol sol_ok, .inl ⟨solOps, sol_ok⟩, by decide +kernel,
    ⟨by decide +kernel, by decide +kernel, by decide +kernel⟩, by decide +kernel,
    by decide +kernel, by decide +kernel, by decide +kernel⟩

example : flipped.objective = .openDimensionX
    ∧ flipped.binTypes.map (fun t => t.box) = [⟨8, 6, 10⟩]
    ∧ flipped.itemTypes.map (fun t => t.rotations) = [[.zyx, .yxz], [.zyx]] := by decide +kernel

example : BinPacking flipped 0 [⟨0, 0, 0, 0, .yxz⟩, ⟨1, 4, 0, 0, .zyx⟩] := by
  refine ⟨by decide +kernel, by decide +kernel, ?_, ?_⟩
  · unfold Inside; decide +kernel
  · unfold Separated; decide +kernel

/-- The default minimum numbers of copies, as `unflip_feasible_partial` asks. -/
example : packingOf sol ≠ [] ∧ (∀ i, i < inst.numberOfItemTypes → (inst.itemType i).copiesMin
      = if inst.objective = .knapsack then 0 else (inst.itemType i).copies)
    ∧ inst.callback (packingOf back) = true := by
  refine ⟨by decide +kernel, ?_, by decide +kernel⟩
  intro i hi
  have hi : i < 2 := hi
  have : i = 0 ∨ i = 1 := by omega
  rcases this with rfl | rfl <;> decide +kernel

end FlipEx

/-! ### Limits -/

/-- **C95**, negation: resources are lost: a packing that exceeds a hard resource of the original is
reported as feasible for the flipped instance. -/
theorem flip_loses_resources : ∃ (ops : List InstanceBuilder.Op) (a f : Instance) (s s' : Solution),
    InstanceBuilder.runOps .default ops = .ok a ∧ Flipper.flip .default a .y = .ok f
    ∧ Reachable f s ∧ Flipper.unflipSolution a .y s = .ok s'
    ∧ s.feasible = true ∧ s'.feasible = false := by
  let ops : List InstanceBuilder.Op :=
    [.setObjective .knapsack, .addBinType 10 10 10, .addBinTypeResource 0 1 false 0,
      .addItemType 4 2 2, .addResourceConsumption 0 0 0 0 2]
  let a := okD noInst (InstanceBuilder.runOps .default ops)
  let f := okD noInst (Flipper.flip .default a .y)
  let o1 : List BuilderOp := [.addBin 0 1, .addItem 0 0 0 0 0 .yxz]
  exact ⟨ops, a, f, okD {} (SolutionBuilder.runOps f o1),
    okD {} (Flipper.unflipSolution a .y (okD {} (SolutionBuilder.runOps f o1))),
    eq_ok_okD (by decide +kernel), eq_ok_okD (by decide +kernel),
    .built o1 _ (by decide +kernel), by decide +kernel, by decide +kernel, by decide +kernel⟩

/-- **C95**, negation: the minimum number of copies is lost. -/
theorem flip_loses_copies_min : ∃ (ops : List InstanceBuilder.Op) (a f : Instance)
    (s s' : Solution), InstanceBuilder.runOps .default ops = .ok a
    ∧ Flipper.flip .default a .y = .ok f
    ∧ Reachable f s ∧ Flipper.unflipSolution a .y s = .ok s'
    ∧ s.feasible = true ∧ s'.feasible = false := by
  let ops : List InstanceBuilder.Op :=
    [.setObjective .knapsack, .addBinType 10 10 10, .addItemType 4 2 2,
      .setItemTypeCopiesMin 0 1]
  let a := okD noInst (InstanceBuilder.runOps .default ops)
  let f := okD noInst (Flipper.flip .default a .y)
  let o1 : List BuilderOp := [.addBin 0 1]
  exact ⟨ops, a, f, okD {} (SolutionBuilder.runOps f o1),
    okD {} (Flipper.unflipSolution a .y (okD {} (SolutionBuilder.runOps f o1))),
    eq_ok_okD (by decide +kernel), eq_ok_okD (by decide +kernel),
    .built o1 _ (by decide +kernel), by decide +kernel, by decide +kernel, by decide +kernel⟩

/-- **C95**, negation: with direction y an open dimension x stays an open dimension x: of two
solutions of the flipped instance the better one becomes the worse one. -/
theorem flip_keeps_openDimensionX : ∃ (ops : List InstanceBuilder.Op) (a f : Instance)
    (s t s' t' : Solution),
    InstanceBuilder.runOps .default ops = .ok a ∧ Flipper.flip .default a .y = .ok f
    ∧ a.objective = .openDimensionX ∧ f.objective = .openDimensionX
    ∧ Reachable f s ∧ Reachable f t
    ∧ Flipper.unflipSolution a .y s = .ok s' ∧ Flipper.unflipSolution a .y t = .ok t'
    ∧ Solution.ltB f s t = true ∧ Solution.ltB a t' s' = true := by
  let ops : List InstanceBuilder.Op :=
    [.setObjective .openDimensionX, .addBinType 10 10 10, .addItemType 4 2 2,
      .addItemTypeRotation 0 .xyz, .addItemTypeRotation 0 .yxz]
  let a := okD noInst (InstanceBuilder.runOps .default ops)
  let f := okD noInst (Flipper.flip .default a .y)
  let o1 : List BuilderOp := [.addBin 0 1, .addItem 0 0 0 0 0 .xyz]
  let o2 : List BuilderOp := [.addBin 0 1, .addItem 0 0 0 0 0 .yxz]
  exact ⟨ops, a, f, okD {} (SolutionBuilder.runOps f o1), okD {} (SolutionBuilder.runOps f o2),
    okD {} (Flipper.unflipSolution a .y (okD {} (SolutionBuilder.runOps f o1))),
    okD {} (Flipper.unflipSolution a .y (okD {} (SolutionBuilder.runOps f o2))),
    eq_ok_okD (by decide +kernel), eq_ok_okD (by decide +kernel), by decide +kernel,
    by decide +kernel, .built o1 _ (by decide +kernel), .built o2 _ (by decide +kernel),
    by decide +kernel, by decide +kernel, by decide +kernel, by decide +kernel⟩

/-- **C95**, negation: the builder accepts an instance with an open z dimension and two bins, but
such an instance cannot be flipped: the flipper throws, along any axis. -/
theorem openDimensionZ_not_flippable : ∃ (ops : List InstanceBuilder.Op) (a : Instance),
    InstanceBuilder.runOps .default ops = .ok a ∧ a.objective = .openDimensionZ
    ∧ ∀ d o, isOk (Flipper.flip o a d) = false := by
  let ops : List InstanceBuilder.Op :=
    [.setObjective .openDimensionZ, .addBinType 10 10 10, .setBinTypeCopies 0 2,
      .addItemType 4 2 2]
  refine ⟨ops, okD noInst (InstanceBuilder.runOps .default ops), eq_ok_okD (by decide +kernel),
    by decide +kernel, ?_⟩
  intro d o
  cases d <;> cases o <;> decide +kernel

end PackingSolver.Box
