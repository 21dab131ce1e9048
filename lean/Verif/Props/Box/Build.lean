import Verif.Lemmas.Box.Total

/-!
# C87: building box instances
-/

namespace PackingSolver.Box

open InstanceBuilder Spec
open PackingSolver.OneDim (getD_mem)

/-- Every item type has an orientation once the default one is given. -/
theorem rotations_given {inst : Instance} : ∀ t ∈ (withRotations inst).itemTypes, t.rotations ≠ [] := by
  unfold withRotations
  intro t ht
  obtain ⟨u, -, rfl⟩ := List.mem_map.mp ht
  unfold defaultRotation
  cases hr : u.rotations <;> simp [hr]

variable {o : Objective} {ops : List Op} {inst : Instance} {b : InstanceBuilder}

/-! ## C87: consistency of a built instance -/

/-- **C87**: whatever sequence of calls was made on the builder, when `build` returns an instance
its derived data agree with its item and bin types. -/
theorem instance_aggregates (h : runOps o ops = .ok inst) : Aggregates inst := by
  unfold runOps at h
  obtain ⟨b, hb, h⟩ := bind_ok.mp h
  obtain ⟨hF0, hB⟩ := instance_built (fresh_ops hb) h
  exact hB.aggregates hF0 rotations_given

/-- **C87**: items of a built instance have positive sides, at least one orientation and at least
as many copies as their minimum, bin types a non-negative minimum and a positive number of copies
(or as many as there are items), no item is fixed, and instances with an open x or y dimension have
exactly one bin.  Missing: item copies may be negative, bin sides may be zero, a bin type may have
fewer copies than its minimum, and an instance with an open z dimension may have any number of bins
(see the theorems below). -/
theorem instance_sizes_partial (h : runOps o ops = .ok inst) : Sizes inst := by
  unfold runOps at h
  obtain ⟨b, hb, h⟩ := bind_ok.mp h
  obtain ⟨hF0, hB⟩ := instance_built (fresh_ops hb) h
  exact hB.sizes hF0 rotations_given

/-- **C87**: `build` changes nothing of what the user asked for: objective and callback are those
set, the item types have the sides, the profits, the weights and the copies that were set, the
orientations that were added (if none was added: the original one), and the minimum that was set (if
none was set: all copies, or none for the knapsack objective); the bin types are those set,
unlimited copies being as many as items. -/
theorem instance_preserved (hb : ops.foldlM step (new o) = .ok b) (h : b.build = .ok inst) :
    (inst.objective = b.inst.objective ∧ inst.callback = b.inst.callback)
    ∧ inst.numberOfItemTypes = b.inst.numberOfItemTypes
    ∧ (∀ i < inst.numberOfItemTypes, (inst.itemType i).box = (b.inst.itemType i).box
      ∧ (inst.itemType i).profit = (b.inst.itemType i).profit
      ∧ (inst.itemType i).copies = (b.inst.itemType i).copies
      ∧ (inst.itemType i).weight = (b.inst.itemType i).weight
      ∧ (inst.itemType i).rotations = (if (b.inst.itemType i).rotations = [] then [.xyz]
          else (b.inst.itemType i).rotations)
      ∧ (inst.itemType i).copiesMin = (if (b.inst.itemType i).copiesMin = -1 then
          (if b.inst.objective = .knapsack then 0 else (b.inst.itemType i).copies)
          else (b.inst.itemType i).copiesMin))
    ∧ inst.numberOfBinTypes = b.inst.numberOfBinTypes
    ∧ ∀ t < inst.numberOfBinTypes, inst.binType t = { b.inst.binType t with
        copies := if (b.inst.binType t).copies = -1 then inst.numberOfItems
          else (b.inst.binType t).copies } := by
  obtain ⟨hF0, hB⟩ := instance_built (fresh_ops hb) h
  have hbins : (withRotations b.inst).binTypes = b.inst.binTypes := rfl
  have hl0 : (withRotations b.inst).itemTypes.length = b.inst.itemTypes.length := by
    simp [withRotations]
  have hit : ∀ i < b.inst.itemTypes.length,
      (withRotations b.inst).itemType i = defaultRotation (b.inst.itemType i) := by
    intro i hi
    unfold Instance.itemType withRotations
    dsimp only
    rw [List.getD_eq_getElem _ _ (by simpa using hi), List.getD_eq_getElem _ _ hi,
      List.getElem_map]
  refine ⟨⟨hB.objective, hB.callback⟩,
    by unfold Instance.numberOfItemTypes; rw [hB.items_length, hl0], fun i hi => ?_, ?_, ?_⟩
  · have hi' : i < (withRotations b.inst).itemTypes.length := by rw [← hB.items_length]; exact hi
    have hi2 : i < b.inst.itemTypes.length := by rw [← hl0]; exact hi'
    have hd := defaultRotation_fields (b.inst.itemType i)
    refine ⟨?_, ?_, ?_, ?_, ?_, ?_⟩
    · rw [hB.item (·.box) (by intros; rfl) (fun oo t => (resolve_fields oo t).2.1), hit i hi2]
      exact hd.2.1
    · rw [hB.item (·.profit) (by intros; rfl) (fun oo t => (resolve_fields oo t).2.2.1), hit i hi2]
      exact hd.2.2.1
    · rw [hB.item (·.copies) (by intros; rfl) (fun oo t => (resolve_fields oo t).1), hit i hi2]
      exact hd.1
    · rw [hB.item (·.weight) (by intros; rfl) (fun oo t => (resolve_fields oo t).2.2.2.2.2.1),
        hit i hi2]
      exact hd.2.2.2.2.2.1
    · rw [hB.item (·.rotations) (by intros; rfl) (fun oo t => (resolve_fields oo t).2.2.2.2.1),
        hit i hi2]
      unfold defaultRotation
      cases hr : (b.inst.itemType i).rotations <;> simp [hr]
    · obtain ⟨F, hi3, -⟩ := hB.items
      have e : (inst.itemType i).copiesMin
          = (resolveItem (withRotations b.inst).objective
              ((withRotations b.inst).itemType i)).copiesMin := by
        unfold Instance.itemType
        rw [hi3, List.getD_eq_getElem _ _ (by simpa [withRes] using hi'),
          List.getD_eq_getElem _ _ hi']
        simp [withRes]
      rw [e, hit i hi2]
      change (resolveItem b.inst.objective _).copiesMin = _
      unfold resolveItem
      rw [hd.2.2.2.2.1]
      split_ifs <;> first | rfl | exact hd.1 | exact hd.2.2.2.2.1
  · unfold Instance.numberOfBinTypes
    rw [hB.bins, List.length_map, hbins]
  · intro t ht
    have ht' : t < b.inst.binTypes.length := by
      unfold Instance.numberOfBinTypes at ht
      rwa [hB.bins, List.length_map, hbins] at ht
    have e : inst.binType t = resolveBin inst.numberOfItems (b.inst.binType t) := by
      unfold Instance.binType
      conv_lhs => rw [hB.bins, hbins]
      rw [List.getD_eq_getElem _ _ (by simpa using ht'), List.getD_eq_getElem _ _ ht',
        List.getElem_map]
    rw [e]
    unfold resolveBin
    split_ifs <;> rfl

/-- **C87**: `build` succeeds exactly when the instance under construction is complete, and rejects
every other one as an invalid argument, as long as item sides are positive, item copies are not
negative and resource consumptions are of existing item types (which the builder does not
check). -/
theorem instance_build_iff (hb : ops.foldlM step (new o) = .ok b) (hW : WellFormed b.inst) :
    (Buildable b.inst ∧ ∃ inst, b.build = .ok inst)
    ∨ (¬ Buildable b.inst ∧ b.build = .error .invalidArgument) :=
  build_cases (fresh_ops hb) hW

/-- **C87**: an item type with a zero side never survives `build`. -/
theorem instance_zero_side (hb : ops.foldlM step (new o) = .ok b)
    (hz : ∃ t ∈ b.inst.itemTypes, t.box.x = 0 ∨ t.box.y = 0 ∨ t.box.z = 0) : ∃ e, b.build = .error e := by
  obtain ⟨t, ht, h0⟩ := hz
  cases h : b.build with
  | error e => exact ⟨e, rfl⟩
  | ok inst =>
    exfalso
    obtain ⟨k, hk, rfl⟩ := List.getElem_of_mem ht
    obtain ⟨-, hl, hi, -⟩ := instance_preserved hb h
    have hk' : k < inst.numberOfItemTypes := by rw [hl]; exact hk
    obtain ⟨e1, -⟩ := hi k hk'
    have := (instance_sizes_partial (o := o) (ops := ops) (by
      unfold runOps; rw [hb]; exact h)).items (inst.itemType k) (getD_mem _ hk')
    rw [e1] at this
    unfold Instance.itemType at this
    rw [List.getD_eq_getElem _ _ hk] at this
    omega

/-! ### Non-vacuity and counterexamples -/

/-- A history: two bin types (one with unlimited copies and no weight limit), a resource with a
consumption, three item types, of which one may be turned. -/
def exInstance : List Op :=
  [.setObjective .variableSizedBinPacking,
   .addBinType 10 6 5, .setBinTypeCost 0 7, .setBinTypeMaximumWeight 0 (.fin 40),
   .addBinTypeResource 0 6 true 2,
   .addItemType 4 2 3, .setItemTypeCopies 0 3, .setItemTypeProfit 0 5, .setItemTypeWeight 0 2,
   .addItemType 3 5 2, .setItemTypeCopies 1 2, .setItemTypeCopiesMin 1 2,
   .addItemTypeRotation 1 .xyz, .addItemTypeRotation 1 .yxz,
   .addItemType 2 2 2, .setItemTypeCopies 2 2,
   .addResourceConsumption 0 0 1 0 3, .addResourceConsumption 0 0 1 1 4,
   .addBinType 12 4 4, .setBinTypeCopies 1 (-1)]

/-- Selected data of the instance built by a history. -/
def instanceSummary (r : Except Err Instance) :
    Option (List Nat × List Int × List Int × List ℚ) :=
  match r with
  | .ok i => some (i.binTypeIds, i.previousBinsVolume,
      [i.numberOfItems, i.itemVolume, i.binVolume, i.binArea, i.largestItemCopies, i.smallestItemX,
        i.smallestItemY, i.smallestItemZ, i.largestEfficiencyItemTypeId],
      [i.itemProfit, i.itemWeight, i.largestBinCost])
  | .error _ => none

/-- The hypotheses of the theorems above are met: the history builds, 7 items. -/
example : instanceSummary (runOps .default exInstance)
    = some ([0, 1, 1, 1, 1, 1, 1, 1], [0, 300, 492, 684, 876, 1068, 1260, 1452],
      [7, 148, 1644, 396, 3, 2, 2, 2, 1], [91, 6, 48]) := by
  decide +kernel

/-- Evaluate a decidable statement about the instance built by a history. -/
theorem instance_witness (P : Instance → Bool) (o : Objective) (ops : List Op)
    (h : (match runOps o ops with
      | .ok i => P i
      | .error _ => false) = true) : ∃ i, runOps o ops = .ok i ∧ P i = true := by
  cases hr : runOps o ops with
  | error e => rw [hr] at h; simp at h
  | ok i => rw [hr] at h; exact ⟨i, rfl, h⟩

example : ∃ i, runOps .default exInstance = .ok i ∧ Aggregates i ∧ Sizes i
    ∧ i.numberOfItems = 7 := by
  obtain ⟨i, h1, h2⟩ := instance_witness (fun i => decide (i.numberOfItems = 7)) .default exInstance
    (by decide +kernel)
  exact ⟨i, h1, instance_aggregates h1, instance_sizes_partial h1, of_decide_eq_true h2⟩

/-- The hypotheses of `instance_build_iff` are met by that history. -/
example : ∃ b, exInstance.foldlM step (new .default) = .ok b ∧ WellFormed b.inst := by
  have : (match exInstance.foldlM step (new .default) with
    | .ok b => decide ((∀ t ∈ b.inst.itemTypes, t.box.x ≠ 0 ∧ t.box.y ≠ 0 ∧ t.box.z ≠ 0)
      ∧ (∀ t ∈ b.inst.itemTypes, 0 ≤ t.copies)
      ∧ ∀ t ∈ b.inst.binTypes, ∀ r ∈ t.resources,
        r.itemConsumptions.length ≤ b.inst.itemTypes.length)
    | .error _ => false) = true := by decide +kernel
  cases h : exInstance.foldlM step (new .default) with
  | error e => rw [h] at this; simp at this
  | ok b =>
    rw [h] at this
    obtain ⟨h1, h2, h3⟩ := of_decide_eq_true this
    exact ⟨b, rfl, h1, h2, h3⟩

/-- A reachable builder whose item type has a zero side. -/
example : (match [Op.addBinType 10 6 5, .addItemType 0 2 3].foldlM step
      (new .default) with
    | .ok b => decide (∃ t ∈ b.inst.itemTypes, t.box.x = 0 ∨ t.box.y = 0 ∨ t.box.z = 0)
    | .error _ => false) = true := by decide +kernel

/-- **C87**, negation: the builder accepts an item type with a zero side, and `build` then has
undefined behaviour (integer division by the volume). -/
theorem instance_zero_side_undefined :
    ∃ ops, runOps .binPacking ops = .error .ub ∧ ops.length = 2 := by
  refine ⟨[.addBinType 10 6 5, .addItemType 0 2 3], ?_, rfl⟩
  have : (match runOps .binPacking [.addBinType 10 6 5, .addItemType 0 2 3] with
    | .ok _ => false
    | .error e => decide (e = .ub)) = true := by decide +kernel
  cases h : runOps .binPacking [.addBinType 10 6 5, .addItemType 0 2 3] with
  | ok i => rw [h] at this; simp at this
  | error e => rw [h] at this; rw [of_decide_eq_true this]

/-- **C87**, negation: a resource consumption of an item type that does not exist is accepted, and
`build` then has undefined behaviour. -/
theorem instance_consumption_undefined :
    runOps .binPacking [.addBinType 10 6 5, .addBinTypeResource 0 5 false 0,
      .addItemType 3 2 3, .addResourceConsumption 0 0 1 0 2] = .error .ub := by
  have : (match runOps .binPacking [.addBinType 10 6 5, .addBinTypeResource 0 5 false 0,
      .addItemType 3 2 3, .addResourceConsumption 0 0 1 0 2] with
    | .ok _ => false
    | .error e => decide (e = .ub)) = true := by decide +kernel
  cases h : runOps .binPacking [.addBinType 10 6 5, .addBinTypeResource 0 5 false 0,
      .addItemType 3 2 3, .addResourceConsumption 0 0 1 0 2] with
  | ok i => rw [h] at this; simp at this
  | error e => rw [h] at this; rw [of_decide_eq_true this]

/-- **C87**, negation: a bin type with unlimited copies and a minimum of 5 ends with fewer copies
than its minimum. -/
theorem instance_bin_copies_min : ∃ ops inst, runOps .binPacking ops = .ok inst
    ∧ ∃ t ∈ inst.binTypes, t.copies < t.copiesMin := by
  obtain ⟨i, h1, h2⟩ := instance_witness
    (fun i => decide (∃ t ∈ i.binTypes, t.copies < t.copiesMin)) .binPacking
    [.addBinType 10 10 10, .setBinTypeCopies 0 (-1), .setBinTypeCopiesMin 0 5,
      .addItemType 4 4 4] (by decide +kernel)
  exact ⟨_, i, h1, of_decide_eq_true h2⟩

/-- **C87**, negation: `-1` is accepted as the number of copies of an item type, and is not given a
meaning: the number of items is negative. -/
theorem instance_negative_copies : ∃ ops inst, runOps .binPacking ops = .ok inst
    ∧ inst.numberOfItems = -1 := by
  obtain ⟨i, h1, h2⟩ := instance_witness
    (fun i => decide (i.numberOfItems = -1)) .binPacking
    [.addBinType 10 10 10, .addItemType 4 4 4, .setItemTypeCopies 0 (-1)] (by decide +kernel)
  exact ⟨_, i, h1, of_decide_eq_true h2⟩

/-- **C87**, negation: an unbounded bin side set before the items are added is zero. -/
theorem instance_infinite_too_early : ∃ ops inst, runOps .openDimensionX ops = .ok inst
    ∧ inst.numberOfItems = 1 ∧ ∃ t ∈ inst.binTypes, t.box.x = 0 := by
  obtain ⟨i, h1, h2⟩ := instance_witness
    (fun i => decide (i.numberOfItems = 1 ∧ ∃ t ∈ i.binTypes, t.box.x = 0)) .openDimensionX
    [.addBinType 10 10 10, .setBinTypesInfiniteX, .addItemType 4 4 4] (by decide +kernel)
  exact ⟨_, i, h1, of_decide_eq_true h2⟩

/-- **C87**, negation: instances with an open z dimension are not required to have exactly one
bin. -/
theorem instance_open_dimension_z : ∃ ops inst, runOps .openDimensionZ ops = .ok inst
    ∧ inst.numberOfBins = 2 := by
  obtain ⟨i, h1, h2⟩ := instance_witness
    (fun i => decide (i.numberOfBins = 2)) .openDimensionZ
    [.addBinType 10 10 10, .setBinTypeCopies 0 2, .addItemType 4 4 4] (by decide +kernel)
  exact ⟨_, i, h1, of_decide_eq_true h2⟩

/-- **C87**, negation: the cost of a bin type whose cost was not set is its floor area, and asking
for unweighted bins changes it to its volume. -/
theorem instance_default_cost (b : InstanceBuilder) {x y z : Int} (hx : 0 < x) (hy : 0 < y)
    (hz : 0 < z) : ∃ b', b.addBinType x y z = .ok b'
      ∧ (b'.inst.binType b.inst.binTypes.length).cost = ((x * y : Int) : ℚ)
      ∧ (b'.setBinTypesUnweighted.inst.binType b.inst.binTypes.length).cost
        = ((x * y * z : Int) : ℚ) := by
  refine ⟨_, by
    unfold addBinType
    rw [if_neg (by omega), if_neg (by omega), if_neg (by omega)], ?_, ?_⟩
  · simp [Instance.binType]
  · simp [Instance.binType, setBinTypesUnweighted, BinType.volume, Dims.volume]

/-- **C87**, negation: `set_item_types_profits_auto` uses the total volume and weight of the items,
which are only known once the instance is built: whatever calls were made before, it sets every
profit to zero (or has undefined behaviour). -/
theorem instance_profits_auto {b' : InstanceBuilder} (hb : ops.foldlM step (new o) = .ok b)
    (h : b.setItemTypesProfitsAuto = .ok b') : ∀ t ∈ b'.inst.itemTypes, t.profit = 0 := by
  have hF := fresh_ops hb
  unfold setItemTypesProfitsAuto at h
  dsimp only at h
  split_ifs at h with hc
  cases h
  intro t ht
  obtain ⟨u, -, rfl⟩ := List.mem_map.mp ht
  dsimp only
  rw [hF.underived.itemVolume, hF.underived.itemWeight]
  simp
  split <;> rfl

/-- That call succeeds on a history with weights: the profit 64 of the item becomes 0. -/
example : (match [Op.addBinType 10 10 10, .setBinTypeMaximumWeight 0 (.fin 8), .addItemType 4 4 4,
      .setItemTypeWeight 0 3].foldlM step (new .knapsack) with
    | .error _ => none
    | .ok b => match b.setItemTypesProfitsAuto with
      | .error _ => none
      | .ok b' => some (b.inst.itemTypes.map (·.profit), b'.inst.itemTypes.map (·.profit)))
    = some ([64], [0]) := by decide +kernel

end PackingSolver.Box
