import Verif.Lemmas.Guil.InstTotal
import Verif.Props.Guil.Solution

/-!
# C74, C75: building guillotine instances
-/

namespace PackingSolver.Guil

open InstanceBuilder
open Guil.Spec hiding IsMaxWithZero
open PackingSolver.OneDim (getD_mem)

variable {o : Objective} {ops : List BuilderOp} {inst : Instance} {b : InstanceBuilder}

/-! ## C74: consistency of a built instance -/

/-- **C74**: whatever sequence of calls was made on the builder, when `build` returns an instance
its derived data agree with its item and bin types. -/
theorem instance_aggregates (h : runOps o ops = .ok inst) : Aggregates inst := by
  unfold runOps at h
  obtain ⟨b, hb, h⟩ := bind_ok.mp h
  obtain ⟨i0, -, -, hF0, hB⟩ := instance_built (fresh_ops hb) h
  exact hB.aggregates hF0

/-- **C74**: items of a built instance have positive sides and at least as many copies as their
minimum, bin types a non-negative minimum and a positive number of copies (or as many as there are
items), no item is fixed, and open dimension instances have exactly one bin.  Missing: item copies
and bin sides may be negative or zero, and a bin type may have fewer copies than its minimum (see
the theorems below). -/
theorem instance_sizes_partial (h : runOps o ops = .ok inst) : Sizes inst := by
  unfold runOps at h
  obtain ⟨b, hb, h⟩ := bind_ok.mp h
  obtain ⟨i0, -, -, hF0, hB⟩ := instance_built (fresh_ops hb) h
  exact hB.sizes hF0

theorem unstack_map {i0 i1 : Instance} (h : i0.itemTypes.map unstack = i1.itemTypes.map unstack)
    {β : Type} (g : ItemType → β) (hg : ∀ t, g (unstack t) = g t) (i : Nat) :
    g (i0.itemType i) = g (i1.itemType i) := by
  have h1 := congrArg (fun l => l[i]?) h
  simp only [List.getElem?_map] at h1
  unfold Instance.itemType
  rw [List.getD_eq_getElem?_getD, List.getD_eq_getElem?_getD]
  cases h2 : i0.itemTypes[i]? <;> cases h3 : i1.itemTypes[i]? <;> rw [h2, h3] at h1 <;>
    simp only [Option.map_none, Option.map_some, Option.some.injEq, reduceCtorEq] at h1 ⊢
  · rw [Option.getD_some, Option.getD_some, ← hg, h1, hg]

/-- **C74**: `build` changes nothing of what the user asked for: objective, parameters and callback
are those set, the item types have the sides, the profits, the copies and the orientation that were
set, and the minimum that was set (if none was set: all copies, or none for the knapsack
objective); the bin types are those set, unlimited copies being as many as items. -/
theorem instance_preserved (hb : ops.foldlM step (new o) = .ok b) (h : b.build = .ok inst) :
    (inst.objective = b.inst.objective ∧ inst.parameters = b.inst.parameters
      ∧ inst.callback = b.inst.callback)
    ∧ inst.numberOfItemTypes = b.inst.numberOfItemTypes
    ∧ (∀ i < inst.numberOfItemTypes, (inst.itemType i).w = (b.inst.itemType i).w
      ∧ (inst.itemType i).h = (b.inst.itemType i).h
      ∧ (inst.itemType i).profit = (b.inst.itemType i).profit
      ∧ (inst.itemType i).copies = (b.inst.itemType i).copies
      ∧ (inst.itemType i).oriented = (b.inst.itemType i).oriented
      ∧ (inst.itemType i).copiesMin = (if (b.inst.itemType i).copiesMin = -1 then
          (if b.inst.objective = .knapsack then 0 else (b.inst.itemType i).copies)
          else (b.inst.itemType i).copiesMin))
    ∧ inst.numberOfBinTypes = b.inst.numberOfBinTypes
    ∧ ∀ t < inst.numberOfBinTypes, inst.binType t = { b.inst.binType t with
        copies := if (b.inst.binType t).copies = -1 then inst.numberOfItems
          else (b.inst.binType t).copies } := by
  obtain ⟨i0, -, h0, hF0, hB⟩ := instance_built (fresh_ops hb) h
  obtain ⟨its, ids, offs, e0, hunst⟩ := buildStacks_ok h0
  have hst : i0.itemTypes.map unstack = b.inst.itemTypes.map unstack := by rw [e0]; exact hunst
  have hbins : i0.binTypes = b.inst.binTypes := by rw [e0]
  have hobj : i0.objective = b.inst.objective := by rw [e0]
  have hl0 : i0.itemTypes.length = b.inst.itemTypes.length := by
    have := congrArg List.length hst
    simpa using this
  refine ⟨⟨by rw [hB.objective, e0], by rw [hB.parameters, e0], by rw [hB.callback, e0]⟩,
    by unfold Instance.numberOfItemTypes; rw [hB.items_length, hl0], fun i hi => ?_, ?_, ?_⟩
  · refine ⟨?_, ?_, ?_, ?_, ?_, ?_⟩
    · rw [hB.item (·.w) (by intros; rfl) (fun oo t => (resolve_fields oo t).2.1),
        unstack_map hst (·.w) fun _ => rfl]
    · rw [hB.item (·.h) (by intros; rfl) (fun oo t => (resolve_fields oo t).2.2.1),
        unstack_map hst (·.h) fun _ => rfl]
    · rw [hB.item (·.profit) (by intros; rfl) (fun oo t => (resolve_fields oo t).2.2.2.1),
        unstack_map hst (·.profit) fun _ => rfl]
    · rw [hB.item (·.copies) (by intros; rfl) (fun oo t => (resolve_fields oo t).1),
        unstack_map hst (·.copies) fun _ => rfl]
    · rw [hB.item (·.oriented) (by intros; rfl) (fun oo t => (resolve_fields oo t).2.2.2.2.2.2.1),
        unstack_map hst (·.oriented) fun _ => rfl]
    · obtain ⟨F, hi2, -⟩ := hB.items
      have hi' : i < i0.itemTypes.length := by rw [← hB.items_length]; exact hi
      have e : (inst.itemType i).copiesMin
          = (resolveItem i0.objective (i0.itemType i)).copiesMin := by
        unfold Instance.itemType
        rw [hi2, List.getD_eq_getElem _ _ (by simpa [withRes] using hi'),
          List.getD_eq_getElem _ _ hi']
        simp [withRes]
      have e2 : (resolveItem i0.objective (i0.itemType i)).copiesMin
          = (resolveItem i0.objective (b.inst.itemType i)).copiesMin :=
        unstack_map hst (fun t => (resolveItem i0.objective t).copiesMin) (fun t => by
          unfold resolveItem unstack; dsimp only; split_ifs <;> rfl) i
      rw [e, e2, hobj]
      unfold resolveItem
      split_ifs <;> rfl
  · unfold Instance.numberOfBinTypes
    rw [hB.bins, List.length_map, hbins]
  · intro t ht
    have ht' : t < b.inst.binTypes.length := by
      unfold Instance.numberOfBinTypes at ht
      rwa [hB.bins, List.length_map, hbins] at ht
    have e : inst.binType t = resolveBin inst.numberOfItems (b.inst.binType t) := by
      unfold Instance.binType
      conv_lhs => rw [hB.bins, hbins]
      rw [List.getD_eq_getElem _ _ (by simpa using ht'), List.getD_eq_getElem _ _ ht',
        List.getElem_map]
    rw [e]
    unfold resolveBin
    split_ifs <;> rfl

/-- **C74**: `build` succeeds exactly when the instance under construction is complete, and rejects
every other one as an invalid argument, as long as item sides are positive, item copies are not
negative and resource consumptions are of existing item types (which the builder does not
check). -/
theorem instance_build_iff (hb : ops.foldlM step (new o) = .ok b) (hW : WellFormed b.inst) :
    (Buildable b.inst ∧ ∃ inst, b.build = .ok inst)
    ∨ (¬ Buildable b.inst ∧ b.build = .error .invalidArgument) :=
  build_cases (fresh_ops hb) hW

/-- **C74**: an item type with a zero side never survives `build`. -/
theorem instance_zero_side (hb : ops.foldlM step (new o) = .ok b)
    (hz : ∃ t ∈ b.inst.itemTypes, t.w = 0 ∨ t.h = 0) : ∃ e, b.build = .error e := by
  obtain ⟨t, ht, h0⟩ := hz
  cases h : b.build with
  | error e => exact ⟨e, rfl⟩
  | ok inst =>
    exfalso
    obtain ⟨k, hk, rfl⟩ := List.getElem_of_mem ht
    obtain ⟨-, hl, hi, -⟩ := instance_preserved hb h
    have hk' : k < inst.numberOfItemTypes := by rw [hl]; exact hk
    obtain ⟨e1, e2, -⟩ := hi k hk'
    have := (instance_sizes_partial (o := o) (ops := ops) (by
      unfold runOps; rw [hb]; exact h)).items (inst.itemType k) (getD_mem _ hk')
    rw [e1, e2] at this
    unfold Instance.itemType at this
    rw [List.getD_eq_getElem _ _ hk] at this
    omega

/-! ### Non-vacuity and counterexamples -/

/-- A history: two bin types (one with unlimited copies), trims, a defect, a resource with a
consumption, three item types in two stacks of which one may not be rotated. -/
def exInstance : List BuilderOp :=
  [.setObjective .variableSizedBinPacking,
   .setNumberOfStages 3, .setCutType .nonExact, .setFixedCuttingCost 4 5,
   .addBinType 10 6, .setBinTypeCost 0 7, .addTrims 0 ⟨1, .hard, 0, .soft, 0, .soft, 1, .hard⟩,
   .addDefect 0 3 3 1 1, .addBinTypeResource 0 6 true 2,
   .addItemType 4 2 false 0, .setItemTypeCopies 0 3, .setItemTypeProfit 0 5,
   .addItemType 3 5 true 1, .setItemTypeCopies 1 2, .setItemTypeCopiesMin 1 2,
   .addItemType 2 2 false 0, .setItemTypeCopies 2 2,
   .addResourceConsumption 0 0 1 0 3, .addResourceConsumption 0 0 1 1 4,
   .addBinType 12 4, .setBinTypeCopies 1 (-1)]

/-- Selected data of the instance built by a history. -/
def instanceSummary (r : Except Err Instance) :
    Option (List Nat × List Int × (List Nat × List Int) × List Int) :=
  match r with
  | .ok i => some (i.binTypeIds, i.previousBinsArea, (i.itemTypeIds, i.stackOffsets),
      [i.numberOfItems, i.itemArea, i.binArea, i.largestItemCopies, i.numberOfDefects])
  | .error _ => none

/-- The hypotheses of the theorems above are met: the history builds, 7 items in two stacks. -/
example : instanceSummary (runOps .default exInstance)
    = some ([0, 1, 1, 1, 1, 1, 1, 1], [0, 45, 93, 141, 189, 237, 285, 333],
      ([0, 0, 0, 2, 2, 1, 1], [0, 5, 7]), [7, 62, 381, 3, 1]) := by
  decide +kernel

/-- Evaluate a decidable statement about the instance built by a history. -/
theorem instance_witness (P : Instance → Bool) (o : Objective) (ops : List BuilderOp)
    (h : (match runOps o ops with
      | .ok i => P i
      | .error _ => false) = true) : ∃ i, runOps o ops = .ok i ∧ P i = true := by
  cases hr : runOps o ops with
  | error e => rw [hr] at h; simp at h
  | ok i => rw [hr] at h; exact ⟨i, rfl, h⟩

example : ∃ i, runOps .default exInstance = .ok i ∧ Aggregates i ∧ Sizes i
    ∧ i.numberOfItems = 7 := by
  obtain ⟨i, h1, h2⟩ := instance_witness (fun i => decide (i.numberOfItems = 7)) .default exInstance
    (by decide +kernel)
  exact ⟨i, h1, instance_aggregates h1, instance_sizes_partial h1, of_decide_eq_true h2⟩

/-- The hypotheses of `instance_build_iff` are met by that history. -/
example : ∃ b, exInstance.foldlM step (new .default) = .ok b ∧ WellFormed b.inst := by
  have : (match exInstance.foldlM step (new .default) with
    | .ok b => decide ((∀ t ∈ b.inst.itemTypes, t.w ≠ 0 ∧ t.h ≠ 0)
      ∧ (∀ t ∈ b.inst.itemTypes, 0 ≤ t.copies)
      ∧ ∀ t ∈ b.inst.binTypes, ∀ r ∈ t.resources,
        r.itemConsumptions.length ≤ b.inst.itemTypes.length)
    | .error _ => false) = true := by decide +kernel
  cases h : exInstance.foldlM step (new .default) with
  | error e => rw [h] at this; simp at this
  | ok b =>
    rw [h] at this
    obtain ⟨h1, h2, h3⟩ := of_decide_eq_true this
    exact ⟨b, rfl, h1, h2, h3⟩

/-- A reachable builder whose item type has a zero side. -/
example : (match [BuilderOp.addBinType 10 6, .addItemType 0 2 false (-1)].foldlM step
      (new .default) with
    | .ok b => decide (∃ t ∈ b.inst.itemTypes, t.w = 0 ∨ t.h = 0)
    | .error _ => false) = true := by decide +kernel

/-- **C74**, negation: the builder accepts an item type with a zero side, and `build` then has
undefined behaviour (integer division by the area). -/
theorem instance_zero_side_undefined :
    ∃ ops, runOps .binPacking ops = .error .ub ∧ ops.length = 2 := by
  refine ⟨[.addBinType 10 6, .addItemType 0 2 false (-1)], ?_, rfl⟩
  have : (match runOps .binPacking [.addBinType 10 6, .addItemType 0 2 false (-1)] with
    | .ok _ => false
    | .error e => decide (e = .ub)) = true := by decide +kernel
  cases h : runOps .binPacking [.addBinType 10 6, .addItemType 0 2 false (-1)] with
  | ok i => rw [h] at this; simp at this
  | error e => rw [h] at this; rw [of_decide_eq_true this]

/-- **C74**, negation: a resource consumption of an item type that does not exist is accepted, and
`build` then has undefined behaviour. -/
theorem instance_consumption_undefined :
    runOps .binPacking [.addBinType 10 6, .addBinTypeResource 0 5 false 0,
      .addItemType 3 2 false (-1), .addResourceConsumption 0 0 1 0 2] = .error .ub := by
  have : (match runOps .binPacking [.addBinType 10 6, .addBinTypeResource 0 5 false 0,
      .addItemType 3 2 false (-1), .addResourceConsumption 0 0 1 0 2] with
    | .ok _ => false
    | .error e => decide (e = .ub)) = true := by decide +kernel
  cases h : runOps .binPacking [.addBinType 10 6, .addBinTypeResource 0 5 false 0,
      .addItemType 3 2 false (-1), .addResourceConsumption 0 0 1 0 2] with
  | ok i => rw [h] at this; simp at this
  | error e => rw [h] at this; rw [of_decide_eq_true this]

/-- **C74**, negation: a bin type with unlimited copies and a minimum of 5 ends with fewer copies
than its minimum. -/
theorem instance_bin_copies_min : ∃ ops inst, runOps .binPacking ops = .ok inst
    ∧ ∃ t ∈ inst.binTypes, t.copies < t.copiesMin := by
  obtain ⟨i, h1, h2⟩ := instance_witness
    (fun i => decide (∃ t ∈ i.binTypes, t.copies < t.copiesMin)) .binPacking
    [.addBinType 10 10, .setBinTypeCopies 0 (-1), .setBinTypeCopiesMin 0 5,
      .addItemType 4 4 false (-1)] (by decide +kernel)
  exact ⟨_, i, h1, of_decide_eq_true h2⟩

/-- **C74**, negation: trims that were checked against the sides of the bin no longer fit after
`set_bin_types_infinite_x`: the usable width is negative. -/
theorem instance_trims_too_large : ∃ ops inst, runOps .binPacking ops = .ok inst
    ∧ ∃ t ∈ inst.binTypes, t.w - t.leftTrim - t.rightTrim < 0 := by
  obtain ⟨i, h1, h2⟩ := instance_witness
    (fun i => decide (∃ t ∈ i.binTypes, t.w - t.leftTrim - t.rightTrim < 0)) .binPacking
    [.addBinType 100 10, .addTrims 0 ⟨20, .hard, 20, .hard, 0, .soft, 0, .soft⟩,
      .addItemType 4 4 false (-1), .setBinTypesInfiniteX] (by decide +kernel)
  exact ⟨_, i, h1, of_decide_eq_true h2⟩

/-- **C74**, negation: defects are not checked; one may lie outside its bin. -/
theorem instance_defect_outside : ∃ ops inst, runOps .binPacking ops = .ok inst
    ∧ ∃ t ∈ inst.binTypes, ∃ d ∈ t.defects, d.y + d.h < 0 := by
  obtain ⟨i, h1, h2⟩ := instance_witness
    (fun i => decide (∃ t ∈ i.binTypes, ∃ d ∈ t.defects, d.y + d.h < 0)) .binPacking
    [.addBinType 10 10, .addDefect 0 0 (-5) 2 3, .addItemType 4 4 false (-1)] (by decide +kernel)
  exact ⟨_, i, h1, of_decide_eq_true h2⟩

/-! ## C75: stacks -/

theorem stackTable_congr {i0 inst : Instance} (hB : Built i0 inst) (h : StackTable i0) :
    StackTable inst := by
  have hn : inst.numberOfItemTypes = i0.numberOfItemTypes := hB.items_length
  have hs : inst.numberOfStacks = i0.numberOfStacks := by
    unfold Instance.numberOfStacks; rw [hB.stackOffsets]
  have hid := hB.item (·.stackId) (by intros; rfl) (fun oo t => (resolve_fields oo t).2.2.2.2.2.1)
  have hpos := hB.item (·.stackPos) (by intros; rfl)
    (fun oo t => (resolve_fields oo t).2.2.2.2.2.2.2.1)
  have hc := hB.item (·.copies) (by intros; rfl) (fun oo t => (resolve_fields oo t).1)
  have hitems : ∀ s, stackItems inst s = stackItems i0 s := by
    intro s
    unfold stackItems
    rw [hn]
    congr 1
    funext i
    rw [hid, hc]
  refine {
    stackOf := fun i hi => by rw [hid, hs]; exact h.stackOf i (hn ▸ hi)
    stackPos := fun i hi => by
      rw [hpos, h.stackPos i (hn ▸ hi)]
      simp only [hid, hc]
    size := fun s hs' => by
      rw [hitems]
      unfold Instance.stackSize
      rw [hB.stackOffsets]
      exact h.size s (hs ▸ hs')
    item := fun s hs' p hp => by
      rw [hitems] at hp ⊢
      unfold Instance.item Instance.stackIndex
      rw [hB.stackOffsets, hB.itemTypeIds]
      exact h.item s (hs ▸ hs') p hp
    first := by rw [hB.stackOffsets]; exact h.first
    last := by rw [hs, hB.stackOffsets, hB.itemTypeIds]; exact h.last
    nonneg := by rw [hs]; exact h.nonneg }

/-- What `build` does of the stacks, for numbers of copies that are not negative. -/
theorem built_stacks (hb : ops.foldlM step (new o) = .ok b) (h : b.build = .ok inst)
    (hc : ∀ t ∈ b.inst.itemTypes, 0 ≤ t.copies) : StackTable inst
    ∧ ((∀ t ∈ b.inst.itemTypes, 0 ≤ t.stackId) → ∀ i < inst.numberOfItemTypes,
        (inst.itemType i).stackId = (b.inst.itemType i).stackId)
    ∧ ((∃ t ∈ b.inst.itemTypes, t.stackId < 0) → ∀ i < inst.numberOfItemTypes,
        (inst.itemType i).stackId = (i : Int) ∧ (inst.itemType i).stackPos = 0) := by
  obtain ⟨i0, -, h0, hF0, hB⟩ := instance_built (fresh_ops hb) h
  have hid := hB.item (·.stackId) (by intros; rfl) (fun oo t => (resolve_fields oo t).2.2.2.2.2.1)
  have hpos := hB.item (·.stackPos) (by intros; rfl)
    (fun oo t => (resolve_fields oo t).2.2.2.2.2.2.2.1)
  rcases buildStacks_cases (inst := b.inst) hc with
      ⟨_, _, h3⟩ | ⟨h1, hne, i, h3, hT⟩ | ⟨h1, i, h3, hT⟩
  · rw [h3] at h0; cases h0
  · rw [h3] at h0
    cases h0
    refine ⟨stackTable_congr hB hT.stackTable, fun _ j hj => ?_, fun ⟨t, ht, h2⟩ => ?_⟩
    · have hj' : j < b.inst.itemTypes.length := by
        rw [← hT.length, ← hB.items_length]; exact hj
      rw [hid, hT.stackId j hj']
      have := h1 _ (getD_mem (l := b.inst.itemTypes) (i := j) default hj')
      unfold stackOf Instance.itemType
      omega
    · have := h1 t ht; omega
  · rw [h3] at h0
    cases h0
    refine ⟨stackTable_congr hB hT.stackTable, fun h2 j hj => ?_, fun _ j hj => ?_⟩
    · have hj' : j < b.inst.itemTypes.length := by
        rw [← hT.length, ← hB.items_length]; exact hj
      have hm := getD_mem (l := b.inst.itemTypes) (i := j) default hj'
      have := h1 _ hm
      have := h2 _ hm
      omega
    · have hj' : j < b.inst.itemTypes.length := by
        rw [← hT.length, ← hB.items_length]; exact hj
      rw [hid, hpos, hT.stackId j hj', hT.stackPos j hj']
      refine ⟨rfl, ?_⟩
      have : stackK (copiesOf b.inst.itemTypes) (fun i => i) j j = [] := by
        unfold stackK
        rw [List.flatMap_eq_nil_iff]
        intro x hx
        have := List.mem_range.mp hx
        rw [if_neg (by dsimp only; omega)]
      rw [this]; rfl

/-- **C75**: the stacks of a built instance whose item types have no negative number of copies are
those of its item types: the items of stack `s` are the copies of the item types of stack `s`, in
the order in which the item types were added. -/
theorem instance_stack_table_partial (h : runOps o ops = .ok inst)
    (hc : ∀ i < inst.numberOfItemTypes, 0 ≤ (inst.itemType i).copies) : StackTable inst := by
  unfold runOps at h
  obtain ⟨b, hb, h⟩ := bind_ok.mp h
  refine (built_stacks hb h fun t ht => ?_).1
  obtain ⟨k, hk, rfl⟩ := List.getElem_of_mem ht
  obtain ⟨-, hl, hi, -⟩ := instance_preserved hb h
  have hk' : k < inst.numberOfItemTypes := by rw [hl]; exact hk
  have := hc k hk'
  rw [(hi k hk').2.2.2.1] at this
  unfold Instance.itemType at this
  rwa [List.getD_eq_getElem _ _ hk] at this

/-- **C75**: if every item type was given a stack, the built instance has these stacks. -/
theorem instance_stacks_given (hb : ops.foldlM step (new o) = .ok b) (h : b.build = .ok inst)
    (hc : ∀ t ∈ b.inst.itemTypes, 0 ≤ t.copies) (hn : ∀ t ∈ b.inst.itemTypes, 0 ≤ t.stackId) :
    ∀ i < inst.numberOfItemTypes, (inst.itemType i).stackId = (b.inst.itemType i).stackId :=
  (built_stacks hb h hc).2.1 hn

/-- **C75**: if an item type was not given a stack, no item type was, and each is alone in its
stack. -/
theorem instance_stacks_default (hb : ops.foldlM step (new o) = .ok b) (h : b.build = .ok inst)
    (hc : ∀ t ∈ b.inst.itemTypes, 0 ≤ t.copies) (hn : ∃ t ∈ b.inst.itemTypes, t.stackId < 0) :
    ∀ i < inst.numberOfItemTypes,
      (inst.itemType i).stackId = (i : Int) ∧ (inst.itemType i).stackPos = 0 :=
  (built_stacks hb h hc).2.2 hn

/-- **C75**: item types with and without a stack in the same instance are rejected, whatever the
rest of the instance. -/
theorem instance_mixed_stacks (b : InstanceBuilder) (h1 : ∃ t ∈ b.inst.itemTypes, 0 ≤ t.stackId)
    (h2 : ∃ t ∈ b.inst.itemTypes, t.stackId < 0) : b.build = .error .invalidArgument := by
  have e1 : (b.inst.itemTypes.any fun t => decide (t.stackId ≥ 0)) = true := by
    obtain ⟨t, ht, h⟩ := h1
    exact List.any_eq_true.mpr ⟨t, ht, by simpa using h⟩
  have e2 : (b.inst.itemTypes.any fun t => !decide (t.stackId ≥ 0)) = true := by
    obtain ⟨t, ht, h⟩ := h2
    exact List.any_eq_true.mpr ⟨t, ht, by simpa using h⟩
  have h3 : buildStacks b.inst = .error .invalidArgument := by
    unfold buildStacks
    dsimp only
    rw [e1, e2]
    rfl
  unfold InstanceBuilder.build
  rcases checkParameters_iff (p := b.inst.parameters) with ⟨hp, -⟩ | ⟨hp, -⟩
  · rw [hp, h3]; rfl
  · rw [hp]; rfl

/-- **C75**: the tables of a built instance are complete: building solutions of it never has
undefined behaviour (see `build_defined`), if no item type has a negative number of copies and, for
the cutting cost objective, there are cutting costs. -/
theorem instance_tables_partial (h : runOps o ops = .ok inst)
    (hc : ∀ i < inst.numberOfItemTypes, 0 ≤ (inst.itemType i).copies)
    (hcc : inst.objective = .binPackingCuttingCost → inst.parameters.cuttingCosts ≠ []) :
    TablesOk inst := by
  have hT := instance_stack_table_partial h hc
  unfold runOps at h
  obtain ⟨b, hb, h⟩ := bind_ok.mp h
  obtain ⟨i0, -, -, hF0, hB⟩ := instance_built (fresh_ops hb) h
  refine ⟨fun i hi => ?_, fun i hi bt hbt r hr => ?_, fun i hi hp => ?_, hcc⟩
  · rw [hB.resource_row hi, List.length_map, List.length_range]; exact le_refl _
  · rw [hB.resource_row hi, List.getD_eq_getElem _ _ (by
      rw [List.length_map, List.length_range]; exact hbt)] at hr
    simp only [List.getElem_map, List.getElem_range] at hr
    unfold wantedIds at hr
    exact List.mem_range.mp (List.mem_filter.mp hr).1
  · obtain ⟨s0, s1⟩ := hT.stackOf i hi
    obtain ⟨s, hs⟩ := Int.eq_ofNat_of_zero_le s0
    rw [hs] at s1 ⊢
    have hpos := hT.stackPos i hi
    rw [hs] at hpos
    -- the items of the stack before item type `i`
    have hpre : ((stackItems inst s).length : Int)
        ≥ (inst.itemType i).stackPos + (inst.itemType i).copies := by
      have key : ∀ k, ((((List.range k).filter fun j => (inst.itemType j).stackId = (s : Int)).map
          fun j => ((inst.itemType j).copies.toNat : Int)).sum)
          = ((((List.range k).flatMap fun j => if (inst.itemType j).stackId = (s : Int) then
            List.replicate (inst.itemType j).copies.toNat j else []).length : Nat) : Int) := by
        intro k
        induction k with
        | zero => rfl
        | succ k ih =>
          rw [List.range_succ, List.filter_append, List.map_append, List.sum_append, ih,
            List.flatMap_append, List.length_append]
          by_cases e : (inst.itemType k).stackId = (s : Int) <;> simp [e]
      have e1 : ((List.range i).filter fun j => (inst.itemType j).stackId = (s : Int)).map
          (fun j => (inst.itemType j).copies)
          = ((List.range i).filter fun j => (inst.itemType j).stackId = (s : Int)).map
          (fun j => ((inst.itemType j).copies.toNat : Int)) := by
        apply List.map_congr_left
        intro j hj
        have hj' := List.mem_range.mp (List.mem_filter.mp hj).1
        have := hc j (by omega)
        omega
      rw [hpos, e1, key]
      unfold stackItems
      have hsplit : List.range inst.numberOfItemTypes
          = List.range (i + 1) ++ (List.range (inst.numberOfItemTypes - (i + 1))).map (i + 1 + ·) := by
        rw [← List.range_add]; congr 1; omega
      rw [hsplit, List.flatMap_append, List.length_append, List.range_succ, List.flatMap_append,
        List.length_append]
      have h1 : [i].flatMap (fun i => if (inst.itemType i).stackId = (s : Int) then
          List.replicate (inst.itemType i).copies.toNat i else [])
          = List.replicate (inst.itemType i).copies.toNat i := by
        simp [hs]
      rw [h1, List.length_replicate]
      have := hc i hi
      omega
    have hci := hc i hi
    obtain ⟨p, hp'⟩ := Int.eq_ofNat_of_zero_le (a := (inst.itemType i).stackPos - 1) (by omega)
    have hpl : p < (stackItems inst s).length := by omega
    rw [hp']
    refine ⟨by omega, by unfold Instance.numberOfStacks at s1; omega, ?_, ?_, ?_⟩
    · have hoff : ∀ k : Nat, (k : Int) ≤ inst.numberOfStacks →
          0 ≤ inst.stackOffsets.getD k 0 := by
        intro k
        induction k with
        | zero => intro _; rw [hT.first]
        | succ k ih =>
          intro hk
          have h1 := ih (by omega)
          have h2 := hT.size k (by omega)
          unfold Instance.stackSize at h2
          omega
      unfold Instance.stackIndex
      rw [Int.toNat_natCast]
      have := hoff s (by omega)
      omega
    · have hmono : ∀ k : Nat, (s : Int) < k → (k : Int) ≤ inst.numberOfStacks →
          inst.stackOffsets.getD s 0 + (stackItems inst s).length
            ≤ inst.stackOffsets.getD k 0 := by
        intro k
        induction k with
        | zero => intro h1; omega
        | succ k ih =>
          intro h1 h2
          have h3 := hT.size k (by omega)
          unfold Instance.stackSize at h3
          by_cases e : s = k
          · subst e; omega
          · have := ih (by omega) (by omega)
            omega
      have h1 := hmono inst.numberOfStacks.toNat (by omega) (by omega)
      rw [hT.last] at h1
      unfold Instance.stackIndex
      rw [Int.toNat_natCast]
      omega
    · rw [hT.item s s1 p hpl]
      have hm := getD_mem (l := stackItems inst s) 0 hpl
      unfold stackItems at hm
      obtain ⟨j, hj, hm⟩ := List.mem_flatMap.mp hm
      split_ifs at hm with hj2
      · have h4 := List.eq_of_mem_replicate hm
        unfold stackItems
        rw [h4]
        exact List.mem_range.mp hj
      · exact absurd hm (by simp)

/-- The hypotheses of the theorems of C75 are met by the history above. -/
example : ∃ i, runOps .default exInstance = .ok i
    ∧ (∀ j < i.numberOfItemTypes, 0 ≤ (i.itemType j).copies)
    ∧ (i.objective = .binPackingCuttingCost → i.parameters.cuttingCosts ≠ [])
    ∧ stackItems i 0 = [0, 0, 0, 2, 2] := by
  obtain ⟨i, h1, h2⟩ := instance_witness (fun i => decide
    ((∀ j < i.numberOfItemTypes, 0 ≤ (i.itemType j).copies)
    ∧ (i.objective = .binPackingCuttingCost → i.parameters.cuttingCosts ≠ [])
    ∧ stackItems i 0 = [0, 0, 0, 2, 2])) .default exInstance
    (by unfold stackItems; decide +kernel)
  exact ⟨i, h1, of_decide_eq_true h2⟩

/-- **C75**, negation: with a negative number of copies, which the builder accepts, the stacks are
wrong: the second item of the first stack is an item of the third one. -/
theorem instance_negative_copies_stacks : ∃ ops inst, runOps .binPacking ops = .ok inst
    ∧ (inst.itemType 0).stackId = 0 ∧ (inst.itemType 0).copies = 2 ∧ inst.item 0 1 = 2
    ∧ (inst.itemType 2).stackId = 2 := by
  obtain ⟨i, h1, h2⟩ := instance_witness (fun i => decide ((i.itemType 0).stackId = 0
    ∧ (i.itemType 0).copies = 2 ∧ i.item 0 1 = 2 ∧ (i.itemType 2).stackId = 2)) .binPacking
    [.addBinType 10 10,
      .addItemType 4 4 false (-1), .setItemTypeCopies 0 2,
      .addItemType 3 3 false (-1), .setItemTypeCopies 1 (-1),
      .addItemType 2 2 false (-1), .setItemTypeCopies 2 3] (by decide +kernel)
  exact ⟨_, i, h1, of_decide_eq_true h2⟩

/-- **C75**, negation: a total number of copies that is negative makes `build` throw
`std::length_error`, a logic error. -/
theorem instance_negative_copies_throws :
    runOps .binPacking [.addBinType 10 10, .addItemType 4 4 false (-1),
      .setItemTypeCopies 0 (-1)] = .error .logicError := by
  have : (match runOps .binPacking [.addBinType 10 10, .addItemType 4 4 false (-1),
      .setItemTypeCopies 0 (-1)] with
    | .ok _ => false
    | .error e => decide (e = .logicError)) = true := by decide +kernel
  cases h : runOps .binPacking [.addBinType 10 10, .addItemType 4 4 false (-1),
      .setItemTypeCopies 0 (-1)] with
  | ok i => rw [h] at this; simp at this
  | error e => rw [h] at this; rw [of_decide_eq_true this]

end PackingSolver.Guil
