import Verif.Lemmas.Rect.Built
import Verif.Lemmas.Rect.Total

/-!
# C51: built rectangle instances are consistent
-/

namespace PackingSolver.Rect

open InstanceBuilder Spec

/-- **C51**: whatever sequence of calls was made on the builder, when `build` returns an instance
its derived data agree with its item and bin types. -/
theorem build_aggregates {ops : List Op} {inst : Instance}
    (h : runOps ops = .ok inst) : Aggregates inst := by
  unfold runOps at h
  obtain ⟨b, hb, h⟩ := bind_ok.mp h
  exact built_aggregates (fresh_ops hb) h

/-- **C51**: items of a built instance have positive sides and at least as many copies as their
minimum, bin types a non-negative minimum and a positive number of copies (or as many as there are
items), and open dimension instances have exactly one bin.  Missing: item copies and bin sides may
be negative or zero, and a bin type may have fewer copies than its minimum (see the theorems
below). -/
theorem build_sizes_partial {ops : List Op} {inst : Instance}
    (h : runOps ops = .ok inst) : Sizes inst := by
  unfold runOps at h
  obtain ⟨b, hb, h⟩ := bind_ok.mp h
  exact built_sizes (fresh_ops hb) h

/-- **C51**: an item type with a zero side never survives `build`: the call has undefined
behaviour (integer division by the area), it returns no instance. -/
theorem build_zero_side {ops : List Op} {b : InstanceBuilder}
    (hb : ops.foldlM step new = .ok b) (hz : ∃ t ∈ b.inst.itemTypes, t.x = 0 ∨ t.y = 0) :
    ∃ e, b.build = .error e := by
  obtain ⟨t, ht, h0⟩ := hz
  cases h : b.build with
  | error e => exact ⟨e, rfl⟩
  | ok inst =>
    exfalso
    have hF := fresh_ops hb
    have hm := built_map_items hF h (fun t => (t.x, t.y)) (by intros; rfl)
      (fun oo t => by rw [(resolve_fields oo t).2.1, (resolve_fields oo t).2.2.1])
    have h1 : (t.x, t.y) ∈ b.inst.itemTypes.map (fun t => (t.x, t.y)) :=
      List.mem_map.mpr ⟨t, ht, rfl⟩
    rw [← hm] at h1
    obtain ⟨u, hu, hue⟩ := List.mem_map.mp h1
    have := (built_sizes hF h).items u hu
    simp only [Prod.mk.injEq] at hue
    omega

/-- **C51**: `build` changes nothing of what the user asked for: objective, parameters and callback
are those set, the item types are those set (resource ids aside) with the minimum that was set (if
none was set: all copies, or none for the knapsack objective), and the bin types are those set
(eligible item types aside), unlimited copies being as many as items. -/
theorem build_preserved {ops : List Op} {b : InstanceBuilder} {inst : Instance}
    (hb : ops.foldlM step new = .ok b) (h : b.build = .ok inst) :
    (inst.objective = b.inst.objective ∧ inst.parameters = b.inst.parameters
      ∧ inst.callback = b.inst.callback)
    ∧ inst.numberOfItemTypes = b.inst.numberOfItemTypes
    ∧ (∀ i < inst.numberOfItemTypes, { inst.itemType i with resourceIds := [] }
      = { b.inst.itemType i with
          resourceIds := []
          copiesMin := if (b.inst.itemType i).copiesMin = -1 then
            (if b.inst.objective = .knapsack then 0 else (b.inst.itemType i).copies)
            else (b.inst.itemType i).copiesMin })
    ∧ inst.numberOfBinTypes = b.inst.numberOfBinTypes
    ∧ ∀ t < inst.numberOfBinTypes, { inst.binType t with itemTypeIds := [] }
      = { b.inst.binType t with
          itemTypeIds := []
          copies := if (b.inst.binType t).copies = -1 then inst.numberOfItems
            else (b.inst.binType t).copies } := by
  have hF := fresh_ops hb
  have hl := built_items_length hF h
  refine ⟨built_misc hF h, hl, fun i hi => ?_, built_bins_length hF h, fun t ht => ?_⟩
  · obtain ⟨i1, st, hI, hB, -, hinst⟩ := build_pieces hF h
    obtain ⟨_, _, _, _, _, _, est⟩ := hB.rest
    have hitems : st.1.itemTypes = b.inst.itemTypes.map (resolveItem b.inst.objective) := by
      have e : st.1.itemTypes = i1.itemTypes := by rw [est]
      rw [e, hI.itemTypes]; simp
    have hi' : i < b.inst.itemTypes.length := hl ▸ hi
    have e : { inst.itemType i with resourceIds := [] }
        = { resolveItem b.inst.objective (b.inst.itemType i) with resourceIds := [] } := by
      have h1 : inst.itemTypes.map (fun t => { t with resourceIds := [] })
          = b.inst.itemTypes.map
            (fun t => { resolveItem b.inst.objective t with resourceIds := [] }) := by
        rw [hinst]
        change (withRes _ _ _).map _ = _
        rw [map_withRes _ _ _ _ (by intros; rfl), hitems, List.map_map]
        rfl
      have h2 := congrArg (fun l => l[i]?) h1
      simp only [List.getElem?_map] at h2
      unfold Instance.itemType
      rw [List.getD_eq_getElem?_getD, List.getD_eq_getElem?_getD]
      rw [List.getElem?_eq_getElem hi, List.getElem?_eq_getElem hi'] at h2 ⊢
      simpa using h2
    rw [e]
    unfold resolveItem
    split_ifs <;> rfl
  · have := built_bin hF h (fun t => { t with itemTypeIds := [] }) (by intros; rfl) t ht
    rw [this]
    unfold resolveBin
    split_ifs <;> rfl

/-- **C51**: `build` succeeds exactly when the instance under construction is complete, and rejects
every other one as an invalid argument, as long as item sides are positive, item copies are not
negative and resource consumptions are of existing item types (which the builder does not
check). -/
theorem build_iff {ops : List Op} {b : InstanceBuilder} (hb : ops.foldlM step new = .ok b)
    (hW : WellFormed b.inst) :
    (Buildable b.inst ∧ ∃ inst, b.build = .ok inst)
    ∨ (¬ Buildable b.inst ∧ b.build = .error .invalidArgument) :=
  build_cases (fresh_ops hb) hW

/-! ### Non-vacuity and counterexamples -/

/-- A history: two bin types (one with as many copies as items), a defect, a resource with a
consumption schedule, two item types of which one may be rotated. -/
def exBuild : List Op :=
  [.setObjective .variableSizedBinPacking,
   .addBinType 10 6, .setBinTypeCost 0 7, .addBinTypeEligibility 0 7, .addDefect 0 3 3 1 1,
   .addBinTypeResource 0 6 true 2,
   .addItemType 4 2 false, .setItemTypeCopies 0 3, .setItemTypeProfit 0 5,
   .addItemType 3 5 true, .setItemTypeCopies 1 2, .setItemTypeCopiesMin 1 2,
   .setItemTypeEligibility 1 7, .setItemTypeGroup 1 2,
   .addResourceConsumption 0 0 1 0 3, .addResourceConsumption 0 0 1 1 4,
   .addBinType 12 4, .setBinTypeCopies 1 (-1)]

/-- Selected data of the instance built by a history. -/
def summary (r : Except Err Instance) :
    Option (Int × List Nat × List Int × List Int) :=
  match r with
  | .ok i => some (i.numberOfItems, i.binTypeIds, i.previousBinsArea,
      [i.itemArea, i.smallestItemWidth, i.smallestItemHeight, i.totalItemWidth,
        i.largestItemCopies, i.numberOfGroups])
  | .error _ => none

/-- The hypotheses of the theorems above are met: the history builds, 5 items. -/
example : summary (runOps exBuild)
    = some (5, [0, 1, 1, 1, 1, 1], [0, 60, 108, 156, 204, 252], [54, 2, 2, 18, 3, 3]) := by
  decide +kernel

example : ∃ inst, runOps exBuild = .ok inst ∧ Aggregates inst ∧ Sizes inst
    ∧ inst.numberOfItems = 5 := by
  have hs : summary (runOps exBuild)
    = some (5, [0, 1, 1, 1, 1, 1], [0, 60, 108, 156, 204, 252], [54, 2, 2, 18, 3, 3]) := by
    decide +kernel
  cases h : runOps exBuild with
  | error e => rw [h] at hs; simp [summary] at hs
  | ok inst =>
    rw [h] at hs
    simp only [summary, Option.some.injEq, Prod.mk.injEq] at hs
    exact ⟨inst, rfl, build_aggregates h, build_sizes_partial h, hs.1⟩

/-- The hypotheses of `build_preserved` and `build_iff` are met by that history. -/
example : ∃ b, exBuild.foldlM step new = .ok b ∧ WellFormed b.inst ∧ ∃ inst, b.build = .ok inst := by
  have : (match exBuild.foldlM step new with
    | .ok b => decide ((∀ t ∈ b.inst.itemTypes, t.x ≠ 0 ∧ t.y ≠ 0)
      ∧ (∀ t ∈ b.inst.itemTypes, 0 ≤ t.copies)
      ∧ (∀ t ∈ b.inst.binTypes, ∀ r ∈ t.resources,
        r.itemConsumptions.length ≤ b.inst.itemTypes.length)
      ∧ (∀ t ∈ b.inst.itemTypes, t.copiesMin = -1 ∨ t.copiesMin ≤ t.copies)
      ∧ b.inst.objective = .variableSizedBinPacking)
    | .error _ => false) = true := by decide +kernel
  cases h : exBuild.foldlM step new with
  | error e => rw [h] at this; simp at this
  | ok b =>
    rw [h] at this
    obtain ⟨h1, h2, h3, h4, h5⟩ := of_decide_eq_true this
    refine ⟨b, rfl, ⟨h1, h2, h3⟩, ?_⟩
    rcases build_iff h ⟨h1, h2, h3⟩ with h6 | h6
    · exact h6.2
    · exact absurd ⟨h4, fun h7 => by rw [h5] at h7; rcases h7 with h7 | h7 <;> cases h7⟩ h6.1

/-- A builder whose item type has a zero side: reachable, so `build_zero_side` applies. -/
example : (match [Op.addBinType 10 6, Op.addItemType 0 2 false].foldlM step new with
    | .ok b => decide (∃ t ∈ b.inst.itemTypes, t.x = 0 ∨ t.y = 0)
    | .error _ => false) = true := by decide +kernel

/-- **C51**, negation: `set_item_type_copies(id, -1)` is accepted, and `build` leaves the number
of copies at -1 and counts -1 items. -/
theorem build_negative_copies : ∃ ops inst, runOps ops = .ok inst
    ∧ (∃ t ∈ inst.itemTypes, t.copies = -1) ∧ inst.numberOfItems = -1 := by
  have : (match runOps [.addBinType 10 10, .addItemType 4 4 false, .setItemTypeCopies 0 (-1)] with
    | .ok i => decide ((∃ t ∈ i.itemTypes, t.copies = -1) ∧ i.numberOfItems = -1)
    | .error _ => false) = true := by decide +kernel
  cases h : runOps [.addBinType 10 10, .addItemType 4 4 false, .setItemTypeCopies 0 (-1)] with
  | error e => rw [h] at this; simp at this
  | ok i => rw [h] at this; exact ⟨_, i, h, of_decide_eq_true this⟩

/-- **C51**, negation: `set_bin_types_infinite_x` called before the items are added leaves bins of
width 0. -/
theorem build_zero_width_bin : ∃ ops inst, runOps ops = .ok inst
    ∧ ∃ t ∈ inst.binTypes, t.x = 0 := by
  have : (match runOps [.addBinType 10 10, .setBinTypesInfiniteX, .addItemType 4 4 false] with
    | .ok i => decide (∃ t ∈ i.binTypes, t.x = 0)
    | .error _ => false) = true := by decide +kernel
  cases h : runOps [.addBinType 10 10, .setBinTypesInfiniteX, .addItemType 4 4 false] with
  | error e => rw [h] at this; simp at this
  | ok i => rw [h] at this; exact ⟨_, i, h, of_decide_eq_true this⟩

/-- **C51**, negation: a bin type with unlimited copies and a minimum of 5 ends with fewer copies
than its minimum. -/
theorem build_bin_copies_min : ∃ ops inst, runOps ops = .ok inst
    ∧ ∃ t ∈ inst.binTypes, t.copies < t.copiesMin := by
  have : (match runOps [.addBinType 10 10, .setBinTypeCopies 0 (-1), .setBinTypeCopiesMin 0 5,
      .addItemType 4 4 false] with
    | .ok i => decide (∃ t ∈ i.binTypes, t.copies < t.copiesMin)
    | .error _ => false) = true := by decide +kernel
  cases h : runOps [.addBinType 10 10, .setBinTypeCopies 0 (-1), .setBinTypeCopiesMin 0 5,
      .addItemType 4 4 false] with
  | error e => rw [h] at this; simp at this
  | ok i => rw [h] at this; exact ⟨_, i, h, of_decide_eq_true this⟩

/-- **C51**, negation: defects are not checked; one may lie outside its bin. -/
theorem build_defect_outside : ∃ ops inst, runOps ops = .ok inst
    ∧ ∃ t ∈ inst.binTypes, ∃ d ∈ t.defects, d.posY + d.y < 0 := by
  have : (match runOps [.addBinType 10 10, .addDefect 0 0 (-5) 2 3, .addItemType 4 4 false] with
    | .ok i => decide (∃ t ∈ i.binTypes, ∃ d ∈ t.defects, d.posY + d.y < 0)
    | .error _ => false) = true := by decide +kernel
  cases h : runOps [.addBinType 10 10, .addDefect 0 0 (-5) 2 3, .addItemType 4 4 false] with
  | error e => rw [h] at this; simp at this
  | ok i => rw [h] at this; exact ⟨_, i, h, of_decide_eq_true this⟩

end PackingSolver.Rect
