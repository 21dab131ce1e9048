import Verif.Lemmas.Rect.Describe

/-!
# C94 for rectangle instances: the types under construction are those that were described
-/

namespace PackingSolver.Rect

open Rect.Spec InstanceBuilder
open PackingSolver.Spec (lastGiven allGiven consumptionOf)

variable {ops : List Op} {b b' : InstanceBuilder}

/-- **C94** (bin types): after any accepted history of calls that add a type or concern a single type,
the bin types are those that were added, with the attributes given last for each. -/
theorem bins_as_given (hp : ∀ op ∈ ops, Plain op) (h : ops.foldlM step new = .ok b) :
    b.inst.binTypes.length = (allGiven binAdded ops).length
    ∧ ∀ i d, (allGiven binAdded ops)[i]? = some d →
      ∃ t, b.inst.binTypes[i]? = some t ∧ BinAsGiven ops i d t := by
  have g := (asGiven hp h).bins
  refine ⟨g.length, fun i d hd => ⟨_, g.entry i d hd, ?_, ?_, ?_, ?_, ?_, ?_, ?_, ?_, ?_⟩⟩
  · refine ((entryOf_last (fun _ => ()) (fun _ => none) (fun t : BinType => (t.x, t.y) = d) i d rfl
      ?_ ?_ ops).1)
    · intro op f hf t ht
      cases op <;> simp [binUpd] at hf <;> (obtain ⟨rfl, rfl⟩ := hf; exact ⟨ht, rfl⟩)
    · intro _ _; rfl
  · rw [bin_last (·.cost) (binCostGiven i d) i d ?_ ?_ ops]
    · simp [describedBin]
    · intro op f hf t ht
      cases op <;> simp [binUpd] at hf <;> (obtain ⟨rfl, rfl⟩ := hf; cases ht; simp [binCostGiven])
    · intro op hf
      cases op <;> simp [binUpd, binCostGiven] at hf ⊢; exact hf
  · exact bin_last (·.maximumWeight) (binMaximumWeightGiven i) i d
      (by
        intro op f hf t ht
        cases op <;> simp [binUpd] at hf <;> (obtain ⟨rfl, rfl⟩ := hf; simp [binMaximumWeightGiven]))
      (by intro op hf; cases op <;> simp [binUpd, binMaximumWeightGiven] at hf ⊢; exact hf) ops
  · exact bin_last (·.truck) (binTruckGiven i) i d
      (by
        intro op f hf t ht
        cases op <;> simp [binUpd] at hf <;> (obtain ⟨rfl, rfl⟩ := hf; simp [binTruckGiven]))
      (by intro op hf; cases op <;> simp [binUpd, binTruckGiven] at hf ⊢; exact hf) ops
  · rw [entryOf_all (fun t : BinType => t.eligibilityIds) (binEligibilityIdsGiven i) i d ?_ ?_ ops]
    · rfl
    · intro op f hf t
      cases op <;> simp [binUpd] at hf <;> (obtain ⟨rfl, rfl⟩ := hf; simp [binEligibilityIdsGiven])
    · intro op hf
      cases op <;> simp [binUpd, binEligibilityIdsGiven] at hf ⊢; exact hf
  · rw [entryOf_all (fun t : BinType => t.defects) (binDefectsGiven i) i d ?_ ?_ ops]
    · rfl
    · intro op f hf t
      cases op <;> simp [binUpd] at hf <;> (obtain ⟨rfl, rfl⟩ := hf; simp [binDefectsGiven])
    · intro op hf
      cases op <;> simp [binUpd, binDefectsGiven] at hf ⊢; exact hf
  · rw [entryOf_all (fun t : BinType => t.resources.map fun r => (r.capacity, r.penalize, r.penalty))
      (binResourcesGiven i) i d ?_ ?_ ops]
    · rfl
    · intro op f hf t
      cases op <;> simp [binUpd] at hf <;> (obtain ⟨rfl, rfl⟩ := hf; simp [binResourcesGiven])
      rename_i r j c q
      apply List.ext_getElem?
      intro n
      rw [List.getElem?_map, List.getElem?_map, List.getElem?_modify]
      cases t.resources[n]? with
      | none => simp
      | some x => by_cases hn : r = n <;> simp [hn, Resource.addConsumption]
    · intro op hf
      cases op <;> simp [binUpd, binResourcesGiven] at hf ⊢; exact hf
  · exact bin_last (·.copies) (binCopiesGiven i) i d
      (by
        intro op f hf t ht
        cases op <;> simp [binUpd] at hf <;> (obtain ⟨rfl, rfl⟩ := hf; simp [binCopiesGiven]))
      (by intro op hf; cases op <;> simp [binUpd, binCopiesGiven] at hf ⊢; exact hf) ops
  · exact bin_last (·.copiesMin) (binCopiesMinGiven i) i d
      (by
        intro op f hf t ht
        cases op <;> simp [binUpd] at hf <;> (obtain ⟨rfl, rfl⟩ := hf; simp [binCopiesMinGiven]))
      (by intro op hf; cases op <;> simp [binUpd, binCopiesMinGiven] at hf ⊢; exact hf) ops

/-- **C94** (consumptions): every copy of every item type consumes of every resource what was given
for it. -/
theorem consumptions_as_given (hp : ∀ op ∈ ops, Plain op) (h : ops.foldlM step new = .ok b)
    {i : Nat} {t : BinType} (ht : b.inst.binTypes[i]? = some t) (r j c : Nat) :
    (t.resources.getD r {}).itemConsumption j c
      = consumptionOf (allGiven (consumptionGiven i r j) ops) c := by
  refine itemConsumption_of_schedule ?_ c
  have := schedules_as_given hp h i r j
  unfold resList at this
  rwa [ht] at this

/-- **C94** (item types): after any accepted history of calls that add a type or concern a single type,
the item types are those that were added, with the attributes given last for each. -/
theorem items_as_given (hp : ∀ op ∈ ops, Plain op) (h : ops.foldlM step new = .ok b) :
    b.inst.itemTypes.length = (allGiven itemAdded ops).length
    ∧ ∀ i d, (allGiven itemAdded ops)[i]? = some d →
      ∃ t, b.inst.itemTypes[i]? = some t ∧ ItemAsGiven ops i d t := by
  have g := (asGiven hp h).items
  refine ⟨g.length, fun i d hd => ⟨_, g.entry i d hd, ?_, ?_, ?_, ?_, ?_, ?_, ?_⟩⟩
  · refine ((entryOf_last (fun _ => ()) (fun _ => none) (fun t : ItemType => (t.x, t.y, t.oriented) = d) i d rfl
      ?_ ?_ ops).1)
    · intro op f hf t ht
      cases op <;> simp [itemUpd] at hf <;> (obtain ⟨rfl, rfl⟩ := hf; exact ⟨ht, rfl⟩)
    · intro _ _; rfl
  · rw [item_last (·.groupId) (itemGroupIdGiven i) i d ?_ ?_ ops]
    · simp [describedItem]
    · intro op f hf t
      cases op <;> simp [itemUpd] at hf <;> (obtain ⟨rfl, rfl⟩ := hf; simp [itemGroupIdGiven])
    · intro op hf
      cases op <;> simp [itemUpd, itemGroupIdGiven] at hf ⊢; exact hf
  · rw [item_last (·.weight) (itemWeightGiven i) i d ?_ ?_ ops]
    · simp [describedItem]
    · intro op f hf t
      cases op <;> simp [itemUpd] at hf <;> (obtain ⟨rfl, rfl⟩ := hf; simp [itemWeightGiven])
    · intro op hf
      cases op <;> simp [itemUpd, itemWeightGiven] at hf ⊢; exact hf
  · rw [item_last (·.eligibilityId) (itemEligibilityIdGiven i) i d ?_ ?_ ops]
    · simp [describedItem]
    · intro op f hf t
      cases op <;> simp [itemUpd] at hf <;> (obtain ⟨rfl, rfl⟩ := hf; simp [itemEligibilityIdGiven])
    · intro op hf
      cases op <;> simp [itemUpd, itemEligibilityIdGiven] at hf ⊢; exact hf
  · rw [item_last (·.profit) (itemProfitGiven i) i d ?_ ?_ ops]
    · simp [describedItem]
    · intro op f hf t
      cases op <;> simp [itemUpd] at hf <;> (obtain ⟨rfl, rfl⟩ := hf; simp [itemProfitGiven])
    · intro op hf
      cases op <;> simp [itemUpd, itemProfitGiven] at hf ⊢; exact hf
  · rw [item_last (·.copies) (itemCopiesGiven i) i d ?_ ?_ ops]
    · simp [describedItem]
    · intro op f hf t
      cases op <;> simp [itemUpd] at hf <;> (obtain ⟨rfl, rfl⟩ := hf; simp [itemCopiesGiven])
    · intro op hf
      cases op <;> simp [itemUpd, itemCopiesGiven] at hf ⊢; exact hf
  · rw [item_last (·.copiesMin) (itemCopiesMinGiven i) i d ?_ ?_ ops]
    · simp [describedItem]
    · intro op f hf t
      cases op <;> simp [itemUpd] at hf <;> (obtain ⟨rfl, rfl⟩ := hf; simp [itemCopiesMinGiven])
    · intro op hf
      cases op <;> simp [itemUpd, itemCopiesMinGiven] at hf ⊢; exact hf

/-- **C94** (objective and callback). -/
theorem objective_as_given (hp : ∀ op ∈ ops, Plain op) (h : ops.foldlM step new = .ok b) :
    b.inst.objective = (lastGiven objectiveGiven ops).getD .binPacking
    ∧ b.inst.callback = (lastGiven callbackGiven ops).getD (fun _ => true) :=
  ⟨(asGiven hp h).objective, (asGiven hp h).callback⟩

/-- **C94** (rejections): such a call is accepted exactly if its arguments are acceptable; otherwise it is
rejected as an invalid argument, except that setting the group of an unknown item type is undefined. -/
theorem call_accepted_iff (b : InstanceBuilder) {op : Op} (hp : Plain op) :
    ((∃ b', step b op = .ok b') ↔ Acceptable b.inst op)
    ∧ (¬ Acceptable b.inst op →
      (∀ i g, op = .setItemTypeGroup i g → i < b.inst.itemTypes.length) →
      step b op = .error .invalidArgument) := by
  have key : ∀ {x : Except Err InstanceBuilder} {P : Prop}, (P → ∃ b', x = .ok b') →
      (¬ P → x = .error .invalidArgument) →
      ((∃ b', x = .ok b') ↔ P) ∧ (¬ P → x = .error .invalidArgument) := by
    intro x P h1 h2
    refine ⟨⟨fun ⟨b', e⟩ => ?_, h1⟩, h2⟩
    by_contra hc
    rw [h2 hc] at e
    cases e
  have hb : ∀ (id : Nat) (f : BinType → Except Err BinType) (Q : BinType → Prop),
      (∀ t, Q t → ∃ t', f t = .ok t') → (∀ t, ¬ Q t → f t = .error .invalidArgument) →
      ((∃ b', b.modifyBin id f = .ok b') ↔ (id < b.inst.binTypes.length ∧ Q (b.inst.binType id)))
      ∧ (¬ (id < b.inst.binTypes.length ∧ Q (b.inst.binType id)) →
        b.modifyBin id f = .error .invalidArgument) := by
    intro id f Q h1 h2
    apply key
    · rintro ⟨hl, hq⟩
      obtain ⟨t', ht⟩ := h1 _ hq
      unfold modifyBin
      rw [if_neg (by omega), ht]
      exact ⟨_, rfl⟩
    · intro hn
      unfold modifyBin
      by_cases hl : id < b.inst.binTypes.length
      · rw [if_neg (by omega), h2 _ (fun hq => hn ⟨hl, hq⟩)]
      · rw [if_pos (by omega)]
  have hi : ∀ (id : Nat) (f : ItemType → Except Err ItemType) (Q : ItemType → Prop),
      (∀ t, Q t → ∃ t', f t = .ok t') → (∀ t, ¬ Q t → f t = .error .invalidArgument) →
      ((∃ b', b.modifyItem id f = .ok b') ↔ (id < b.inst.itemTypes.length ∧ Q (b.inst.itemType id)))
      ∧ (¬ (id < b.inst.itemTypes.length ∧ Q (b.inst.itemType id)) →
        b.modifyItem id f = .error .invalidArgument) := by
    intro id f Q h1 h2
    apply key
    · rintro ⟨hl, hq⟩
      obtain ⟨t', ht⟩ := h1 _ hq
      unfold modifyItem
      rw [if_neg (by omega), ht]
      exact ⟨_, rfl⟩
    · intro hn
      unfold modifyItem
      by_cases hl : id < b.inst.itemTypes.length
      · rw [if_neg (by omega), h2 _ (fun hq => hn ⟨hl, hq⟩)]
      · rw [if_pos (by omega)]
  have triv : ∀ {P : Prop} {x : Except Err InstanceBuilder},
      (((∃ b', x = .ok b') ↔ (P ∧ True)) ∧ (¬ (P ∧ True) → x = .error .invalidArgument)) →
      ((∃ b', x = .ok b') ↔ P) ∧ (¬ P → x = .error .invalidArgument) := by
    intro P x h; simpa using h
  have noGroup : ∀ {P Q R : Prop} {x : Except Err InstanceBuilder},
      ((Q ↔ P) ∧ (¬ P → x = .error .invalidArgument)) →
      (Q ↔ P) ∧ (¬ P → R → x = .error .invalidArgument) :=
    fun h => ⟨h.1, fun hp _ => h.2 hp⟩
  cases op with
  | setObjective o' => exact noGroup (⟨⟨fun _ => trivial, fun _ => ⟨_, rfl⟩⟩, fun h => absurd trivial h⟩)
  | setCallback f => exact noGroup (⟨⟨fun _ => trivial, fun _ => ⟨_, rfl⟩⟩, fun h => absurd trivial h⟩)
  | setParameters p => exact noGroup (⟨⟨fun _ => trivial, fun _ => ⟨_, rfl⟩⟩, fun h => absurd trivial h⟩)
  | setGroupWeightConstraints g c => exact noGroup (⟨⟨fun _ => trivial, fun _ => ⟨_, rfl⟩⟩, fun h => absurd trivial h⟩)
  | addBinType x y =>
    apply noGroup
    apply key
    · intro hacc
      change 0 < x ∧ 0 < y at hacc
      change ∃ b', b.addBinType x y = .ok b'
      unfold addBinType
      rw [if_neg (by omega), if_neg (by omega)]
      exact ⟨_, rfl⟩
    · intro hn
      change b.addBinType x y = _
      unfold addBinType
      change ¬ (0 < x ∧ 0 < y) at hn
      split_ifs <;> first | rfl | omega
  | addItemType x y o =>
    apply noGroup
    apply key
    · intro hacc
      change 0 ≤ x ∧ 0 ≤ y at hacc
      change ∃ b', b.addItemType x y o = .ok b'
      unfold addItemType
      rw [if_neg (by omega), if_neg (by omega)]
      exact ⟨_, rfl⟩
    · intro hn
      change b.addItemType x y o = _
      unfold addItemType
      change ¬ (0 ≤ x ∧ 0 ≤ y) at hn
      split_ifs <;> first | rfl | omega
  | setBinTypeCost k c =>
    apply noGroup
    change ((∃ b', b.setBinTypeCost k c = .ok b') ↔ _) ∧ (_ → b.setBinTypeCost k c = _)
    unfold setBinTypeCost
    refine hb k _ (fun _ => 0 < c ∨ c = -1) ?_ ?_
    · intro t hq
      rw [if_neg (by
        rintro ⟨h1, h2⟩
        rcases hq with hq | hq
        · exact absurd h1 (not_le.mpr hq)
        · exact h2 hq)]
      exact ⟨_, rfl⟩
    · intro t hq
      rw [not_or, not_lt] at hq
      rw [if_pos hq]
  | setBinTypeMaximumWeight k w =>
    apply noGroup
    change ((∃ b', b.setBinTypeMaximumWeight k w = .ok b') ↔ _) ∧ (_ → b.setBinTypeMaximumWeight k w = _)
    unfold setBinTypeMaximumWeight
    exact triv (hb k _ (fun _ => True) (fun _ _ => ⟨_, rfl⟩) (fun _ h => absurd trivial h))
  | setBinTypeTruck k q =>
    apply noGroup
    change ((∃ b', b.setBinTypeTruck k q = .ok b') ↔ _) ∧ (_ → b.setBinTypeTruck k q = _)
    unfold setBinTypeTruck
    exact triv (hb k _ (fun _ => True) (fun _ _ => ⟨_, rfl⟩) (fun _ h => absurd trivial h))
  | addBinTypeEligibility k e =>
    apply noGroup
    change ((∃ b', b.addBinTypeEligibility k e = .ok b') ↔ _) ∧ (_ → b.addBinTypeEligibility k e = _)
    unfold addBinTypeEligibility
    exact triv (hb k _ (fun _ => True) (fun _ _ => ⟨_, rfl⟩) (fun _ h => absurd trivial h))
  | addDefect k px py x y =>
    apply noGroup
    change ((∃ b', b.addDefect k px py x y = .ok b') ↔ _) ∧ (_ → b.addDefect k px py x y = _)
    unfold addDefect
    exact triv (hb k _ (fun _ => True) (fun _ _ => ⟨_, rfl⟩) (fun _ h => absurd trivial h))
  | addBinTypeResource k c p q =>
    apply noGroup
    change ((∃ b', b.addBinTypeResource k c p q = .ok b') ↔ _) ∧ (_ → b.addBinTypeResource k c p q = _)
    unfold addBinTypeResource
    exact triv (hb k _ (fun _ => True) (fun _ _ => ⟨_, rfl⟩) (fun _ h => absurd trivial h))
  | addResourceConsumption k r j c q =>
    apply noGroup
    change ((∃ b', b.addResourceConsumption k r j c q = .ok b') ↔ _) ∧ (_ → b.addResourceConsumption k r j c q = _)
    unfold addResourceConsumption
    refine hb k _ (fun t => r < t.resources.length ∧ 0 ≤ c) ?_ ?_
    · intro t hq
      rw [if_neg (by omega), if_neg (by omega)]
      exact ⟨_, rfl⟩
    · intro t hq
      split_ifs <;> first | rfl | omega
  | setBinTypeCopies k c =>
    apply noGroup
    change ((∃ b', b.setBinTypeCopies k c = .ok b') ↔ _) ∧ (_ → b.setBinTypeCopies k c = _)
    unfold setBinTypeCopies
    refine hb k _ (fun t => c = -1 ∨ (0 < c ∧ t.copiesMin ≤ c)) ?_ ?_
    · intro t hq
      rw [if_neg (by omega)]
      exact ⟨_, rfl⟩
    · intro t hq
      split_ifs <;> first | rfl | omega
  | setBinTypeCopiesMin k c =>
    apply noGroup
    change ((∃ b', b.setBinTypeCopiesMin k c = .ok b') ↔ _) ∧ (_ → b.setBinTypeCopiesMin k c = _)
    unfold setBinTypeCopiesMin
    refine hb k _ (fun t => 0 ≤ c ∧ (t.copies = -1 ∨ c ≤ t.copies)) ?_ ?_
    · intro t hq
      rw [if_neg (by omega)]
      exact ⟨_, rfl⟩
    · intro t hq
      split_ifs <;> first | rfl | omega
  | setItemTypeGroup k g =>
    change ((∃ b', b.setItemTypeGroup k g = .ok b') ↔ (k < b.inst.itemTypes.length ∧ 0 ≤ g)) ∧ (_ → _ → b.setItemTypeGroup k g = _)
    unfold setItemTypeGroup
    by_cases hg : g < 0
    · rw [if_pos hg]
      refine ⟨⟨fun ⟨b', e⟩ => (by cases e), fun h => by omega⟩, fun _ _ => rfl⟩
    · rw [if_neg hg]
      by_cases hk : k ≥ b.inst.itemTypes.length
      · rw [if_pos hk]
        exact ⟨⟨fun ⟨b', e⟩ => (by cases e), fun h => by omega⟩,
          fun _ h => absurd (h k g rfl) (by omega)⟩
      · rw [if_neg hk]
        unfold modifyItem
        rw [if_neg hk]
        exact ⟨⟨fun _ => by omega, fun _ => ⟨_, rfl⟩⟩, fun h => absurd (by
          change k < b.inst.itemTypes.length ∧ 0 ≤ g
          omega) h⟩
  | setItemTypeWeight k w =>
    apply noGroup
    change ((∃ b', b.setItemTypeWeight k w = .ok b') ↔ _) ∧ (_ → b.setItemTypeWeight k w = _)
    unfold setItemTypeWeight
    exact triv (hi k _ (fun _ => True) (fun _ _ => ⟨_, rfl⟩) (fun _ h => absurd trivial h))
  | setItemTypeEligibility k e =>
    apply noGroup
    change ((∃ b', b.setItemTypeEligibility k e = .ok b') ↔ _) ∧ (_ → b.setItemTypeEligibility k e = _)
    unfold setItemTypeEligibility
    exact triv (hi k _ (fun _ => True) (fun _ _ => ⟨_, rfl⟩) (fun _ h => absurd trivial h))
  | setItemTypeProfit k p =>
    apply noGroup
    change ((∃ b', b.setItemTypeProfit k p = .ok b') ↔ _) ∧ (_ → b.setItemTypeProfit k p = _)
    unfold setItemTypeProfit
    exact triv (hi k _ (fun _ => True) (fun _ _ => ⟨_, rfl⟩) (fun _ h => absurd trivial h))
  | setItemTypeCopies k c =>
    apply noGroup
    change ((∃ b', b.setItemTypeCopies k c = .ok b') ↔ _) ∧ (_ → b.setItemTypeCopies k c = _)
    unfold setItemTypeCopies
    refine hi k _ (fun _ => c = -1 ∨ 0 < c) ?_ ?_
    · intro t hq
      rw [if_neg (by omega)]
      exact ⟨_, rfl⟩
    · intro t hq
      split_ifs <;> first | rfl | omega
  | setItemTypeCopiesMin k c =>
    apply noGroup
    change ((∃ b', b.setItemTypeCopiesMin k c = .ok b') ↔ _) ∧ (_ → b.setItemTypeCopiesMin k c = _)
    unfold setItemTypeCopiesMin
    refine hi k _ (fun _ => -1 ≤ c) ?_ ?_
    · intro t hq
      rw [if_neg (by omega)]
      exact ⟨_, rfl⟩
    · intro t hq
      split_ifs <;> first | rfl | omega
  | setBinTypesInfiniteX => exact hp.elim
  | setBinTypesInfiniteY => exact hp.elim
  | setBinTypesInfiniteCopies => exact hp.elim
  | setBinTypesUnweighted => exact hp.elim
  | setItemTypesUnweighted => exact hp.elim
  | setItemTypesOriented => exact hp.elim
  | setItemTypesInfiniteCopies => exact hp.elim
  | multiplyItemTypesCopies _ => exact hp.elim
  | addBinTypeFrom _ _ => exact hp.elim
  | addItemTypeFrom _ _ => exact hp.elim

/-- **C94** (parameters): the unloading constraint and the way of measuring leftovers are those of the
last parameters given, and the weight constraints of a group are checked unless the last call that
concerns it says otherwise. -/
theorem parameters_as_given (hp : ∀ op ∈ ops, Plain op) (h : ops.foldlM step new = .ok b) :
    b.inst.parameters.unloadingConstraint
      = ((lastGiven parametersGiven ops).getD {}).unloadingConstraint
    ∧ b.inst.parameters.leftoverMode = ((lastGiven parametersGiven ops).getD {}).leftoverMode
    ∧ ∀ g, b.inst.parameters.checkWeightConstraints.getD g true
      = (lastGiven (groupCheckGiven g) ops).getD true := by
  have mapped : ∀ {α : Type} (A : Parameters → α),
      lastGiven (fun op => (parametersGiven op).map A) ops = (lastGiven parametersGiven ops).map A := by
    intro α A
    unfold lastGiven
    rw [← List.getLast?_map, List.map_filterMap]
  have first : ∀ {α : Type} (A : Parameters → α),
      (∀ p l, A { p with checkWeightConstraints := l } = A p) →
      A b.inst.parameters = A ((lastGiven parametersGiven ops).getD {}) := by
    intro α A hA
    have := param_last A (fun op => (parametersGiven op).map A) (ops := ops) (b := b) ?_ hp h
    · rw [this, mapped]
      cases lastGiven parametersGiven ops <;> rfl
    · intro b op b' hpl hs
      by_cases ho : OnTypes op
      · rw [params_of_onTypes hpl ho hs]
        cases op <;> first | rfl | exact ho.elim
      · cases op <;> first
          | exact absurd trivial ho
          | exact hpl.elim
          | (cases hs; rfl)
          | (cases hs; exact hA _ _)
  refine ⟨first (·.unloadingConstraint) (fun _ _ => rfl), first (·.leftoverMode) (fun _ _ => rfl), ?_⟩
  intro g
  refine (param_last (fun p => p.checkWeightConstraints.getD g true) (groupCheckGiven g) ?_ hp h).trans
    rfl
  intro b op b' hpl hs
  by_cases ho : OnTypes op
  · rw [params_of_onTypes hpl ho hs]
    cases op <;> first | rfl | exact ho.elim
  · cases op with
    | setGroupWeightConstraints k c =>
      cases hs
      simp only [setGroupWeightConstraints, groupCheckGiven, List.getD_eq_getElem?_getD,
        List.getElem?_set, growTo]
      by_cases hk : g = k
      · subst hk
        have : g < (b.inst.parameters.checkWeightConstraints
          ++ List.replicate (g + 1 - b.inst.parameters.checkWeightConstraints.length) true).length := by
          simp; omega
        rw [if_pos rfl, if_pos this, if_pos rfl]; rfl
      · rw [if_neg (fun e => hk e.symm), if_neg hk]
        rw [List.getElem?_append]
        by_cases hl : g < b.inst.parameters.checkWeightConstraints.length
        · rw [if_pos hl]; rfl
        · rw [if_neg hl, List.getElem?_eq_none (by omega : _ ≤ g), List.getElem?_replicate]
          split_ifs <;> rfl
    | setParameters p => cases hs; rfl
    | _ => exact absurd trivial ho

/-! ## A concrete history -/

namespace DescribeEx

/-- Two bin types and an item type, whose values are changed several times. -/
def exOps : List Op :=
  [.setObjective .knapsack, .addBinType 4 5, .addBinType 7 8, .setBinTypeCost 0 3,
    .setBinTypeCost 1 2, .setBinTypeCost 0 (-1), .addBinTypeResource 1 10 true 2, .setBinTypeCopies 1 5,
    .setBinTypeCopiesMin 1 2, .addDefect 1 1 2 3 3, .addItemType 1 2 true, .setItemTypeGroup 0 2,
    .setGroupWeightConstraints 1 false, .setItemTypeProfit 0 11, .setItemTypeProfit 0 12,
    .setObjective .binPacking]

example : (∀ op ∈ exOps, Plain op) ∧ (exOps.foldlM step new).toOption.isSome = true
    ∧ lastGiven objectiveGiven exOps = some .binPacking
    ∧ allGiven binAdded exOps = [(4, 5), (7, 8)]
    ∧ lastGiven (binCostGiven 0 (4, 5)) exOps = some 20
    ∧ allGiven (binResourcesGiven 1) exOps = [(10, true, 2)]
    ∧ lastGiven (groupCheckGiven 1) exOps = some false
    ∧ lastGiven (itemProfitGiven 0) exOps = some 12 := by
  refine ⟨?_, by decide +kernel, by decide +kernel, by decide +kernel, by decide +kernel,
    by decide +kernel, by decide +kernel, by decide +kernel⟩
  simp [exOps, Plain]

/-- Rejected calls exist. -/
example : ¬ Acceptable new.inst (.addBinType 0 1) ∧ ¬ Acceptable new.inst (.setItemTypeCopies 0 3) := by
  constructor
  · rintro ⟨h, -⟩; exact absurd h (by decide)
  · rintro ⟨h, -⟩; exact absurd h (by decide)

end DescribeEx

end PackingSolver.Rect
