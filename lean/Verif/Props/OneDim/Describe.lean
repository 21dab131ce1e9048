import Verif.Lemmas.OneDim.Describe

/-!
# C94 for one-dimensional instances: the types under construction are those that were described
-/

namespace PackingSolver.OneDim

open OneDim.Spec InstanceBuilder
open PackingSolver.Spec (lastGiven allGiven consumptionOf)

variable {o : Objective} {ops : List Op} {b b' : InstanceBuilder}

/-- **C94** (bin types): after any accepted history of calls that add a type or concern a single type,
the bin types are those that were added, with the attributes given last for each. -/
theorem bins_as_given (hp : ∀ op ∈ ops, Plain op) (h : ops.foldlM step (new o) = .ok b) :
    b.inst.binTypes.length = (allGiven binAdded ops).length
    ∧ ∀ i d, (allGiven binAdded ops)[i]? = some d →
      ∃ t, b.inst.binTypes[i]? = some t ∧ BinAsGiven ops i d t := by
  have g := (asGiven hp h).bins
  refine ⟨g.length, fun i d hd => ⟨_, g.entry i d hd, ?_, ?_, ?_, ?_, ?_, ?_, ?_⟩⟩
  · refine ((entryOf_last (fun _ => ()) (fun _ => none) (fun t : BinType => t.length = d) i d rfl
      ?_ ?_ ops).1)
    · intro op f hf t ht
      cases op <;> simp [binUpd] at hf <;> (obtain ⟨rfl, rfl⟩ := hf; exact ⟨ht, rfl⟩)
    · intro _ _; rfl
  · rw [bin_last (·.cost) (binCostGiven i d) i d ?_ ?_ ops]
    · simp [describedBin]
    · intro op f hf t ht
      cases op <;> simp [binUpd] at hf <;> (obtain ⟨rfl, rfl⟩ := hf; cases ht; simp [binCostGiven])
    · intro op hf
      cases op <;> simp [binUpd, binCostGiven] at hf ⊢; exact hf
  · exact bin_last (·.maximumWeight) (binMaximumWeightGiven i) i d
      (by
        intro op f hf t ht
        cases op <;> simp [binUpd] at hf <;> (obtain ⟨rfl, rfl⟩ := hf; simp [binMaximumWeightGiven]))
      (by intro op hf; cases op <;> simp [binUpd, binMaximumWeightGiven] at hf ⊢; exact hf) ops
  · rw [entryOf_all (fun t : BinType => t.eligibilityIds) (binEligibilityIdsGiven i) i d ?_ ?_ ops]
    · rfl
    · intro op f hf t
      cases op <;> simp [binUpd] at hf <;> (obtain ⟨rfl, rfl⟩ := hf; simp [binEligibilityIdsGiven])
    · intro op hf
      cases op <;> simp [binUpd, binEligibilityIdsGiven] at hf ⊢; exact hf
  · rw [entryOf_all (fun t : BinType => t.resources.map fun r => (r.capacity, r.penalize, r.penalty))
      (binResourcesGiven i) i d ?_ ?_ ops]
    · rfl
    · intro op f hf t
      cases op <;> simp [binUpd] at hf <;> (obtain ⟨rfl, rfl⟩ := hf; simp [binResourcesGiven])
      rename_i r j c q
      apply List.ext_getElem?
      intro n
      rw [List.getElem?_map, List.getElem?_map, List.getElem?_modify]
      cases t.resources[n]? with
      | none => simp
      | some x => by_cases hn : r = n <;> simp [hn, Resource.addConsumption]
    · intro op hf
      cases op <;> simp [binUpd, binResourcesGiven] at hf ⊢; exact hf
  · exact bin_last (·.copies) (binCopiesGiven i) i d
      (by
        intro op f hf t ht
        cases op <;> simp [binUpd] at hf <;> (obtain ⟨rfl, rfl⟩ := hf; simp [binCopiesGiven]))
      (by intro op hf; cases op <;> simp [binUpd, binCopiesGiven] at hf ⊢; exact hf) ops
  · exact bin_last (·.copiesMin) (binCopiesMinGiven i) i d
      (by
        intro op f hf t ht
        cases op <;> simp [binUpd] at hf <;> (obtain ⟨rfl, rfl⟩ := hf; simp [binCopiesMinGiven]))
      (by intro op hf; cases op <;> simp [binUpd, binCopiesMinGiven] at hf ⊢; exact hf) ops

/-- **C94** (consumptions): every copy of every item type consumes of every resource what was given
for it. -/
theorem consumptions_as_given (hp : ∀ op ∈ ops, Plain op) (h : ops.foldlM step (new o) = .ok b)
    {i : Nat} {t : BinType} (ht : b.inst.binTypes[i]? = some t) (r j c : Nat) :
    (t.resources.getD r {}).itemConsumption j c
      = consumptionOf (allGiven (consumptionGiven i r j) ops) c := by
  refine itemConsumption_of_schedule ?_ c
  have := schedules_as_given hp h i r j
  unfold resList at this
  rwa [ht] at this

/-- **C94** (item types): after any accepted history of calls that add a type or concern a single type,
the item types are those that were added, with the attributes given last for each. -/
theorem items_as_given (hp : ∀ op ∈ ops, Plain op) (h : ops.foldlM step (new o) = .ok b) :
    b.inst.itemTypes.length = (allGiven itemAdded ops).length
    ∧ ∀ i d, (allGiven itemAdded ops)[i]? = some d →
      ∃ t, b.inst.itemTypes[i]? = some t ∧ ItemAsGiven ops i d t := by
  have g := (asGiven hp h).items
  refine ⟨by simpa using g.length, fun i d hd => ?_⟩
  have he := g.entry i d hd
  rw [List.getElem?_map, Option.map_eq_some_iff] at he
  obtain ⟨t, ht, hte⟩ := he
  suffices hs : ItemAsGiven ops i d (erasePrec t) from
    ⟨t, ht, hs.size, hs.weight, hs.nestingLength, hs.maximumStackability, hs.maximumWeightAfter, hs.eligibilityId, hs.profit, hs.copies, hs.copiesMin⟩
  rw [hte]
  refine ⟨?_, ?_, ?_, ?_, ?_, ?_, ?_, ?_, ?_⟩
  · refine ((entryOf_last (fun _ => ()) (fun _ => none) (fun t : ItemType => t.length = d) i d rfl
      ?_ ?_ ops).1)
    · intro op f hf t ht
      cases op <;> simp [itemUpd] at hf <;> (obtain ⟨rfl, rfl⟩ := hf; exact ⟨ht, rfl⟩)
    · intro _ _; rfl
  · rw [item_last (·.weight) (itemWeightGiven i) i d ?_ ?_ ops]
    · simp [describedItem]
    · intro op f hf t
      cases op <;> simp [itemUpd] at hf <;> (obtain ⟨rfl, rfl⟩ := hf; simp [itemWeightGiven])
    · intro op hf
      cases op <;> simp [itemUpd, itemWeightGiven] at hf ⊢; exact hf
  · rw [item_last (·.nestingLength) (itemNestingLengthGiven i) i d ?_ ?_ ops]
    · simp [describedItem]
    · intro op f hf t
      cases op <;> simp [itemUpd] at hf <;> (obtain ⟨rfl, rfl⟩ := hf; simp [itemNestingLengthGiven])
    · intro op hf
      cases op <;> simp [itemUpd, itemNestingLengthGiven] at hf ⊢; exact hf
  · rw [item_last (·.maximumStackability) (itemMaximumStackabilityGiven i) i d ?_ ?_ ops]
    · simp [describedItem]
    · intro op f hf t
      cases op <;> simp [itemUpd] at hf <;> (obtain ⟨rfl, rfl⟩ := hf; simp [itemMaximumStackabilityGiven])
    · intro op hf
      cases op <;> simp [itemUpd, itemMaximumStackabilityGiven] at hf ⊢; exact hf
  · rw [item_last (·.maximumWeightAfter) (itemMaximumWeightAfterGiven i) i d ?_ ?_ ops]
    · simp [describedItem]
    · intro op f hf t
      cases op <;> simp [itemUpd] at hf <;> (obtain ⟨rfl, rfl⟩ := hf; simp [itemMaximumWeightAfterGiven])
    · intro op hf
      cases op <;> simp [itemUpd, itemMaximumWeightAfterGiven] at hf ⊢; exact hf
  · rw [item_last (·.eligibilityId) (itemEligibilityIdGiven i) i d ?_ ?_ ops]
    · simp [describedItem]
    · intro op f hf t
      cases op <;> simp [itemUpd] at hf <;> (obtain ⟨rfl, rfl⟩ := hf; simp [itemEligibilityIdGiven])
    · intro op hf
      cases op <;> simp [itemUpd, itemEligibilityIdGiven] at hf ⊢; exact hf
  · rw [item_last (·.profit) (itemProfitGiven i) i d ?_ ?_ ops]
    · simp [describedItem]
    · intro op f hf t
      cases op <;> simp [itemUpd] at hf <;> (obtain ⟨rfl, rfl⟩ := hf; simp [itemProfitGiven])
    · intro op hf
      cases op <;> simp [itemUpd, itemProfitGiven] at hf ⊢; exact hf
  · rw [item_last (·.copies) (itemCopiesGiven i) i d ?_ ?_ ops]
    · simp [describedItem]
    · intro op f hf t
      cases op <;> simp [itemUpd] at hf <;> (obtain ⟨rfl, rfl⟩ := hf; simp [itemCopiesGiven])
    · intro op hf
      cases op <;> simp [itemUpd, itemCopiesGiven] at hf ⊢; exact hf
  · rw [item_last (·.copiesMin) (itemCopiesMinGiven i) i d ?_ ?_ ops]
    · simp [describedItem]
    · intro op f hf t
      cases op <;> simp [itemUpd] at hf <;> (obtain ⟨rfl, rfl⟩ := hf; simp [itemCopiesMinGiven])
    · intro op hf
      cases op <;> simp [itemUpd, itemCopiesMinGiven] at hf ⊢; exact hf

/-- **C94** (precedences): the precedences are those given, in order. -/
theorem precedences_as_given (hp : ∀ op ∈ ops, Plain op) (h : ops.foldlM step (new o) = .ok b) :
    b.inst.precedences = allGiven precedenceGiven ops :=
  (asGiven hp h).precedences

/-- **C94** (objective and callback). -/
theorem objective_as_given (hp : ∀ op ∈ ops, Plain op) (h : ops.foldlM step (new o) = .ok b) :
    b.inst.objective = (lastGiven objectiveGiven ops).getD o
    ∧ b.inst.callback = (lastGiven callbackGiven ops).getD (fun _ => true) :=
  ⟨(asGiven hp h).objective, (asGiven hp h).callback⟩

/-- **C94** (rejections): such a call is accepted exactly if its arguments are acceptable; otherwise it is
rejected as an invalid argument. -/
theorem call_accepted_iff (b : InstanceBuilder) {op : Op} (hp : Plain op) :
    ((∃ b', step b op = .ok b') ↔ Acceptable b.inst op)
    ∧ (¬ Acceptable b.inst op → step b op = .error .invalidArgument) := by
  have key : ∀ {x : Except Err InstanceBuilder} {P : Prop}, (P → ∃ b', x = .ok b') →
      (¬ P → x = .error .invalidArgument) →
      ((∃ b', x = .ok b') ↔ P) ∧ (¬ P → x = .error .invalidArgument) := by
    intro x P h1 h2
    refine ⟨⟨fun ⟨b', e⟩ => ?_, h1⟩, h2⟩
    by_contra hc
    rw [h2 hc] at e
    cases e
  have hb : ∀ (id : Nat) (f : BinType → Except Err BinType) (Q : BinType → Prop),
      (∀ t, Q t → ∃ t', f t = .ok t') → (∀ t, ¬ Q t → f t = .error .invalidArgument) →
      ((∃ b', b.modifyBin id f = .ok b') ↔ (id < b.inst.binTypes.length ∧ Q (b.inst.binType id)))
      ∧ (¬ (id < b.inst.binTypes.length ∧ Q (b.inst.binType id)) →
        b.modifyBin id f = .error .invalidArgument) := by
    intro id f Q h1 h2
    apply key
    · rintro ⟨hl, hq⟩
      obtain ⟨t', ht⟩ := h1 _ hq
      unfold modifyBin
      rw [if_neg (by omega), ht]
      exact ⟨_, rfl⟩
    · intro hn
      unfold modifyBin
      by_cases hl : id < b.inst.binTypes.length
      · rw [if_neg (by omega), h2 _ (fun hq => hn ⟨hl, hq⟩)]
      · rw [if_pos (by omega)]
  have hi : ∀ (id : Nat) (f : ItemType → Except Err ItemType) (Q : ItemType → Prop),
      (∀ t, Q t → ∃ t', f t = .ok t') → (∀ t, ¬ Q t → f t = .error .invalidArgument) →
      ((∃ b', b.modifyItem id f = .ok b') ↔ (id < b.inst.itemTypes.length ∧ Q (b.inst.itemType id)))
      ∧ (¬ (id < b.inst.itemTypes.length ∧ Q (b.inst.itemType id)) →
        b.modifyItem id f = .error .invalidArgument) := by
    intro id f Q h1 h2
    apply key
    · rintro ⟨hl, hq⟩
      obtain ⟨t', ht⟩ := h1 _ hq
      unfold modifyItem
      rw [if_neg (by omega), ht]
      exact ⟨_, rfl⟩
    · intro hn
      unfold modifyItem
      by_cases hl : id < b.inst.itemTypes.length
      · rw [if_neg (by omega), h2 _ (fun hq => hn ⟨hl, hq⟩)]
      · rw [if_pos (by omega)]
  have triv : ∀ {P : Prop} {x : Except Err InstanceBuilder},
      (((∃ b', x = .ok b') ↔ (P ∧ True)) ∧ (¬ (P ∧ True) → x = .error .invalidArgument)) →
      ((∃ b', x = .ok b') ↔ P) ∧ (¬ P → x = .error .invalidArgument) := by
    intro P x h; simpa using h
  cases op with
  | setObjective o' => exact ⟨⟨fun _ => trivial, fun _ => ⟨_, rfl⟩⟩, fun h => absurd trivial h⟩
  | setCallback f => exact ⟨⟨fun _ => trivial, fun _ => ⟨_, rfl⟩⟩, fun h => absurd trivial h⟩
  | addBinType l =>
    apply key
    · intro hacc
      change 0 < l at hacc
      change ∃ b', b.addBinType l = .ok b'
      unfold addBinType
      rw [if_neg (by omega)]
      exact ⟨_, rfl⟩
    · intro hn
      change b.addBinType l = _
      unfold addBinType
      change ¬ (0 < l) at hn
      split_ifs <;> first | rfl | omega
  | addItemType l => exact ⟨⟨fun _ => trivial, fun _ => ⟨_, rfl⟩⟩, fun h => absurd trivial h⟩
  | addItemTypePrecedence u v =>
    apply key
    · intro hacc
      change u < b.inst.itemTypes.length ∧ v < b.inst.itemTypes.length at hacc
      change ∃ b', b.addItemTypePrecedence u v = .ok b'
      unfold addItemTypePrecedence
      rw [if_neg (by omega), if_neg (by omega)]
      exact ⟨_, rfl⟩
    · intro hn
      change b.addItemTypePrecedence u v = _
      unfold addItemTypePrecedence
      change ¬ (u < b.inst.itemTypes.length ∧ v < b.inst.itemTypes.length) at hn
      split_ifs <;> first | rfl | omega
  | setBinTypeCost k c =>
    change ((∃ b', b.setBinTypeCost k c = .ok b') ↔ _) ∧ (_ → b.setBinTypeCost k c = _)
    unfold setBinTypeCost
    refine hb k _ (fun _ => 0 < c ∨ c = -1) ?_ ?_
    · intro t hq
      rw [if_neg (by
        rintro ⟨h1, h2⟩
        rcases hq with hq | hq
        · exact absurd h1 (not_le.mpr hq)
        · exact h2 hq)]
      exact ⟨_, rfl⟩
    · intro t hq
      rw [not_or, not_lt] at hq
      rw [if_pos hq]
  | setBinTypeMaximumWeight k w =>
    change ((∃ b', b.setBinTypeMaximumWeight k w = .ok b') ↔ _) ∧ (_ → b.setBinTypeMaximumWeight k w = _)
    unfold setBinTypeMaximumWeight
    exact triv (hb k _ (fun _ => True) (fun _ _ => ⟨_, rfl⟩) (fun _ h => absurd trivial h))
  | addBinTypeEligibility k e =>
    change ((∃ b', b.addBinTypeEligibility k e = .ok b') ↔ _) ∧ (_ → b.addBinTypeEligibility k e = _)
    unfold addBinTypeEligibility
    exact triv (hb k _ (fun _ => True) (fun _ _ => ⟨_, rfl⟩) (fun _ h => absurd trivial h))
  | addBinTypeResource k c p q =>
    change ((∃ b', b.addBinTypeResource k c p q = .ok b') ↔ _) ∧ (_ → b.addBinTypeResource k c p q = _)
    unfold addBinTypeResource
    exact triv (hb k _ (fun _ => True) (fun _ _ => ⟨_, rfl⟩) (fun _ h => absurd trivial h))
  | addResourceConsumption k r j c q =>
    change ((∃ b', b.addResourceConsumption k r j c q = .ok b') ↔ _) ∧ (_ → b.addResourceConsumption k r j c q = _)
    unfold addResourceConsumption
    refine hb k _ (fun t => r < t.resources.length ∧ 0 ≤ c) ?_ ?_
    · intro t hq
      rw [if_neg (by omega), if_neg (by omega)]
      exact ⟨_, rfl⟩
    · intro t hq
      split_ifs <;> first | rfl | omega
  | setBinTypeCopies k c =>
    change ((∃ b', b.setBinTypeCopies k c = .ok b') ↔ _) ∧ (_ → b.setBinTypeCopies k c = _)
    unfold setBinTypeCopies
    refine hb k _ (fun t => c = -1 ∨ (0 < c ∧ t.copiesMin ≤ c)) ?_ ?_
    · intro t hq
      rw [if_neg (by omega)]
      exact ⟨_, rfl⟩
    · intro t hq
      split_ifs <;> first | rfl | omega
  | setBinTypeCopiesMin k c =>
    change ((∃ b', b.setBinTypeCopiesMin k c = .ok b') ↔ _) ∧ (_ → b.setBinTypeCopiesMin k c = _)
    unfold setBinTypeCopiesMin
    refine hb k _ (fun t => 0 ≤ c ∧ (t.copies = -1 ∨ c ≤ t.copies)) ?_ ?_
    · intro t hq
      rw [if_neg (by omega)]
      exact ⟨_, rfl⟩
    · intro t hq
      split_ifs <;> first | rfl | omega
  | setItemTypeWeight k w =>
    change ((∃ b', b.setItemTypeWeight k w = .ok b') ↔ _) ∧ (_ → b.setItemTypeWeight k w = _)
    unfold setItemTypeWeight
    exact triv (hi k _ (fun _ => True) (fun _ _ => ⟨_, rfl⟩) (fun _ h => absurd trivial h))
  | setItemTypeNestingLength k l =>
    change ((∃ b', b.setItemTypeNestingLength k l = .ok b') ↔ _) ∧ (_ → b.setItemTypeNestingLength k l = _)
    unfold setItemTypeNestingLength
    exact triv (hi k _ (fun _ => True) (fun _ _ => ⟨_, rfl⟩) (fun _ h => absurd trivial h))
  | setItemTypeMaximumStackability k m =>
    change ((∃ b', b.setItemTypeMaximumStackability k m = .ok b') ↔ _) ∧ (_ → b.setItemTypeMaximumStackability k m = _)
    unfold setItemTypeMaximumStackability
    exact triv (hi k _ (fun _ => True) (fun _ _ => ⟨_, rfl⟩) (fun _ h => absurd trivial h))
  | setItemTypeMaximumWeightAfter k w =>
    change ((∃ b', b.setItemTypeMaximumWeightAfter k w = .ok b') ↔ _) ∧ (_ → b.setItemTypeMaximumWeightAfter k w = _)
    unfold setItemTypeMaximumWeightAfter
    exact triv (hi k _ (fun _ => True) (fun _ _ => ⟨_, rfl⟩) (fun _ h => absurd trivial h))
  | setItemTypeEligibility k e =>
    change ((∃ b', b.setItemTypeEligibility k e = .ok b') ↔ _) ∧ (_ → b.setItemTypeEligibility k e = _)
    unfold setItemTypeEligibility
    exact triv (hi k _ (fun _ => True) (fun _ _ => ⟨_, rfl⟩) (fun _ h => absurd trivial h))
  | setItemTypeProfit k p =>
    change ((∃ b', b.setItemTypeProfit k p = .ok b') ↔ _) ∧ (_ → b.setItemTypeProfit k p = _)
    unfold setItemTypeProfit
    exact triv (hi k _ (fun _ => True) (fun _ _ => ⟨_, rfl⟩) (fun _ h => absurd trivial h))
  | setItemTypeCopies k c =>
    change ((∃ b', b.setItemTypeCopies k c = .ok b') ↔ _) ∧ (_ → b.setItemTypeCopies k c = _)
    unfold setItemTypeCopies
    refine hi k _ (fun _ => c = -1 ∨ 0 < c) ?_ ?_
    · intro t hq
      rw [if_neg (by omega)]
      exact ⟨_, rfl⟩
    · intro t hq
      split_ifs <;> first | rfl | omega
  | setItemTypeCopiesMin k c =>
    change ((∃ b', b.setItemTypeCopiesMin k c = .ok b') ↔ _) ∧ (_ → b.setItemTypeCopiesMin k c = _)
    unfold setItemTypeCopiesMin
    refine hi k _ (fun _ => -1 ≤ c) ?_ ?_
    · intro t hq
      rw [if_neg (by omega)]
      exact ⟨_, rfl⟩
    · intro t hq
      split_ifs <;> first | rfl | omega
  | setBinTypesInfiniteCopies => exact hp.elim
  | setBinTypesUnweighted => exact hp.elim
  | setItemTypesUnweighted => exact hp.elim
  | setItemTypesInfiniteCopies => exact hp.elim
  | addBinTypeFrom _ _ => exact hp.elim
  | addItemTypeFrom _ _ => exact hp.elim

/-! ## A concrete history -/

namespace DescribeEx

/-- Two bin types and two item types, whose values are changed several times. -/
def exOps : List Op :=
  [.setObjective .knapsack, .addBinType 4, .addBinType 7, .setBinTypeCost 0 3,
    .setBinTypeCost 0 (-1), .addBinTypeResource 1 10 true 2, .setBinTypeCopies 1 5,
    .setBinTypeCopiesMin 1 2, .addBinTypeEligibility 0 3, .addBinTypeEligibility 0 4, .addItemType 3,
    .addItemType 2, .addItemTypePrecedence 1 0, .setItemTypeNestingLength 0 1, .setItemTypeProfit 0 11,
    .setItemTypeProfit 0 12]

example : (∀ op ∈ exOps, Plain op) ∧ (exOps.foldlM step (new .default)).toOption.isSome = true
    ∧ allGiven binAdded exOps = [4, 7]
    ∧ lastGiven (binCostGiven 0 4) exOps = some 4
    ∧ allGiven (binEligibilityIdsGiven 0) exOps = [3, 4]
    ∧ allGiven precedenceGiven exOps = [(1, 0)]
    ∧ lastGiven (itemProfitGiven 0) exOps = some 12 := by
  refine ⟨?_, by decide +kernel, by decide +kernel, by decide +kernel, by decide +kernel,
    by decide +kernel, by decide +kernel⟩
  simp [exOps, Plain]

/-- Rejected calls exist. -/
example : ¬ Acceptable (new .knapsack).inst (.addBinType 0)
    ∧ ¬ Acceptable (new .knapsack).inst (.setItemTypeCopies 0 3) := by
  constructor
  · intro h; exact absurd (show (0 : Int) < 0 from h) (lt_irrefl 0)
  · rintro ⟨h, -⟩; exact absurd h (by decide)

end DescribeEx

end PackingSolver.OneDim
