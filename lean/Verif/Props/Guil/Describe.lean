import Verif.Lemmas.Guil.Describe

/-!
# C94 for guillotine instances: the types under construction are those that were described
-/

namespace PackingSolver.Guil

open Guil.Spec InstanceBuilder
open PackingSolver.Spec (lastGiven allGiven consumptionOf)

variable {o : Objective} {ops : List BuilderOp} {b b' : InstanceBuilder}

/-- **C94** (bin types): after any accepted history of calls that add a type or concern a single type,
the bin types are those that were added, with the attributes given last for each. -/
theorem bins_as_given (hp : ∀ op ∈ ops, Plain op) (h : ops.foldlM step (new o) = .ok b) :
    b.inst.binTypes.length = (allGiven binAdded ops).length
    ∧ ∀ i d, (allGiven binAdded ops)[i]? = some d →
      ∃ t, b.inst.binTypes[i]? = some t ∧ BinAsGiven ops i d t := by
  have g := (asGiven hp h).bins
  refine ⟨g.length, fun i d hd => ⟨_, g.entry i d hd, ?_, ?_, ?_, ?_, ?_, ?_, ?_⟩⟩
  · refine ((entryOf_last (fun _ => ()) (fun _ => none) (fun t : BinType => (t.w, t.h) = d) i d rfl
      ?_ ?_ ops).1)
    · intro op f hf t ht
      cases op <;> simp [binUpd] at hf <;> (obtain ⟨rfl, rfl⟩ := hf; exact ⟨ht, rfl⟩)
    · intro _ _; rfl
  · rw [bin_last (·.cost) (binCostGiven i d) i d ?_ ?_ ops]
    · simp [describedBin]
    · intro op f hf t ht
      cases op <;> simp [binUpd] at hf <;> (obtain ⟨rfl, rfl⟩ := hf; cases ht; simp [binCostGiven])
    · intro op hf
      cases op <;> simp [binUpd, binCostGiven] at hf ⊢; exact hf
  · exact bin_last trimsOf (binTrimsGiven i) i d
      (by
        intro op f hf t ht
        cases op <;> simp [binUpd] at hf <;> (obtain ⟨rfl, rfl⟩ := hf; simp [binTrimsGiven, trimsOf]))
      (by intro op hf; cases op <;> simp [binUpd, binTrimsGiven] at hf ⊢; exact hf) ops
  · rw [entryOf_all (fun t : BinType => t.defects) (binDefectsGiven i) i d ?_ ?_ ops]
    · rfl
    · intro op f hf t
      cases op <;> simp [binUpd] at hf <;> (obtain ⟨rfl, rfl⟩ := hf; simp [binDefectsGiven])
    · intro op hf
      cases op <;> simp [binUpd, binDefectsGiven] at hf ⊢; exact hf
  · rw [entryOf_all (fun t : BinType => t.resources.map fun r => (r.capacity, r.penalize, r.penalty))
      (binResourcesGiven i) i d ?_ ?_ ops]
    · rfl
    · intro op f hf t
      cases op <;> simp [binUpd] at hf <;> (obtain ⟨rfl, rfl⟩ := hf; simp [binResourcesGiven])
      rename_i r j c q
      apply List.ext_getElem?
      intro n
      rw [List.getElem?_map, List.getElem?_map, List.getElem?_modify]
      cases t.resources[n]? with
      | none => simp
      | some x => by_cases hn : r = n <;> simp [hn, Resource.addConsumption]
    · intro op hf
      cases op <;> simp [binUpd, binResourcesGiven] at hf ⊢; exact hf
  · exact bin_last (·.copies) (binCopiesGiven i) i d
      (by
        intro op f hf t ht
        cases op <;> simp [binUpd] at hf <;> (obtain ⟨rfl, rfl⟩ := hf; simp [binCopiesGiven]))
      (by intro op hf; cases op <;> simp [binUpd, binCopiesGiven] at hf ⊢; exact hf) ops
  · exact bin_last (·.copiesMin) (binCopiesMinGiven i) i d
      (by
        intro op f hf t ht
        cases op <;> simp [binUpd] at hf <;> (obtain ⟨rfl, rfl⟩ := hf; simp [binCopiesMinGiven]))
      (by intro op hf; cases op <;> simp [binUpd, binCopiesMinGiven] at hf ⊢; exact hf) ops

/-- **C94** (consumptions): every copy of every item type consumes of every resource what was given
for it. -/
theorem consumptions_as_given (hp : ∀ op ∈ ops, Plain op) (h : ops.foldlM step (new o) = .ok b)
    {i : Nat} {t : BinType} (ht : b.inst.binTypes[i]? = some t) (r j c : Nat) :
    (t.resources.getD r {}).itemConsumption j c
      = consumptionOf (allGiven (consumptionGiven i r j) ops) c := by
  refine itemConsumption_of_schedule ?_ c
  have := schedules_as_given hp h i r j
  unfold resList at this
  rwa [ht] at this

/-- **C94** (item types): after any accepted history of calls that add a type or concern a single type,
the item types are those that were added, with the attributes given last for each. -/
theorem items_as_given (hp : ∀ op ∈ ops, Plain op) (h : ops.foldlM step (new o) = .ok b) :
    b.inst.itemTypes.length = (allGiven itemAdded ops).length
    ∧ ∀ i d, (allGiven itemAdded ops)[i]? = some d →
      ∃ t, b.inst.itemTypes[i]? = some t ∧ ItemAsGiven ops i d t := by
  have g := (asGiven hp h).items
  refine ⟨g.length, fun i d hd => ⟨_, g.entry i d hd, ?_, ?_, ?_, ?_⟩⟩
  · refine ((entryOf_last (fun _ => ()) (fun _ => none) (fun t : ItemType => (t.w, t.h, t.oriented, t.stackId) = d) i d rfl
      ?_ ?_ ops).1)
    · intro op f hf t ht
      cases op <;> simp [itemUpd] at hf <;> (obtain ⟨rfl, rfl⟩ := hf; exact ⟨ht, rfl⟩)
    · intro _ _; rfl
  · rw [item_last (·.profit) (itemProfitGiven i) i d ?_ ?_ ops]
    · simp [describedItem]
    · intro op f hf t
      cases op <;> simp [itemUpd] at hf <;> (obtain ⟨rfl, rfl⟩ := hf; simp [itemProfitGiven])
    · intro op hf
      cases op <;> simp [itemUpd, itemProfitGiven] at hf ⊢; exact hf
  · rw [item_last (·.copies) (itemCopiesGiven i) i d ?_ ?_ ops]
    · simp [describedItem]
    · intro op f hf t
      cases op <;> simp [itemUpd] at hf <;> (obtain ⟨rfl, rfl⟩ := hf; simp [itemCopiesGiven])
    · intro op hf
      cases op <;> simp [itemUpd, itemCopiesGiven] at hf ⊢; exact hf
  · rw [item_last (·.copiesMin) (itemCopiesMinGiven i) i d ?_ ?_ ops]
    · simp [describedItem]
    · intro op f hf t
      cases op <;> simp [itemUpd] at hf <;> (obtain ⟨rfl, rfl⟩ := hf; simp [itemCopiesMinGiven])
    · intro op hf
      cases op <;> simp [itemUpd, itemCopiesMinGiven] at hf ⊢; exact hf

/-- **C94** (objective and callback). -/
theorem objective_as_given (hp : ∀ op ∈ ops, Plain op) (h : ops.foldlM step (new o) = .ok b) :
    b.inst.objective = (lastGiven objectiveGiven ops).getD o
    ∧ b.inst.callback = (lastGiven callbackGiven ops).getD (fun _ => true) :=
  ⟨(asGiven hp h).objective, (asGiven hp h).callback⟩

/-- **C94** (rejections): such a call is accepted exactly if its arguments are acceptable; otherwise it is
rejected as an invalid argument. -/
theorem call_accepted_iff (b : InstanceBuilder) {op : BuilderOp} (hp : Plain op) :
    ((∃ b', step b op = .ok b') ↔ Acceptable b.inst op)
    ∧ (¬ Acceptable b.inst op → step b op = .error .invalidArgument) := by
  have key : ∀ {x : Except Err InstanceBuilder} {P : Prop}, (P → ∃ b', x = .ok b') →
      (¬ P → x = .error .invalidArgument) →
      ((∃ b', x = .ok b') ↔ P) ∧ (¬ P → x = .error .invalidArgument) := by
    intro x P h1 h2
    refine ⟨⟨fun ⟨b', e⟩ => ?_, h1⟩, h2⟩
    by_contra hc
    rw [h2 hc] at e
    cases e
  have hb : ∀ (id : Nat) (f : BinType → Except Err BinType) (Q : BinType → Prop),
      (∀ t, Q t → ∃ t', f t = .ok t') → (∀ t, ¬ Q t → f t = .error .invalidArgument) →
      ((∃ b', b.modifyBin id f = .ok b') ↔ (id < b.inst.binTypes.length ∧ Q (b.inst.binType id)))
      ∧ (¬ (id < b.inst.binTypes.length ∧ Q (b.inst.binType id)) →
        b.modifyBin id f = .error .invalidArgument) := by
    intro id f Q h1 h2
    apply key
    · rintro ⟨hl, hq⟩
      obtain ⟨t', ht⟩ := h1 _ hq
      unfold modifyBin
      rw [if_neg (by omega), ht]
      exact ⟨_, rfl⟩
    · intro hn
      unfold modifyBin
      by_cases hl : id < b.inst.binTypes.length
      · rw [if_neg (by omega), h2 _ (fun hq => hn ⟨hl, hq⟩)]
      · rw [if_pos (by omega)]
  have hi : ∀ (id : Nat) (f : ItemType → Except Err ItemType) (Q : ItemType → Prop),
      (∀ t, Q t → ∃ t', f t = .ok t') → (∀ t, ¬ Q t → f t = .error .invalidArgument) →
      ((∃ b', b.modifyItem id f = .ok b') ↔ (id < b.inst.itemTypes.length ∧ Q (b.inst.itemType id)))
      ∧ (¬ (id < b.inst.itemTypes.length ∧ Q (b.inst.itemType id)) →
        b.modifyItem id f = .error .invalidArgument) := by
    intro id f Q h1 h2
    apply key
    · rintro ⟨hl, hq⟩
      obtain ⟨t', ht⟩ := h1 _ hq
      unfold modifyItem
      rw [if_neg (by omega), ht]
      exact ⟨_, rfl⟩
    · intro hn
      unfold modifyItem
      by_cases hl : id < b.inst.itemTypes.length
      · rw [if_neg (by omega), h2 _ (fun hq => hn ⟨hl, hq⟩)]
      · rw [if_pos (by omega)]
  have triv : ∀ {P : Prop} {x : Except Err InstanceBuilder},
      (((∃ b', x = .ok b') ↔ (P ∧ True)) ∧ (¬ (P ∧ True) → x = .error .invalidArgument)) →
      ((∃ b', x = .ok b') ↔ P) ∧ (¬ P → x = .error .invalidArgument) := by
    intro P x h; simpa using h
  cases op with
  | setObjective o' => exact ⟨⟨fun _ => trivial, fun _ => ⟨_, rfl⟩⟩, fun h => absurd trivial h⟩
  | setCallback f => exact ⟨⟨fun _ => trivial, fun _ => ⟨_, rfl⟩⟩, fun h => absurd trivial h⟩
  | setParameters p => exact ⟨⟨fun _ => trivial, fun _ => ⟨_, rfl⟩⟩, fun h => absurd trivial h⟩
  | setFirstStageOrientation p => exact ⟨⟨fun _ => trivial, fun _ => ⟨_, rfl⟩⟩, fun h => absurd trivial h⟩
  | setMinimumDistance1Cuts n => exact ⟨⟨fun _ => trivial, fun _ => ⟨_, rfl⟩⟩, fun h => absurd trivial h⟩
  | setMaximumDistance1Cuts n => exact ⟨⟨fun _ => trivial, fun _ => ⟨_, rfl⟩⟩, fun h => absurd trivial h⟩
  | setMinimumDistance2Cuts n => exact ⟨⟨fun _ => trivial, fun _ => ⟨_, rfl⟩⟩, fun h => absurd trivial h⟩
  | setMaximumDistance2Cuts n => exact ⟨⟨fun _ => trivial, fun _ => ⟨_, rfl⟩⟩, fun h => absurd trivial h⟩
  | setMinimumWasteLength n => exact ⟨⟨fun _ => trivial, fun _ => ⟨_, rfl⟩⟩, fun h => absurd trivial h⟩
  | setMaximumNumber1Cuts n => exact ⟨⟨fun _ => trivial, fun _ => ⟨_, rfl⟩⟩, fun h => absurd trivial h⟩
  | setMaximumNumber2Cuts n => exact ⟨⟨fun _ => trivial, fun _ => ⟨_, rfl⟩⟩, fun h => absurd trivial h⟩
  | setCutThickness n => exact ⟨⟨fun _ => trivial, fun _ => ⟨_, rfl⟩⟩, fun h => absurd trivial h⟩
  | setWasteCost n => exact ⟨⟨fun _ => trivial, fun _ => ⟨_, rfl⟩⟩, fun h => absurd trivial h⟩
  | setCutThroughDefects c => exact ⟨⟨fun _ => trivial, fun _ => ⟨_, rfl⟩⟩, fun h => absurd trivial h⟩
  | setNumberOfStages n => exact ⟨⟨fun _ => trivial, fun _ => ⟨_, rfl⟩⟩, fun h => absurd trivial h⟩
  | setCutType c => exact ⟨⟨fun _ => trivial, fun _ => ⟨_, rfl⟩⟩, fun h => absurd trivial h⟩
  | setRoadef2018 => exact ⟨⟨fun _ => trivial, fun _ => ⟨_, rfl⟩⟩, fun h => absurd trivial h⟩
  | addBinType u v =>
    apply key
    · intro hacc
      change 0 < u ∧ 0 < v at hacc
      change ∃ b', b.addBinType u v = .ok b'
      unfold addBinType
      rw [if_neg (by omega), if_neg (by omega)]
      exact ⟨_, rfl⟩
    · intro hn
      change b.addBinType u v = _
      unfold addBinType
      change ¬ (0 < u ∧ 0 < v) at hn
      split_ifs <;> first | rfl | omega
  | addItemType u v o s =>
    apply key
    · intro hacc
      change 0 ≤ u ∧ 0 ≤ v at hacc
      change ∃ b', b.addItemType u v o s = .ok b'
      unfold addItemType
      rw [if_neg (by omega), if_neg (by omega)]
      exact ⟨_, rfl⟩
    · intro hn
      change b.addItemType u v o s = _
      unfold addItemType
      change ¬ (0 ≤ u ∧ 0 ≤ v) at hn
      split_ifs <;> first | rfl | omega
  | setFixedCuttingCost s q =>
    apply key
    · intro hacc
      change 0 ≤ s ∧ s < b.inst.parameters.cuttingCosts.length at hacc
      change ∃ b', b.setFixedCuttingCost s q = .ok b'
      unfold setFixedCuttingCost
      rw [if_neg (by omega)]
      exact ⟨_, rfl⟩
    · intro hn
      change b.setFixedCuttingCost s q = _
      unfold setFixedCuttingCost
      change ¬ (0 ≤ s ∧ s < b.inst.parameters.cuttingCosts.length) at hn
      rw [if_pos (by omega)]
  | setVariableCuttingCost s q =>
    apply key
    · intro hacc
      change 0 ≤ s ∧ s < b.inst.parameters.cuttingCosts.length at hacc
      change ∃ b', b.setVariableCuttingCost s q = .ok b'
      unfold setVariableCuttingCost
      rw [if_neg (by omega)]
      exact ⟨_, rfl⟩
    · intro hn
      change b.setVariableCuttingCost s q = _
      unfold setVariableCuttingCost
      change ¬ (0 ≤ s ∧ s < b.inst.parameters.cuttingCosts.length) at hn
      rw [if_pos (by omega)]
  | setBinTypeCost k c =>
    change ((∃ b', b.setBinTypeCost k c = .ok b') ↔ _) ∧ (_ → b.setBinTypeCost k c = _)
    unfold setBinTypeCost
    refine hb k _ (fun _ => 0 < c ∨ c = -1) ?_ ?_
    · intro t hq
      rw [if_neg (by
        rintro ⟨h1, h2⟩
        rcases hq with hq | hq
        · exact absurd h1 (not_le.mpr hq)
        · exact h2 hq)]
      exact ⟨_, rfl⟩
    · intro t hq
      rw [not_or, not_lt] at hq
      rw [if_pos hq]
  | addTrims k r =>
    change ((∃ b', b.addTrims k r = .ok b') ↔ _) ∧ (_ → b.addTrims k r = _)
    unfold addTrims
    refine hb k _ (fun t => 0 ≤ r.bottom ∧ 0 ≤ r.top ∧ r.bottom + r.top < t.h ∧ 0 ≤ r.left ∧ 0 ≤ r.right
      ∧ r.left + r.right < t.w) ?_ ?_
    · intro t hq
      rw [if_neg (by omega), if_neg (by omega), if_neg (by omega), if_neg (by omega), if_neg (by omega), if_neg (by omega), if_neg (by omega), if_neg (by omega)]
      exact ⟨_, rfl⟩
    · intro t hq
      split_ifs <;> first | rfl | omega
  | addDefect k x y u v =>
    change ((∃ b', b.addDefect k x y u v = .ok b') ↔ _) ∧ (_ → b.addDefect k x y u v = _)
    unfold addDefect
    exact triv (hb k _ (fun _ => True) (fun _ _ => ⟨_, rfl⟩) (fun _ h => absurd trivial h))
  | addBinTypeResource k c p q =>
    change ((∃ b', b.addBinTypeResource k c p q = .ok b') ↔ _) ∧ (_ → b.addBinTypeResource k c p q = _)
    unfold addBinTypeResource
    exact triv (hb k _ (fun _ => True) (fun _ _ => ⟨_, rfl⟩) (fun _ h => absurd trivial h))
  | addResourceConsumption k r j c q =>
    change ((∃ b', b.addResourceConsumption k r j c q = .ok b') ↔ _) ∧ (_ → b.addResourceConsumption k r j c q = _)
    unfold addResourceConsumption
    refine hb k _ (fun t => r < t.resources.length ∧ 0 ≤ c) ?_ ?_
    · intro t hq
      rw [if_neg (by omega), if_neg (by omega)]
      exact ⟨_, rfl⟩
    · intro t hq
      split_ifs <;> first | rfl | omega
  | setBinTypeCopies k c =>
    change ((∃ b', b.setBinTypeCopies k c = .ok b') ↔ _) ∧ (_ → b.setBinTypeCopies k c = _)
    unfold setBinTypeCopies
    refine hb k _ (fun t => c = -1 ∨ (0 < c ∧ t.copiesMin ≤ c)) ?_ ?_
    · intro t hq
      rw [if_neg (by omega)]
      exact ⟨_, rfl⟩
    · intro t hq
      split_ifs <;> first | rfl | omega
  | setBinTypeCopiesMin k c =>
    change ((∃ b', b.setBinTypeCopiesMin k c = .ok b') ↔ _) ∧ (_ → b.setBinTypeCopiesMin k c = _)
    unfold setBinTypeCopiesMin
    refine hb k _ (fun t => 0 ≤ c ∧ (t.copies = -1 ∨ c ≤ t.copies)) ?_ ?_
    · intro t hq
      rw [if_neg (by omega)]
      exact ⟨_, rfl⟩
    · intro t hq
      split_ifs <;> first | rfl | omega
  | setItemTypeProfit k p =>
    change ((∃ b', b.setItemTypeProfit k p = .ok b') ↔ _) ∧ (_ → b.setItemTypeProfit k p = _)
    unfold setItemTypeProfit
    exact triv (hi k _ (fun _ => True) (fun _ _ => ⟨_, rfl⟩) (fun _ h => absurd trivial h))
  | setItemTypeCopies k c =>
    change ((∃ b', b.setItemTypeCopies k c = .ok b') ↔ _) ∧ (_ → b.setItemTypeCopies k c = _)
    unfold setItemTypeCopies
    refine hi k _ (fun _ => c = -1 ∨ 0 < c) ?_ ?_
    · intro t hq
      rw [if_neg (by omega)]
      exact ⟨_, rfl⟩
    · intro t hq
      split_ifs <;> first | rfl | omega
  | setItemTypeCopiesMin k c =>
    change ((∃ b', b.setItemTypeCopiesMin k c = .ok b') ↔ _) ∧ (_ → b.setItemTypeCopiesMin k c = _)
    unfold setItemTypeCopiesMin
    refine hi k _ (fun _ => -1 ≤ c) ?_ ?_
    · intro t hq
      rw [if_neg (by omega)]
      exact ⟨_, rfl⟩
    · intro t hq
      split_ifs <;> first | rfl | omega
  | setNumberOfStagesUnlimited => exact hp.elim
  | setPredefined _ => exact hp.elim
  | setBinTypesInfiniteX => exact hp.elim
  | setBinTypesInfiniteY => exact hp.elim
  | setBinTypesInfiniteCopies => exact hp.elim
  | setBinTypesUnweighted => exact hp.elim
  | setItemTypesUnweighted => exact hp.elim
  | setItemTypesOriented _ => exact hp.elim
  | setItemTypesInfiniteCopies => exact hp.elim
  | multiplyItemTypesCopies _ => exact hp.elim
  | addBinTypeFrom _ _ => exact hp.elim
  | addItemTypeFrom _ _ => exact hp.elim

/-- **C94** (cutting parameters): each is the one given last. -/
theorem parameters_as_given (hp : ∀ op ∈ ops, Plain op) (h : ops.foldlM step (new o) = .ok b) :
    ParametersAsGiven ops b.inst.parameters := by
  have resize_eq : ∀ {α : Type} (A : Parameters → α) (p : Parameters),
      (∀ p l, A { p with cuttingCosts := l } = A p) → A (resizeCuttingCosts p) = A p := by
    intro α A p hA
    unfold resizeCuttingCosts
    simp only
    split_ifs <;> exact hA _ _
  have key : ∀ {α : Type} (A : Parameters → α) (g : BuilderOp → Option α),
      (∀ op, OnTypes op → g op = none) →
      (∀ b op b', ¬ OnTypes op → Plain op → step b op = .ok b' →
        A b'.inst.parameters = (g op).getD (A b.inst.parameters)) →
      A b.inst.parameters = (lastGiven g ops).getD (A (new o).inst.parameters) := by
    intro α A g h1 h2
    refine param_last A g ?_ hp h
    intro b op b' hpl hs
    by_cases ho : OnTypes op
    · rw [params_of_onTypes hpl ho hs, h1 op ho]; rfl
    · exact h2 b op b' ho hpl hs
  have simple : ∀ {α : Type} (A : Parameters → α) (g : BuilderOp → Option α),
      (∀ p l, A { p with cuttingCosts := l } = A p) →
      (∀ op, OnTypes op → g op = none) → (∀ s v, g (.setFixedCuttingCost s v) = none) →
      (∀ s v, g (.setVariableCuttingCost s v) = none) →
      (∀ b op b', (∀ s v, op ≠ .setFixedCuttingCost s v) → (∀ s v, op ≠ .setVariableCuttingCost s v) →
        ¬ OnTypes op → Plain op → step b op = .ok b' →
        A b'.inst.parameters = (g op).getD (A b.inst.parameters)) →
      A b.inst.parameters = (lastGiven g ops).getD (A (new o).inst.parameters) := by
    intro α A g hA h1 hf hv h2
    refine key A g h1 ?_
    intro b op b' ho hpl hs
    by_cases e1 : ∃ s v, op = .setFixedCuttingCost s v
    · obtain ⟨s, v, rfl⟩ := e1
      rw [hf]
      change b.setFixedCuttingCost s v = .ok b' at hs
      unfold setFixedCuttingCost at hs
      split_ifs at hs
      cases hs
      exact hA _ _
    by_cases e2 : ∃ s v, op = .setVariableCuttingCost s v
    · obtain ⟨s, v, rfl⟩ := e2
      rw [hv]
      change b.setVariableCuttingCost s v = .ok b' at hs
      unfold setVariableCuttingCost at hs
      split_ifs at hs
      cases hs
      exact hA _ _
    exact h2 b op b' (fun s v e => e1 ⟨s, v, e⟩) (fun s v e => e2 ⟨s, v, e⟩) ho hpl hs
  refine ⟨?_, ?_, ?_, ?_, ?_, ?_, ?_, ?_, ?_, ?_, ?_, ?_, ?_, ?_, ?_⟩
  · refine simple (·.firstStageOrientation) firstStageOrientationGiven (fun _ _ => rfl) ?_ (fun _ _ => rfl) (fun _ _ => rfl) ?_
    · intro op ho; cases op <;> first | rfl | exact ho.elim
    · intro b op b' n1 n2 ho hpl hs
      cases op <;> first
        | exact absurd trivial ho
        | exact hpl.elim
        | exact absurd rfl (n1 _ _)
        | exact absurd rfl (n2 _ _)
        | (cases hs; rfl)
        | (cases hs; exact resize_eq (·.firstStageOrientation) _ (fun _ _ => rfl))
  · refine simple (·.minimumDistance1Cuts) minimumDistance1CutsGiven (fun _ _ => rfl) ?_ (fun _ _ => rfl) (fun _ _ => rfl) ?_
    · intro op ho; cases op <;> first | rfl | exact ho.elim
    · intro b op b' n1 n2 ho hpl hs
      cases op <;> first
        | exact absurd trivial ho
        | exact hpl.elim
        | exact absurd rfl (n1 _ _)
        | exact absurd rfl (n2 _ _)
        | (cases hs; rfl)
        | (cases hs; exact resize_eq (·.minimumDistance1Cuts) _ (fun _ _ => rfl))
  · refine simple (·.maximumDistance1Cuts) maximumDistance1CutsGiven (fun _ _ => rfl) ?_ (fun _ _ => rfl) (fun _ _ => rfl) ?_
    · intro op ho; cases op <;> first | rfl | exact ho.elim
    · intro b op b' n1 n2 ho hpl hs
      cases op <;> first
        | exact absurd trivial ho
        | exact hpl.elim
        | exact absurd rfl (n1 _ _)
        | exact absurd rfl (n2 _ _)
        | (cases hs; rfl)
        | (cases hs; exact resize_eq (·.maximumDistance1Cuts) _ (fun _ _ => rfl))
  · refine simple (·.minimumDistance2Cuts) minimumDistance2CutsGiven (fun _ _ => rfl) ?_ (fun _ _ => rfl) (fun _ _ => rfl) ?_
    · intro op ho; cases op <;> first | rfl | exact ho.elim
    · intro b op b' n1 n2 ho hpl hs
      cases op <;> first
        | exact absurd trivial ho
        | exact hpl.elim
        | exact absurd rfl (n1 _ _)
        | exact absurd rfl (n2 _ _)
        | (cases hs; rfl)
        | (cases hs; exact resize_eq (·.minimumDistance2Cuts) _ (fun _ _ => rfl))
  · refine simple (·.maximumDistance2Cuts) maximumDistance2CutsGiven (fun _ _ => rfl) ?_ (fun _ _ => rfl) (fun _ _ => rfl) ?_
    · intro op ho; cases op <;> first | rfl | exact ho.elim
    · intro b op b' n1 n2 ho hpl hs
      cases op <;> first
        | exact absurd trivial ho
        | exact hpl.elim
        | exact absurd rfl (n1 _ _)
        | exact absurd rfl (n2 _ _)
        | (cases hs; rfl)
        | (cases hs; exact resize_eq (·.maximumDistance2Cuts) _ (fun _ _ => rfl))
  · refine simple (·.minimumWasteLength) minimumWasteLengthGiven (fun _ _ => rfl) ?_ (fun _ _ => rfl) (fun _ _ => rfl) ?_
    · intro op ho; cases op <;> first | rfl | exact ho.elim
    · intro b op b' n1 n2 ho hpl hs
      cases op <;> first
        | exact absurd trivial ho
        | exact hpl.elim
        | exact absurd rfl (n1 _ _)
        | exact absurd rfl (n2 _ _)
        | (cases hs; rfl)
        | (cases hs; exact resize_eq (·.minimumWasteLength) _ (fun _ _ => rfl))
  · refine simple (·.maximumNumber1Cuts) maximumNumber1CutsGiven (fun _ _ => rfl) ?_ (fun _ _ => rfl) (fun _ _ => rfl) ?_
    · intro op ho; cases op <;> first | rfl | exact ho.elim
    · intro b op b' n1 n2 ho hpl hs
      cases op <;> first
        | exact absurd trivial ho
        | exact hpl.elim
        | exact absurd rfl (n1 _ _)
        | exact absurd rfl (n2 _ _)
        | (cases hs; rfl)
        | (cases hs; exact resize_eq (·.maximumNumber1Cuts) _ (fun _ _ => rfl))
  · refine simple (·.maximumNumber2Cuts) maximumNumber2CutsGiven (fun _ _ => rfl) ?_ (fun _ _ => rfl) (fun _ _ => rfl) ?_
    · intro op ho; cases op <;> first | rfl | exact ho.elim
    · intro b op b' n1 n2 ho hpl hs
      cases op <;> first
        | exact absurd trivial ho
        | exact hpl.elim
        | exact absurd rfl (n1 _ _)
        | exact absurd rfl (n2 _ _)
        | (cases hs; rfl)
        | (cases hs; exact resize_eq (·.maximumNumber2Cuts) _ (fun _ _ => rfl))
  · refine simple (·.cutThickness) cutThicknessGiven (fun _ _ => rfl) ?_ (fun _ _ => rfl) (fun _ _ => rfl) ?_
    · intro op ho; cases op <;> first | rfl | exact ho.elim
    · intro b op b' n1 n2 ho hpl hs
      cases op <;> first
        | exact absurd trivial ho
        | exact hpl.elim
        | exact absurd rfl (n1 _ _)
        | exact absurd rfl (n2 _ _)
        | (cases hs; rfl)
        | (cases hs; exact resize_eq (·.cutThickness) _ (fun _ _ => rfl))
  · refine simple (·.wasteCost) wasteCostGiven (fun _ _ => rfl) ?_ (fun _ _ => rfl) (fun _ _ => rfl) ?_
    · intro op ho; cases op <;> first | rfl | exact ho.elim
    · intro b op b' n1 n2 ho hpl hs
      cases op <;> first
        | exact absurd trivial ho
        | exact hpl.elim
        | exact absurd rfl (n1 _ _)
        | exact absurd rfl (n2 _ _)
        | (cases hs; rfl)
        | (cases hs; exact resize_eq (·.wasteCost) _ (fun _ _ => rfl))
  · refine simple (·.cutThroughDefects) cutThroughDefectsGiven (fun _ _ => rfl) ?_ (fun _ _ => rfl) (fun _ _ => rfl) ?_
    · intro op ho; cases op <;> first | rfl | exact ho.elim
    · intro b op b' n1 n2 ho hpl hs
      cases op <;> first
        | exact absurd trivial ho
        | exact hpl.elim
        | exact absurd rfl (n1 _ _)
        | exact absurd rfl (n2 _ _)
        | (cases hs; rfl)
        | (cases hs; exact resize_eq (·.cutThroughDefects) _ (fun _ _ => rfl))
  · refine simple (·.numberOfStages) numberOfStagesGiven (fun _ _ => rfl) ?_ (fun _ _ => rfl) (fun _ _ => rfl) ?_
    · intro op ho; cases op <;> first | rfl | exact ho.elim
    · intro b op b' n1 n2 ho hpl hs
      cases op <;> first
        | exact absurd trivial ho
        | exact hpl.elim
        | exact absurd rfl (n1 _ _)
        | exact absurd rfl (n2 _ _)
        | (cases hs; rfl)
        | (cases hs; exact resize_eq (·.numberOfStages) _ (fun _ _ => rfl))
  · refine simple (·.cutType) cutTypeGiven (fun _ _ => rfl) ?_ (fun _ _ => rfl) (fun _ _ => rfl) ?_
    · intro op ho; cases op <;> first | rfl | exact ho.elim
    · intro b op b' n1 n2 ho hpl hs
      cases op <;> first
        | exact absurd trivial ho
        | exact hpl.elim
        | exact absurd rfl (n1 _ _)
        | exact absurd rfl (n2 _ _)
        | (cases hs; rfl)
        | (cases hs; exact resize_eq (·.cutType) _ (fun _ _ => rfl))
  · intro s
    have hres : ∀ p : Parameters, (resizeCuttingCosts p).cuttingCosts.getD s {} = p.cuttingCosts.getD s {} := by
      intro p
      unfold resizeCuttingCosts
      simp only
      split_ifs <;> first | exact growTo_getD _ _ _ _ | rfl
    refine (key (fun p => (p.cuttingCosts.getD s {}).fixed) (fixedCostGiven s) ?_ ?_).trans rfl
    · intro op ho; cases op <;> first | rfl | exact ho.elim
    · intro b op b' ho hpl hs
      cases op with
      | setFixedCuttingCost k v =>
        change b.setFixedCuttingCost k v = .ok b' at hs
        unfold setFixedCuttingCost at hs
        by_cases hc : k < 0 ∨ k ≥ b.inst.parameters.cuttingCosts.length
        · rw [if_pos hc] at hs; cases hs
        · rw [if_neg hc] at hs
          cases hs
          have hk : (k.toNat : Int) = k := by omega
          simp only [modifyParameters, List.getD_eq_getElem?_getD, List.getElem?_modify, fixedCostGiven]
          by_cases hks : k = (s : Int)
          · subst hks
            have hl : s < b.inst.parameters.cuttingCosts.length := by omega
            simp [hl]
          · have hks' : k.toNat ≠ s := by omega
            simp [hks, hks']
      | setVariableCuttingCost k v =>
        change b.setVariableCuttingCost k v = .ok b' at hs
        unfold setVariableCuttingCost at hs
        split_ifs at hs
        cases hs
        simp only [modifyParameters, List.getD_eq_getElem?_getD, List.getElem?_modify, fixedCostGiven]
        cases b.inst.parameters.cuttingCosts[s]? with
        | none => simp
        | some q => by_cases hks : k.toNat = s <;> simp [hks]
      | setNumberOfStages n => cases hs; exact congrArg CutCost.fixed (hres _)
      | setCutType n => cases hs; exact congrArg CutCost.fixed (hres _)
      | setRoadef2018 => cases hs; exact congrArg CutCost.fixed (hres _)
      | _ => first
        | exact absurd trivial ho
        | exact hpl.elim
        | (cases hs; rfl)
  · intro s
    have hres : ∀ p : Parameters, (resizeCuttingCosts p).cuttingCosts.getD s {} = p.cuttingCosts.getD s {} := by
      intro p
      unfold resizeCuttingCosts
      simp only
      split_ifs <;> first | exact growTo_getD _ _ _ _ | rfl
    refine (key (fun p => (p.cuttingCosts.getD s {}).perUnit) (perUnitCostGiven s) ?_ ?_).trans rfl
    · intro op ho; cases op <;> first | rfl | exact ho.elim
    · intro b op b' ho hpl hs
      cases op with
      | setVariableCuttingCost k v =>
        change b.setVariableCuttingCost k v = .ok b' at hs
        unfold setVariableCuttingCost at hs
        by_cases hc : k < 0 ∨ k ≥ b.inst.parameters.cuttingCosts.length
        · rw [if_pos hc] at hs; cases hs
        · rw [if_neg hc] at hs
          cases hs
          have hk : (k.toNat : Int) = k := by omega
          simp only [modifyParameters, List.getD_eq_getElem?_getD, List.getElem?_modify, perUnitCostGiven]
          by_cases hks : k = (s : Int)
          · subst hks
            have hl : s < b.inst.parameters.cuttingCosts.length := by omega
            simp [hl]
          · have hks' : k.toNat ≠ s := by omega
            simp [hks, hks']
      | setFixedCuttingCost k v =>
        change b.setFixedCuttingCost k v = .ok b' at hs
        unfold setFixedCuttingCost at hs
        split_ifs at hs
        cases hs
        simp only [modifyParameters, List.getD_eq_getElem?_getD, List.getElem?_modify, perUnitCostGiven]
        cases b.inst.parameters.cuttingCosts[s]? with
        | none => simp
        | some q => by_cases hks : k.toNat = s <;> simp [hks]
      | setNumberOfStages n => cases hs; exact congrArg CutCost.perUnit (hres _)
      | setCutType n => cases hs; exact congrArg CutCost.perUnit (hres _)
      | setRoadef2018 => cases hs; exact congrArg CutCost.perUnit (hres _)
      | _ => first
        | exact absurd trivial ho
        | exact hpl.elim
        | (cases hs; rfl)

/-! ## A concrete history -/

namespace DescribeEx

/-- Two bin types and an item type, whose values are changed several times. -/
def exOps : List BuilderOp :=
  [.setRoadef2018, .setMinimumDistance1Cuts 50, .setFixedCuttingCost 1 7, .setObjective .knapsack,
    .addBinType 4 5, .addBinType 7 8, .setBinTypeCost 0 3, .setBinTypeCost 0 (-1),
    .addTrims 0 ⟨1, .hard, 1, .hard, 0, .soft, 2, .soft⟩,
    .addBinTypeResource 1 10 true 2, .setBinTypeCopies 1 5, .setBinTypeCopiesMin 1 2,
    .addDefect 1 1 2 3 3, .addItemType 1 2 true (-1), .setItemTypeProfit 0 11, .setItemTypeProfit 0 12]

example : (∀ op ∈ exOps, Plain op) ∧ (exOps.foldlM step (new .default)).toOption.isSome = true
    ∧ allGiven binAdded exOps = [(4, 5), (7, 8)]
    ∧ lastGiven (binCostGiven 0 (4, 5)) exOps = some 20
    ∧ lastGiven minimumDistance1CutsGiven exOps = some 50
    ∧ lastGiven maximumDistance1CutsGiven exOps = some 3500
    ∧ lastGiven (fixedCostGiven 1) exOps = some 7
    ∧ lastGiven (itemProfitGiven 0) exOps = some 12 := by
  refine ⟨?_, by decide +kernel, by decide +kernel, by decide +kernel, by decide +kernel,
    by decide +kernel, by decide +kernel, by decide +kernel⟩
  simp [exOps, Plain]

/-- Rejected calls exist. -/
example : ¬ Acceptable (new .knapsack).inst (.addBinType 0 1)
    ∧ ¬ Acceptable (new .knapsack).inst (.setItemTypeCopies 0 3) := by
  constructor
  · rintro ⟨h, -⟩; exact absurd h (by decide)
  · rintro ⟨h, -⟩; exact absurd h (by decide)

end DescribeEx

end PackingSolver.Guil
