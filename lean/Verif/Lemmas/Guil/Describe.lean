import Verif.Lemmas.Consumption
import Verif.Lemmas.Except
import Verif.Spec.GuilDescribe
import Verif.Lemmas.Guil.InstParams

/-!
# Helper lemmas: types under construction follow their descriptions
-/

namespace PackingSolver.Guil

open Guil.Spec InstanceBuilder
open PackingSolver.Spec (lastGiven allGiven consumptionOf)

variable {o : Objective} {ops : List BuilderOp} {b b' : InstanceBuilder}

theorem modifyBin_set {id : Nat} {f : BinType → Except Err BinType} (h : b.modifyBin id f = .ok b') :
    ∃ t t', b.inst.binTypes[id]? = some t ∧ f t = .ok t'
      ∧ b' = { b with inst := { b.inst with binTypes := b.inst.binTypes.set id t' } } := by
  unfold modifyBin at h
  by_cases hc : id ≥ b.inst.binTypes.length
  · rw [if_pos hc] at h; cases h
  · rw [if_neg hc] at h
    have hlt : id < b.inst.binTypes.length := by omega
    refine ⟨b.inst.binTypes[id], ?_⟩
    have e : b.inst.binType id = b.inst.binTypes[id] := by
      simp [Instance.binType, List.getD_eq_getElem?_getD, hlt]
    rw [e] at h
    cases ht : f b.inst.binTypes[id] with
    | error e => rw [ht] at h; cases h
    | ok t' => rw [ht] at h; cases h; exact ⟨t', by simp [hlt], rfl, rfl⟩

theorem modifyItem_set {id : Nat} {f : ItemType → Except Err ItemType}
    (h : b.modifyItem id f = .ok b') :
    ∃ t t', b.inst.itemTypes[id]? = some t ∧ f t = .ok t'
      ∧ b' = { b with inst := { b.inst with itemTypes := b.inst.itemTypes.set id t' } } := by
  unfold modifyItem at h
  by_cases hc : id ≥ b.inst.itemTypes.length
  · rw [if_pos hc] at h; cases h
  · rw [if_neg hc] at h
    have hlt : id < b.inst.itemTypes.length := by omega
    refine ⟨b.inst.itemTypes[id], ?_⟩
    have e : b.inst.itemType id = b.inst.itemTypes[id] := by
      simp [Instance.itemType, List.getD_eq_getElem?_getD, hlt]
    rw [e] at h
    cases ht : f b.inst.itemTypes[id] with
    | error e => rw [ht] at h; cases h
    | ok t' => rw [ht] at h; cases h; exact ⟨t', by simp [hlt], rfl, rfl⟩

/-- The change of bin type `i` made by a call. -/
def binUpd : BuilderOp → Nat → Option (BinType → BinType)
  | .setBinTypeCost k c, i => if i = k then some (fun t => { t with
      cost := if c = -1 then ((t.w * t.h : Int) : ℚ) else c }) else none
  | .addTrims k r, i => if i = k then some (fun t => { t with
      leftTrim := r.left
      leftTrimType := r.leftType
      rightTrim := r.right
      rightTrimType := r.rightType
      bottomTrim := r.bottom
      bottomTrimType := r.bottomType
      topTrim := r.top
      topTrimType := r.topType }) else none
  | .addDefect k x y u v, i => if i = k then some (fun t => { t with
      defects := t.defects ++ [{ x := x, y := y, w := u, h := v }] }) else none
  | .addBinTypeResource k c p q, i => if i = k then some (fun t => { t with
      resources := t.resources ++ [{ capacity := c, penalize := p, penalty := q }] }) else none
  | .addResourceConsumption k r j c q, i => if i = k then some (fun t => { t with
      resources := t.resources.modify r (fun x => x.addConsumption j c.toNat q) }) else none
  | .setBinTypeCopies k c, i => if i = k then some (fun t => { t with
      copies := c }) else none
  | .setBinTypeCopiesMin k c, i => if i = k then some (fun t => { t with
      copiesMin := c }) else none
  | _, _ => none

/-- A new bin type. -/
def describedBin (d : Int × Int) : BinType :=
  { w := d.1, h := d.2, cost := ((d.1 * d.2 : Int) : ℚ), copies := 1, copiesMin := 0 }

/-- The change of item type `i` made by a call. -/
def itemUpd : BuilderOp → Nat → Option (ItemType → ItemType)
  | .setItemTypeProfit k p, i => if i = k then some (fun t => { t with
      profit := p }) else none
  | .setItemTypeCopies k c, i => if i = k then some (fun t => { t with
      copies := c }) else none
  | .setItemTypeCopiesMin k c, i => if i = k then some (fun t => { t with
      copiesMin := c }) else none
  | _, _ => none

/-- A new item type. -/
def describedItem (d : Int × Int × Bool × Int) : ItemType :=
  { w := d.1, h := d.2.1, profit := ((d.1 * d.2.1 : Int) : ℚ), copies := 1, copiesMin := -1, stackId := d.2.2.2, oriented := d.2.2.1 }

/-- The builder after a history of plain calls. -/
structure BuilderAsGiven (o : Objective) (ops : List BuilderOp) (b : InstanceBuilder) : Prop where
  bins : Described binAdded binUpd describedBin ops b.inst.binTypes
  items : Described itemAdded itemUpd describedItem ops b.inst.itemTypes
  objective : b.inst.objective = (lastGiven objectiveGiven ops).getD o
  callback : b.inst.callback = (lastGiven callbackGiven ops).getD (new o).inst.callback

theorem asGiven_bin (h : BuilderAsGiven o ops b) {op : BuilderOp} {id : Nat}
    {f : BinType → Except Err BinType} {g : BinType → BinType}
    (hs : b.modifyBin id f = .ok b') (hf : ∀ t t', f t = .ok t' → t' = g t)
    (h1 : binAdded op = none) (h2 : ∀ i, binUpd op i = if i = id then some g else none)
    (h3 : itemAdded op = none) (h4 : ∀ i, itemUpd op i = none) (h5 : objectiveGiven op = none)
    (h6 : callbackGiven op = none) : BuilderAsGiven o (ops ++ [op]) b' := by
  obtain ⟨t, t', ht, hft, rfl⟩ := modifyBin_set hs
  rw [hf t t' hft]
  exact ⟨described_set h.bins h1 h2 ht, described_skip h.items h3 h4,
    by rw [lastGiven_snoc, h5]; exact h.objective, by rw [lastGiven_snoc, h6]; exact h.callback⟩

theorem asGiven_item (h : BuilderAsGiven o ops b) {op : BuilderOp} {id : Nat}
    {f : ItemType → Except Err ItemType} {g : ItemType → ItemType}
    (hs : b.modifyItem id f = .ok b') (hf : ∀ t t', f t = .ok t' → t' = g t)
    (h1 : itemAdded op = none) (h2 : ∀ i, itemUpd op i = if i = id then some g else none)
    (h3 : binAdded op = none) (h4 : ∀ i, binUpd op i = none) (h5 : objectiveGiven op = none)
    (h6 : callbackGiven op = none) : BuilderAsGiven o (ops ++ [op]) b' := by
  obtain ⟨t, t', ht, hft, rfl⟩ := modifyItem_set hs
  rw [hf t t' hft]
  exact ⟨described_skip h.bins h3 h4, described_set h.items h1 h2 ht,
    by rw [lastGiven_snoc, h5]; exact h.objective, by rw [lastGiven_snoc, h6]; exact h.callback⟩

theorem asGiven_step (h : BuilderAsGiven o ops b) {op : BuilderOp} (hp : Plain op)
    (hs : step b op = .ok b') : BuilderAsGiven o (ops ++ [op]) b' := by
  have ok_inj : ∀ {α : Type} (g : α → α) (t t' : α), (Except.ok (g t) : Except Err α) = .ok t' →
      t' = g t := fun g t t' e => by cases e; rfl
  have ite_inj : ∀ {α : Type} (g : α → α) (c : α → Prop) [∀ t, Decidable (c t)] (t t' : α),
      (if c t then .error .invalidArgument else Except.ok (g t) : Except Err α) = .ok t' →
      t' = g t := by
    intro α g c _ t t' e
    by_cases hc : c t
    · rw [if_pos hc] at e; cases e
    · rw [if_neg hc] at e; cases e; rfl
  cases op with
  | setObjective o' =>
    cases hs
    exact ⟨described_skip h.bins rfl (fun _ => rfl), described_skip h.items rfl (fun _ => rfl),
      by rw [lastGiven_snoc]; rfl, by rw [lastGiven_snoc]; exact h.callback⟩
  | setCallback f =>
    cases hs
    exact ⟨described_skip h.bins rfl (fun _ => rfl), described_skip h.items rfl (fun _ => rfl),
      by rw [lastGiven_snoc]; exact h.objective, by rw [lastGiven_snoc]; rfl⟩
  | setParameters p =>
    cases hs
    exact ⟨described_skip h.bins rfl (fun _ => rfl), described_skip h.items rfl (fun _ => rfl),
      by rw [lastGiven_snoc]; exact h.objective, by rw [lastGiven_snoc]; exact h.callback⟩
  | setFirstStageOrientation p =>
    cases hs
    exact ⟨described_skip h.bins rfl (fun _ => rfl), described_skip h.items rfl (fun _ => rfl),
      by rw [lastGiven_snoc]; exact h.objective, by rw [lastGiven_snoc]; exact h.callback⟩
  | setMinimumDistance1Cuts n =>
    cases hs
    exact ⟨described_skip h.bins rfl (fun _ => rfl), described_skip h.items rfl (fun _ => rfl),
      by rw [lastGiven_snoc]; exact h.objective, by rw [lastGiven_snoc]; exact h.callback⟩
  | setMaximumDistance1Cuts n =>
    cases hs
    exact ⟨described_skip h.bins rfl (fun _ => rfl), described_skip h.items rfl (fun _ => rfl),
      by rw [lastGiven_snoc]; exact h.objective, by rw [lastGiven_snoc]; exact h.callback⟩
  | setMinimumDistance2Cuts n =>
    cases hs
    exact ⟨described_skip h.bins rfl (fun _ => rfl), described_skip h.items rfl (fun _ => rfl),
      by rw [lastGiven_snoc]; exact h.objective, by rw [lastGiven_snoc]; exact h.callback⟩
  | setMaximumDistance2Cuts n =>
    cases hs
    exact ⟨described_skip h.bins rfl (fun _ => rfl), described_skip h.items rfl (fun _ => rfl),
      by rw [lastGiven_snoc]; exact h.objective, by rw [lastGiven_snoc]; exact h.callback⟩
  | setMinimumWasteLength n =>
    cases hs
    exact ⟨described_skip h.bins rfl (fun _ => rfl), described_skip h.items rfl (fun _ => rfl),
      by rw [lastGiven_snoc]; exact h.objective, by rw [lastGiven_snoc]; exact h.callback⟩
  | setMaximumNumber1Cuts n =>
    cases hs
    exact ⟨described_skip h.bins rfl (fun _ => rfl), described_skip h.items rfl (fun _ => rfl),
      by rw [lastGiven_snoc]; exact h.objective, by rw [lastGiven_snoc]; exact h.callback⟩
  | setMaximumNumber2Cuts n =>
    cases hs
    exact ⟨described_skip h.bins rfl (fun _ => rfl), described_skip h.items rfl (fun _ => rfl),
      by rw [lastGiven_snoc]; exact h.objective, by rw [lastGiven_snoc]; exact h.callback⟩
  | setCutThickness n =>
    cases hs
    exact ⟨described_skip h.bins rfl (fun _ => rfl), described_skip h.items rfl (fun _ => rfl),
      by rw [lastGiven_snoc]; exact h.objective, by rw [lastGiven_snoc]; exact h.callback⟩
  | setWasteCost n =>
    cases hs
    exact ⟨described_skip h.bins rfl (fun _ => rfl), described_skip h.items rfl (fun _ => rfl),
      by rw [lastGiven_snoc]; exact h.objective, by rw [lastGiven_snoc]; exact h.callback⟩
  | setCutThroughDefects c =>
    cases hs
    exact ⟨described_skip h.bins rfl (fun _ => rfl), described_skip h.items rfl (fun _ => rfl),
      by rw [lastGiven_snoc]; exact h.objective, by rw [lastGiven_snoc]; exact h.callback⟩
  | setNumberOfStages n =>
    cases hs
    exact ⟨described_skip h.bins rfl (fun _ => rfl), described_skip h.items rfl (fun _ => rfl),
      by rw [lastGiven_snoc]; exact h.objective, by rw [lastGiven_snoc]; exact h.callback⟩
  | setCutType c =>
    cases hs
    exact ⟨described_skip h.bins rfl (fun _ => rfl), described_skip h.items rfl (fun _ => rfl),
      by rw [lastGiven_snoc]; exact h.objective, by rw [lastGiven_snoc]; exact h.callback⟩
  | setRoadef2018 =>
    cases hs
    exact ⟨described_skip h.bins rfl (fun _ => rfl), described_skip h.items rfl (fun _ => rfl),
      by rw [lastGiven_snoc]; exact h.objective, by rw [lastGiven_snoc]; exact h.callback⟩
  | setFixedCuttingCost s q =>
    change b.setFixedCuttingCost s q = .ok b' at hs
    unfold setFixedCuttingCost at hs
    split_ifs at hs
    cases hs
    exact ⟨described_skip h.bins rfl (fun _ => rfl), described_skip h.items rfl (fun _ => rfl),
      by rw [lastGiven_snoc]; exact h.objective, by rw [lastGiven_snoc]; exact h.callback⟩
  | setVariableCuttingCost s q =>
    change b.setVariableCuttingCost s q = .ok b' at hs
    unfold setVariableCuttingCost at hs
    split_ifs at hs
    cases hs
    exact ⟨described_skip h.bins rfl (fun _ => rfl), described_skip h.items rfl (fun _ => rfl),
      by rw [lastGiven_snoc]; exact h.objective, by rw [lastGiven_snoc]; exact h.callback⟩
  | addBinType u v =>
    change b.addBinType u v = .ok b' at hs
    unfold addBinType at hs
    split_ifs at hs
    cases hs
    exact ⟨described_add (d := (u, v)) h.bins rfl (fun _ => rfl),
      described_skip h.items rfl (fun _ => rfl),
      by rw [lastGiven_snoc]; exact h.objective, by rw [lastGiven_snoc]; exact h.callback⟩
  | addItemType u v o s =>
    change b.addItemType u v o s = .ok b' at hs
    unfold addItemType at hs
    split_ifs at hs
    cases hs
    exact ⟨described_skip h.bins rfl (fun _ => rfl),
      described_add (d := (u, v, o, s)) h.items rfl (fun _ => rfl),
      by rw [lastGiven_snoc]; exact h.objective, by rw [lastGiven_snoc]; exact h.callback⟩
  | setBinTypeCost k c =>
    change b.setBinTypeCost k c = .ok b' at hs
    unfold setBinTypeCost at hs
    exact asGiven_bin h hs (ite_inj _ _) rfl (fun _ => rfl) rfl (fun _ => rfl) rfl rfl
  | addTrims k r =>
    change b.addTrims k r = .ok b' at hs
    unfold addTrims at hs
    refine asGiven_bin h hs (fun t t' e => ?_) rfl (fun _ => rfl) rfl (fun _ => rfl) rfl rfl
    split_ifs at e
    cases e; rfl
  | addDefect k x y u v =>
    change b.addDefect k x y u v = .ok b' at hs
    unfold addDefect at hs
    exact asGiven_bin h hs (ok_inj _) rfl (fun _ => rfl) rfl (fun _ => rfl) rfl rfl
  | addBinTypeResource k c p q =>
    change b.addBinTypeResource k c p q = .ok b' at hs
    unfold addBinTypeResource at hs
    exact asGiven_bin h hs (ok_inj _) rfl (fun _ => rfl) rfl (fun _ => rfl) rfl rfl
  | addResourceConsumption k r j c q =>
    change b.addResourceConsumption k r j c q = .ok b' at hs
    unfold addResourceConsumption at hs
    refine asGiven_bin h hs (fun t t' e => ?_) rfl (fun _ => rfl) rfl (fun _ => rfl) rfl rfl
    by_cases h1 : r ≥ t.resources.length
    · rw [if_pos h1] at e; cases e
    · rw [if_neg h1] at e
      by_cases h2 : c < 0
      · rw [if_pos h2] at e; cases e
      · rw [if_neg h2] at e; cases e; rfl
  | setBinTypeCopies k c =>
    change b.setBinTypeCopies k c = .ok b' at hs
    unfold setBinTypeCopies at hs
    exact asGiven_bin h hs (ite_inj _ _) rfl (fun _ => rfl) rfl (fun _ => rfl) rfl rfl
  | setBinTypeCopiesMin k c =>
    change b.setBinTypeCopiesMin k c = .ok b' at hs
    unfold setBinTypeCopiesMin at hs
    exact asGiven_bin h hs (ite_inj _ _) rfl (fun _ => rfl) rfl (fun _ => rfl) rfl rfl
  | setItemTypeProfit k p =>
    change b.setItemTypeProfit k p = .ok b' at hs
    unfold setItemTypeProfit at hs
    exact asGiven_item h hs (ok_inj _) rfl (fun _ => rfl) rfl (fun _ => rfl) rfl rfl
  | setItemTypeCopies k c =>
    change b.setItemTypeCopies k c = .ok b' at hs
    unfold setItemTypeCopies at hs
    exact asGiven_item h hs (ite_inj _ _) rfl (fun _ => rfl) rfl (fun _ => rfl) rfl rfl
  | setItemTypeCopiesMin k c =>
    change b.setItemTypeCopiesMin k c = .ok b' at hs
    unfold setItemTypeCopiesMin at hs
    exact asGiven_item h hs (ite_inj _ _) rfl (fun _ => rfl) rfl (fun _ => rfl) rfl rfl
  | setNumberOfStagesUnlimited => exact hp.elim
  | setPredefined _ => exact hp.elim
  | setBinTypesInfiniteX => exact hp.elim
  | setBinTypesInfiniteY => exact hp.elim
  | setBinTypesInfiniteCopies => exact hp.elim
  | setBinTypesUnweighted => exact hp.elim
  | setItemTypesUnweighted => exact hp.elim
  | setItemTypesOriented _ => exact hp.elim
  | setItemTypesInfiniteCopies => exact hp.elim
  | multiplyItemTypesCopies _ => exact hp.elim
  | addBinTypeFrom _ _ => exact hp.elim
  | addItemTypeFrom _ _ => exact hp.elim

theorem asGiven (hp : ∀ op ∈ ops, Plain op) (h : ops.foldlM step (new o) = .ok b) :
    BuilderAsGiven o ops b := by
  induction ops using List.reverseRecOn generalizing b with
  | nil =>
    cases h
    exact ⟨described_nil, described_nil, rfl, rfl⟩
  | append_singleton ops op ih =>
    rw [foldlM_snoc_ok] at h
    obtain ⟨b1, h1, h2⟩ := h
    exact asGiven_step (ih (fun op' h' => hp op' (List.mem_append_left _ h')) h1)
      (hp op (by simp)) h2

/-- An attribute of a bin type that keeps the value given last. -/
theorem bin_last {α : Type} (A : BinType → α) (g : BuilderOp → Option α) (i : Nat) (d : Int × Int)
    (h : ∀ op f, binUpd op i = some f → ∀ t : BinType, (t.w, t.h) = d →
      ((f t).w, (f t).h) = (t.w, t.h) ∧ A (f t) = (g op).getD (A t))
    (h0 : ∀ op, binUpd op i = none → g op = none) (ops : List BuilderOp) :
    A (entryOf binUpd describedBin ops i d) = (lastGiven g ops).getD (A (describedBin d)) :=
  (entryOf_last A g (fun t : BinType => (t.w, t.h) = d) i d rfl
    (fun op f hf t ht => ⟨(h op f hf t ht).1.trans ht, (h op f hf t ht).2⟩) h0 ops).2

/-- An attribute of an item type that keeps the value given last. -/
theorem item_last {α : Type} (A : ItemType → α) (g : BuilderOp → Option α) (i : Nat) (d : Int × Int × Bool × Int)
    (h : ∀ op f, itemUpd op i = some f → ∀ t, A (f t) = (g op).getD (A t))
    (h0 : ∀ op, itemUpd op i = none → g op = none) (ops : List BuilderOp) :
    A (entryOf itemUpd describedItem ops i d) = (lastGiven g ops).getD (A (describedItem d)) :=
  (entryOf_last A g (fun _ => True) i d trivial
    (fun op f hf t _ => ⟨trivial, h op f hf t⟩) h0 ops).2

/-- A quantity of the parameters that keeps the value given last. -/
theorem param_last {α : Type} (A : Parameters → α) (g : BuilderOp → Option α)
    (h : ∀ b op b', Plain op → step b op = .ok b' →
      A b'.inst.parameters = (g op).getD (A b.inst.parameters))
    (hp : ∀ op ∈ ops, Plain op) (hr : ops.foldlM step (new o) = .ok b) :
    A b.inst.parameters = (lastGiven g ops).getD (A (new o).inst.parameters) := by
  induction ops using List.reverseRecOn generalizing b with
  | nil => cases hr; rfl
  | append_singleton ops op ih =>
    rw [foldlM_snoc_ok] at hr
    obtain ⟨b1, h1, h2⟩ := hr
    rw [h b1 op b (hp op (by simp)) h2, lastGiven_snoc,
      ih (fun op' h' => hp op' (List.mem_append_left _ h')) h1]
    cases g op <;> rfl

/-- The calls on types leave the parameters alone. -/
theorem params_of_modifyBin {id : Nat} {f : BinType → Except Err BinType}
    (hs : b.modifyBin id f = .ok b') : b'.inst.parameters = b.inst.parameters := by
  obtain ⟨t, t', -, -, rfl⟩ := modifyBin_set hs; rfl

theorem params_of_modifyItem {id : Nat} {f : ItemType → Except Err ItemType}
    (hs : b.modifyItem id f = .ok b') : b'.inst.parameters = b.inst.parameters := by
  obtain ⟨t, t', -, -, rfl⟩ := modifyItem_set hs; rfl

/-- The calls on types. -/
def OnTypes : BuilderOp → Prop
  | .setParameters _ => False
  | .setFirstStageOrientation _ => False
  | .setMinimumDistance1Cuts _ => False
  | .setMaximumDistance1Cuts _ => False
  | .setMinimumDistance2Cuts _ => False
  | .setMaximumDistance2Cuts _ => False
  | .setMinimumWasteLength _ => False
  | .setMaximumNumber1Cuts _ => False
  | .setMaximumNumber2Cuts _ => False
  | .setCutThickness _ => False
  | .setWasteCost _ => False
  | .setCutThroughDefects _ => False
  | .setNumberOfStages _ => False
  | .setCutType _ => False
  | .setRoadef2018 => False
  | .setFixedCuttingCost _ _ => False
  | .setVariableCuttingCost _ _ => False
  | _ => True

theorem params_of_onTypes {op : BuilderOp} (hp : Plain op) (ho : OnTypes op) (hs : step b op = .ok b') :
    b'.inst.parameters = b.inst.parameters := by
  cases op with
  | setObjective o' => cases hs; rfl
  | setCallback f => cases hs; rfl
  | addBinType u v =>
    change b.addBinType u v = .ok b' at hs
    unfold addBinType at hs
    split_ifs at hs
    cases hs; rfl
  | addItemType u v o s =>
    change b.addItemType u v o s = .ok b' at hs
    unfold addItemType at hs
    split_ifs at hs
    cases hs; rfl
  | setBinTypeCost k c =>
    change b.setBinTypeCost k c = .ok b' at hs
    unfold setBinTypeCost at hs
    exact params_of_modifyBin hs
  | addTrims k r =>
    change b.addTrims k r = .ok b' at hs
    unfold addTrims at hs
    exact params_of_modifyBin hs
  | addDefect k x y u v =>
    change b.addDefect k x y u v = .ok b' at hs
    unfold addDefect at hs
    exact params_of_modifyBin hs
  | addBinTypeResource k c p q =>
    change b.addBinTypeResource k c p q = .ok b' at hs
    unfold addBinTypeResource at hs
    exact params_of_modifyBin hs
  | addResourceConsumption k r j c q =>
    change b.addResourceConsumption k r j c q = .ok b' at hs
    unfold addResourceConsumption at hs
    exact params_of_modifyBin hs
  | setBinTypeCopies k c =>
    change b.setBinTypeCopies k c = .ok b' at hs
    unfold setBinTypeCopies at hs
    exact params_of_modifyBin hs
  | setBinTypeCopiesMin k c =>
    change b.setBinTypeCopiesMin k c = .ok b' at hs
    unfold setBinTypeCopiesMin at hs
    exact params_of_modifyBin hs
  | setItemTypeProfit k p =>
    change b.setItemTypeProfit k p = .ok b' at hs
    unfold setItemTypeProfit at hs
    exact params_of_modifyItem hs
  | setItemTypeCopies k c =>
    change b.setItemTypeCopies k c = .ok b' at hs
    unfold setItemTypeCopies at hs
    exact params_of_modifyItem hs
  | setItemTypeCopiesMin k c =>
    change b.setItemTypeCopiesMin k c = .ok b' at hs
    unfold setItemTypeCopiesMin at hs
    exact params_of_modifyItem hs
  | setParameters _ => exact ho.elim
  | setFirstStageOrientation _ => exact ho.elim
  | setMinimumDistance1Cuts _ => exact ho.elim
  | setMaximumDistance1Cuts _ => exact ho.elim
  | setMinimumDistance2Cuts _ => exact ho.elim
  | setMaximumDistance2Cuts _ => exact ho.elim
  | setMinimumWasteLength _ => exact ho.elim
  | setMaximumNumber1Cuts _ => exact ho.elim
  | setMaximumNumber2Cuts _ => exact ho.elim
  | setCutThickness _ => exact ho.elim
  | setWasteCost _ => exact ho.elim
  | setCutThroughDefects _ => exact ho.elim
  | setNumberOfStages _ => exact ho.elim
  | setCutType _ => exact ho.elim
  | setRoadef2018 => exact ho.elim
  | setFixedCuttingCost _ _ => exact ho.elim
  | setVariableCuttingCost _ _ => exact ho.elim
  | setNumberOfStagesUnlimited => exact hp.elim
  | setPredefined _ => exact hp.elim
  | setBinTypesInfiniteX => exact hp.elim
  | setBinTypesInfiniteY => exact hp.elim
  | setBinTypesInfiniteCopies => exact hp.elim
  | setBinTypesUnweighted => exact hp.elim
  | setItemTypesUnweighted => exact hp.elim
  | setItemTypesOriented _ => exact hp.elim
  | setItemTypesInfiniteCopies => exact hp.elim
  | multiplyItemTypesCopies _ => exact hp.elim
  | addBinTypeFrom _ _ => exact hp.elim
  | addItemTypeFrom _ _ => exact hp.elim

/-! ## Consumptions -/

/-- The resources of bin type `i` (none if there is no such bin type). -/
def resList (b : InstanceBuilder) (i : Nat) : List Resource :=
  ((b.inst.binTypes[i]?).map (·.resources)).getD []

theorem resList_modifyBin {id : Nat} {f : BinType → Except Err BinType}
    (hs : b.modifyBin id f = .ok b') (i : Nat) :
    ∃ t t', b.inst.binTypes[id]? = some t ∧ f t = .ok t'
      ∧ resList b' i = if i = id then t'.resources else resList b i := by
  obtain ⟨t, t', ht, hf, rfl⟩ := modifyBin_set hs
  refine ⟨t, t', ht, hf, ?_⟩
  have hl : id < b.inst.binTypes.length := by
    by_contra hc
    rw [List.getElem?_eq_none (by omega)] at ht
    cases ht
  unfold resList
  rw [List.getElem?_set]
  by_cases hi : i = id
  · subst hi; rw [if_pos rfl, if_pos hl, if_pos rfl]; rfl
  · rw [if_neg (fun e => hi e.symm), if_neg hi]

/-- A call that keeps the resources of the type it concerns. -/
theorem resList_keep {id : Nat} {f : BinType → Except Err BinType} (hs : b.modifyBin id f = .ok b')
    (hf : ∀ t t', f t = .ok t' → t'.resources = t.resources) (i : Nat) : resList b' i = resList b i := by
  obtain ⟨t, t', ht, hft, e⟩ := resList_modifyBin hs i
  rw [e]
  by_cases hi : i = id
  · subst hi; rw [if_pos rfl, hf t t' hft]; unfold resList; rw [ht]; rfl
  · rw [if_neg hi]

theorem resList_item {id : Nat} {f : ItemType → Except Err ItemType} (hs : b.modifyItem id f = .ok b')
    (i : Nat) : resList b' i = resList b i := by
  obtain ⟨t, t', -, -, rfl⟩ := modifyItem_set hs; rfl

/-- The schedules of a builder are those written by the consumptions given. -/
def SchedulesAsGiven (ops : List BuilderOp) (b : InstanceBuilder) : Prop :=
  ∀ i r j, schedOf ((resList b i).getD r {}) j = writeAll (allGiven (consumptionGiven i r j) ops)

theorem schedules_keep (h : SchedulesAsGiven ops b) {op : BuilderOp}
    (hs : ∀ i r j, schedOf ((resList b' i).getD r {}) j = schedOf ((resList b i).getD r {}) j)
    (hg : ∀ i r j, consumptionGiven i r j op = none) : SchedulesAsGiven (ops ++ [op]) b' := by
  intro i r j
  rw [allGiven_snoc, hg, hs, h i r j]
  simp

theorem schedules_step (h : SchedulesAsGiven ops b) {op : BuilderOp} (hp : Plain op)
    (hs : step b op = .ok b') : SchedulesAsGiven (ops ++ [op]) b' := by
  have keep : ∀ {id : Nat} {f : BinType → Except Err BinType}, b.modifyBin id f = .ok b' →
      (∀ t t', f t = .ok t' → t'.resources = t.resources) →
      (∀ i r j, consumptionGiven i r j op = none) → SchedulesAsGiven (ops ++ [op]) b' :=
    fun hm hf hg => schedules_keep h (fun i r j => by rw [resList_keep hm hf i]) hg
  have itemCase : ∀ {id : Nat} {f : ItemType → Except Err ItemType}, b.modifyItem id f = .ok b' →
      (∀ i r j, consumptionGiven i r j op = none) → SchedulesAsGiven (ops ++ [op]) b' :=
    fun hm hg => schedules_keep h (fun i r j => by rw [resList_item hm i]) hg
  have same : (∀ i, resList b' i = resList b i) →
      (∀ i r j, consumptionGiven i r j op = none) → SchedulesAsGiven (ops ++ [op]) b' :=
    fun hm hg => schedules_keep h (fun i r j => by rw [hm i]) hg
  cases op with
  | setObjective o' => cases hs; exact same (fun _ => rfl) (fun _ _ _ => rfl)
  | setCallback f => cases hs; exact same (fun _ => rfl) (fun _ _ _ => rfl)
  | setParameters p => cases hs; exact same (fun _ => rfl) (fun _ _ _ => rfl)
  | setFirstStageOrientation p => cases hs; exact same (fun _ => rfl) (fun _ _ _ => rfl)
  | setMinimumDistance1Cuts n => cases hs; exact same (fun _ => rfl) (fun _ _ _ => rfl)
  | setMaximumDistance1Cuts n => cases hs; exact same (fun _ => rfl) (fun _ _ _ => rfl)
  | setMinimumDistance2Cuts n => cases hs; exact same (fun _ => rfl) (fun _ _ _ => rfl)
  | setMaximumDistance2Cuts n => cases hs; exact same (fun _ => rfl) (fun _ _ _ => rfl)
  | setMinimumWasteLength n => cases hs; exact same (fun _ => rfl) (fun _ _ _ => rfl)
  | setMaximumNumber1Cuts n => cases hs; exact same (fun _ => rfl) (fun _ _ _ => rfl)
  | setMaximumNumber2Cuts n => cases hs; exact same (fun _ => rfl) (fun _ _ _ => rfl)
  | setCutThickness n => cases hs; exact same (fun _ => rfl) (fun _ _ _ => rfl)
  | setWasteCost n => cases hs; exact same (fun _ => rfl) (fun _ _ _ => rfl)
  | setCutThroughDefects c => cases hs; exact same (fun _ => rfl) (fun _ _ _ => rfl)
  | setNumberOfStages n => cases hs; exact same (fun _ => rfl) (fun _ _ _ => rfl)
  | setCutType c => cases hs; exact same (fun _ => rfl) (fun _ _ _ => rfl)
  | setRoadef2018 => cases hs; exact same (fun _ => rfl) (fun _ _ _ => rfl)
  | setFixedCuttingCost s q =>
    change b.setFixedCuttingCost s q = .ok b' at hs
    unfold setFixedCuttingCost at hs
    split_ifs at hs
    cases hs
    exact same (fun _ => rfl) (fun _ _ _ => rfl)
  | setVariableCuttingCost s q =>
    change b.setVariableCuttingCost s q = .ok b' at hs
    unfold setVariableCuttingCost at hs
    split_ifs at hs
    cases hs
    exact same (fun _ => rfl) (fun _ _ _ => rfl)
  | addBinType u v =>
    change b.addBinType u v = .ok b' at hs
    unfold addBinType at hs
    split_ifs at hs
    cases hs
    refine same (fun i => ?_) (fun _ _ _ => rfl)
    unfold resList
    simp only [List.getElem?_append]
    by_cases hi : i < b.inst.binTypes.length
    · rw [if_pos hi]
    · rw [if_neg hi, List.getElem?_eq_none (by omega : b.inst.binTypes.length ≤ i)]
      cases hk : i - b.inst.binTypes.length <;> simp
  | addItemType u v o s =>
    change b.addItemType u v o s = .ok b' at hs
    unfold addItemType at hs
    split_ifs at hs
    cases hs
    exact same (fun _ => rfl) (fun _ _ _ => rfl)
  | addBinTypeResource k c p q =>
    change b.addBinTypeResource k c p q = .ok b' at hs
    unfold addBinTypeResource at hs
    refine schedules_keep h (fun i r j => ?_) (fun _ _ _ => rfl)
    obtain ⟨t, t', ht, hft, e⟩ := resList_modifyBin hs i
    cases hft
    rw [e]
    by_cases hi : i = k
    · subst hi
      rw [if_pos rfl]
      have e2 : resList b i = t.resources := by unfold resList; rw [ht]; rfl
      rw [e2, List.getD_eq_getElem?_getD, List.getD_eq_getElem?_getD, List.getElem?_append]
      by_cases hr : r < t.resources.length
      · rw [if_pos hr]
      · rw [if_neg hr, List.getElem?_eq_none (by omega : t.resources.length ≤ r)]
        cases hk : r - t.resources.length <;> simp [schedOf]
    · rw [if_neg hi]
  | addResourceConsumption k m n c q =>
    change b.addResourceConsumption k m n c q = .ok b' at hs
    unfold addResourceConsumption at hs
    intro i r j
    obtain ⟨t, t', ht, hft, e⟩ := resList_modifyBin hs i
    rw [allGiven_snoc, e]
    by_cases h1 : m ≥ t.resources.length
    · rw [if_pos h1] at hft; cases hft
    rw [if_neg h1] at hft
    by_cases h2 : c < 0
    · rw [if_pos h2] at hft; cases hft
    rw [if_neg h2] at hft
    cases hft
    have hi' := h i r j
    by_cases hi : i = k
    · subst hi
      have e2 : resList b i = t.resources := by unfold resList; rw [ht]; rfl
      rw [e2] at hi'
      rw [if_pos rfl]
      by_cases hr : r = m
      · subst hr
        rw [getD_modify_self _ _ _ (by omega), schedOf_add]
        by_cases hj : j = n
        · subst hj
          rw [if_pos rfl, hi']
          simp [consumptionGiven, writeAll_snoc]
        · rw [if_neg hj, hi']
          simp [consumptionGiven, hj]
      · rw [getD_modify_ne _ _ _ hr, hi']
        simp [consumptionGiven, hr]
    · rw [if_neg hi, hi']
      simp [consumptionGiven, hi]
  | setBinTypeCost k c =>
    change b.setBinTypeCost k c = .ok b' at hs
    unfold setBinTypeCost at hs
    refine keep hs (fun t t' e => ?_) (fun _ _ _ => rfl)
    split_ifs at e <;> cases e <;> rfl
  | addTrims k r =>
    change b.addTrims k r = .ok b' at hs
    unfold addTrims at hs
    refine keep hs (fun t t' e => ?_) (fun _ _ _ => rfl)
    split_ifs at e; cases e; rfl
  | addDefect k x y u v =>
    change b.addDefect k x y u v = .ok b' at hs
    unfold addDefect at hs
    refine keep hs (fun t t' e => ?_) (fun _ _ _ => rfl)
    cases e; rfl
  | setBinTypeCopies k c =>
    change b.setBinTypeCopies k c = .ok b' at hs
    unfold setBinTypeCopies at hs
    refine keep hs (fun t t' e => ?_) (fun _ _ _ => rfl)
    split_ifs at e; cases e; rfl
  | setBinTypeCopiesMin k c =>
    change b.setBinTypeCopiesMin k c = .ok b' at hs
    unfold setBinTypeCopiesMin at hs
    refine keep hs (fun t t' e => ?_) (fun _ _ _ => rfl)
    split_ifs at e; cases e; rfl
  | setItemTypeProfit k p =>
    change b.setItemTypeProfit k p = .ok b' at hs
    unfold setItemTypeProfit at hs
    exact itemCase hs (fun _ _ _ => rfl)
  | setItemTypeCopies k c =>
    change b.setItemTypeCopies k c = .ok b' at hs
    unfold setItemTypeCopies at hs
    exact itemCase hs (fun _ _ _ => rfl)
  | setItemTypeCopiesMin k c =>
    change b.setItemTypeCopiesMin k c = .ok b' at hs
    unfold setItemTypeCopiesMin at hs
    exact itemCase hs (fun _ _ _ => rfl)
  | setNumberOfStagesUnlimited => exact hp.elim
  | setPredefined _ => exact hp.elim
  | setBinTypesInfiniteX => exact hp.elim
  | setBinTypesInfiniteY => exact hp.elim
  | setBinTypesInfiniteCopies => exact hp.elim
  | setBinTypesUnweighted => exact hp.elim
  | setItemTypesUnweighted => exact hp.elim
  | setItemTypesOriented _ => exact hp.elim
  | setItemTypesInfiniteCopies => exact hp.elim
  | multiplyItemTypesCopies _ => exact hp.elim
  | addBinTypeFrom _ _ => exact hp.elim
  | addItemTypeFrom _ _ => exact hp.elim
theorem schedules_as_given (hp : ∀ op ∈ ops, Plain op) (h : ops.foldlM step (new o) = .ok b) :
    SchedulesAsGiven ops b := by
  induction ops using List.reverseRecOn generalizing b with
  | nil => cases h; intro i r j; rfl
  | append_singleton ops op ih =>
    rw [foldlM_snoc_ok] at h
    obtain ⟨b1, h1, h2⟩ := h
    exact schedules_step (ih (fun op' h' => hp op' (List.mem_append_left _ h')) h1)
      (hp op (by simp)) h2

end PackingSolver.Guil
