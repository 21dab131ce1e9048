import Verif.Lemmas.Consumption
import Verif.Lemmas.Except
import Verif.Spec.BoxDescribe

/-!
# Helper lemmas: types under construction follow their descriptions
-/

namespace PackingSolver.Box

open Box.Spec InstanceBuilder
open PackingSolver.Spec (lastGiven allGiven consumptionOf)

variable {o : Objective} {ops : List Op} {b b' : InstanceBuilder}

theorem modifyBin_set {id : Nat} {f : BinType → Except Err BinType} (h : b.modifyBin id f = .ok b') :
    ∃ t t', b.inst.binTypes[id]? = some t ∧ f t = .ok t'
      ∧ b' = { b with inst := { b.inst with binTypes := b.inst.binTypes.set id t' } } := by
  unfold modifyBin at h
  by_cases hc : id ≥ b.inst.binTypes.length
  · rw [if_pos hc] at h; cases h
  · rw [if_neg hc] at h
    have hlt : id < b.inst.binTypes.length := by omega
    refine ⟨b.inst.binTypes[id], ?_⟩
    have e : b.inst.binType id = b.inst.binTypes[id] := by
      simp [Instance.binType, List.getD_eq_getElem?_getD, hlt]
    rw [e] at h
    cases ht : f b.inst.binTypes[id] with
    | error e => rw [ht] at h; cases h
    | ok t' => rw [ht] at h; cases h; exact ⟨t', by simp [hlt], rfl, rfl⟩

theorem modifyItem_set {id : Nat} {f : ItemType → Except Err ItemType}
    (h : b.modifyItem id f = .ok b') :
    ∃ t t', b.inst.itemTypes[id]? = some t ∧ f t = .ok t'
      ∧ b' = { b with inst := { b.inst with itemTypes := b.inst.itemTypes.set id t' } } := by
  unfold modifyItem at h
  by_cases hc : id ≥ b.inst.itemTypes.length
  · rw [if_pos hc] at h; cases h
  · rw [if_neg hc] at h
    have hlt : id < b.inst.itemTypes.length := by omega
    refine ⟨b.inst.itemTypes[id], ?_⟩
    have e : b.inst.itemType id = b.inst.itemTypes[id] := by
      simp [Instance.itemType, List.getD_eq_getElem?_getD, hlt]
    rw [e] at h
    cases ht : f b.inst.itemTypes[id] with
    | error e => rw [ht] at h; cases h
    | ok t' => rw [ht] at h; cases h; exact ⟨t', by simp [hlt], rfl, rfl⟩

/-- The change of bin type `i` made by a call. -/
def binUpd : Op → Nat → Option (BinType → BinType)
  | .setBinTypeCost k c, i => if i = k then some (fun t => { t with
      cost := if c = -1 then ((t.box.x * t.box.y : Int) : ℚ) else c }) else none
  | .setBinTypeMaximumWeight k w, i => if i = k then some (fun t => { t with maximumWeight := w }) else none
  | .addBinTypeResource k c p q, i => if i = k then some (fun t => { t with
      resources := t.resources ++ [{ capacity := c, penalize := p, penalty := q }] }) else none
  | .addResourceConsumption k r j c q, i => if i = k then some (fun t => { t with
      resources := t.resources.modify r (fun x => x.addConsumption j c.toNat q) }) else none
  | .setBinTypeCopies k c, i => if i = k then some (fun t => { t with copies := c }) else none
  | .setBinTypeCopiesMin k c, i => if i = k then some (fun t => { t with copiesMin := c }) else none
  | _, _ => none

/-- A new bin type. -/
def describedBin (d : Dims) : BinType :=
  { box := d, cost := ((d.x * d.y : Int) : ℚ), copies := 1, copiesMin := 0 }

/-- The change of item type `i` made by a call. -/
def itemUpd : Op → Nat → Option (ItemType → ItemType)
  | .addItemTypeRotation k r, i => if i = k then some (fun t => { t with rotations := t.rotations ++ [r] }) else none
  | .setItemTypeWeight k w, i => if i = k then some (fun t => { t with weight := w }) else none
  | .setItemTypeProfit k p, i => if i = k then some (fun t => { t with profit := p }) else none
  | .setItemTypeCopies k c, i => if i = k then some (fun t => { t with copies := c }) else none
  | .setItemTypeCopiesMin k c, i => if i = k then some (fun t => { t with copiesMin := c }) else none
  | _, _ => none

/-- A new item type. -/
def describedItem (d : Dims) : ItemType :=
  { box := d, profit := ((d.x * d.y * d.z : Int) : ℚ), copies := 1, copiesMin := -1 }

/-- The builder after a history of plain calls. -/
structure BuilderAsGiven (o : Objective) (ops : List Op) (b : InstanceBuilder) : Prop where
  bins : Described binAdded binUpd describedBin ops b.inst.binTypes
  items : Described itemAdded itemUpd describedItem ops b.inst.itemTypes
  objective : b.inst.objective = (lastGiven objectiveGiven ops).getD o
  callback : b.inst.callback = (lastGiven callbackGiven ops).getD (new o).inst.callback

theorem asGiven_bin (h : BuilderAsGiven o ops b) {op : Op} {id : Nat}
    {f : BinType → Except Err BinType} {g : BinType → BinType}
    (hs : b.modifyBin id f = .ok b') (hf : ∀ t t', f t = .ok t' → t' = g t)
    (h1 : binAdded op = none) (h2 : ∀ i, binUpd op i = if i = id then some g else none)
    (h3 : itemAdded op = none) (h4 : ∀ i, itemUpd op i = none) (h5 : objectiveGiven op = none)
    (h6 : callbackGiven op = none) : BuilderAsGiven o (ops ++ [op]) b' := by
  obtain ⟨t, t', ht, hft, rfl⟩ := modifyBin_set hs
  rw [hf t t' hft]
  exact ⟨described_set h.bins h1 h2 ht, described_skip h.items h3 h4,
    by rw [lastGiven_snoc, h5]; exact h.objective, by rw [lastGiven_snoc, h6]; exact h.callback⟩

theorem asGiven_item (h : BuilderAsGiven o ops b) {op : Op} {id : Nat}
    {f : ItemType → Except Err ItemType} {g : ItemType → ItemType}
    (hs : b.modifyItem id f = .ok b') (hf : ∀ t t', f t = .ok t' → t' = g t)
    (h1 : itemAdded op = none) (h2 : ∀ i, itemUpd op i = if i = id then some g else none)
    (h3 : binAdded op = none) (h4 : ∀ i, binUpd op i = none) (h5 : objectiveGiven op = none)
    (h6 : callbackGiven op = none) : BuilderAsGiven o (ops ++ [op]) b' := by
  obtain ⟨t, t', ht, hft, rfl⟩ := modifyItem_set hs
  rw [hf t t' hft]
  exact ⟨described_skip h.bins h3 h4, described_set h.items h1 h2 ht,
    by rw [lastGiven_snoc, h5]; exact h.objective, by rw [lastGiven_snoc, h6]; exact h.callback⟩

theorem asGiven_step (h : BuilderAsGiven o ops b) {op : Op} (hp : Plain op)
    (hs : step b op = .ok b') : BuilderAsGiven o (ops ++ [op]) b' := by
  have ok_inj : ∀ {α : Type} (g : α → α) (t t' : α), (Except.ok (g t) : Except Err α) = .ok t' →
      t' = g t := fun g t t' e => by cases e; rfl
  have ite_inj : ∀ {α : Type} (g : α → α) (c : α → Prop) [∀ t, Decidable (c t)] (t t' : α),
      (if c t then .error .invalidArgument else Except.ok (g t) : Except Err α) = .ok t' →
      t' = g t := by
    intro α g c _ t t' e
    by_cases hc : c t
    · rw [if_pos hc] at e; cases e
    · rw [if_neg hc] at e; cases e; rfl
  cases op with
  | setObjective o' =>
    cases hs
    exact ⟨described_skip h.bins rfl (fun _ => rfl), described_skip h.items rfl (fun _ => rfl),
      by rw [lastGiven_snoc]; rfl, by rw [lastGiven_snoc]; exact h.callback⟩
  | setCallback f =>
    cases hs
    exact ⟨described_skip h.bins rfl (fun _ => rfl), described_skip h.items rfl (fun _ => rfl),
      by rw [lastGiven_snoc]; exact h.objective, by rw [lastGiven_snoc]; rfl⟩
  | addBinType x y z =>
    change b.addBinType x y z = .ok b' at hs
    unfold addBinType at hs
    split_ifs at hs
    cases hs
    exact ⟨described_add (d := ⟨x, y, z⟩) h.bins rfl (fun _ => rfl),
      described_skip h.items rfl (fun _ => rfl),
      by rw [lastGiven_snoc]; exact h.objective, by rw [lastGiven_snoc]; exact h.callback⟩
  | setBinTypeCost k c =>
    change b.setBinTypeCost k c = .ok b' at hs
    unfold setBinTypeCost at hs
    exact asGiven_bin h hs (ite_inj _ _) rfl (fun _ => rfl) rfl (fun _ => rfl) rfl rfl
  | setBinTypeMaximumWeight k w =>
    change b.setBinTypeMaximumWeight k w = .ok b' at hs
    unfold setBinTypeMaximumWeight at hs
    exact asGiven_bin h hs (ok_inj _) rfl (fun _ => rfl) rfl (fun _ => rfl) rfl rfl
  | addBinTypeResource k c p q =>
    change b.addBinTypeResource k c p q = .ok b' at hs
    unfold addBinTypeResource at hs
    exact asGiven_bin h hs (ok_inj _) rfl (fun _ => rfl) rfl (fun _ => rfl) rfl rfl
  | addResourceConsumption k r j c q =>
    change b.addResourceConsumption k r j c q = .ok b' at hs
    unfold addResourceConsumption at hs
    refine asGiven_bin h hs (fun t t' e => ?_) rfl (fun _ => rfl) rfl (fun _ => rfl) rfl rfl
    by_cases h1 : r ≥ t.resources.length
    · rw [if_pos h1] at e; cases e
    · rw [if_neg h1] at e
      by_cases h2 : c < 0
      · rw [if_pos h2] at e; cases e
      · rw [if_neg h2] at e; cases e; rfl
  | setBinTypeCopies k c =>
    change b.setBinTypeCopies k c = .ok b' at hs
    unfold setBinTypeCopies at hs
    exact asGiven_bin h hs (ite_inj _ _) rfl (fun _ => rfl) rfl (fun _ => rfl) rfl rfl
  | setBinTypeCopiesMin k c =>
    change b.setBinTypeCopiesMin k c = .ok b' at hs
    unfold setBinTypeCopiesMin at hs
    exact asGiven_bin h hs (ite_inj _ _) rfl (fun _ => rfl) rfl (fun _ => rfl) rfl rfl
  | addItemType x y z =>
    change b.addItemType x y z = .ok b' at hs
    unfold addItemType at hs
    split_ifs at hs
    cases hs
    exact ⟨described_skip h.bins rfl (fun _ => rfl),
      described_add (d := ⟨x, y, z⟩) h.items rfl (fun _ => rfl),
      by rw [lastGiven_snoc]; exact h.objective, by rw [lastGiven_snoc]; exact h.callback⟩
  | addItemTypeRotation k r =>
    change b.addItemTypeRotation k r = .ok b' at hs
    unfold addItemTypeRotation at hs
    exact asGiven_item h hs (ok_inj _) rfl (fun _ => rfl) rfl (fun _ => rfl) rfl rfl
  | setItemTypeWeight k w =>
    change b.setItemTypeWeight k w = .ok b' at hs
    unfold setItemTypeWeight at hs
    exact asGiven_item h hs (ok_inj _) rfl (fun _ => rfl) rfl (fun _ => rfl) rfl rfl
  | setItemTypeProfit k p =>
    change b.setItemTypeProfit k p = .ok b' at hs
    unfold setItemTypeProfit at hs
    exact asGiven_item h hs (ok_inj _) rfl (fun _ => rfl) rfl (fun _ => rfl) rfl rfl
  | setItemTypeCopies k c =>
    change b.setItemTypeCopies k c = .ok b' at hs
    unfold setItemTypeCopies at hs
    exact asGiven_item h hs (ite_inj _ _) rfl (fun _ => rfl) rfl (fun _ => rfl) rfl rfl
  | setItemTypeCopiesMin k c =>
    change b.setItemTypeCopiesMin k c = .ok b' at hs
    unfold setItemTypeCopiesMin at hs
    exact asGiven_item h hs (ite_inj _ _) rfl (fun _ => rfl) rfl (fun _ => rfl) rfl rfl
  | setBinTypesInfiniteX => exact hp.elim
  | setBinTypesInfiniteY => exact hp.elim
  | setBinTypesInfiniteCopies => exact hp.elim
  | setBinTypesUnweighted => exact hp.elim
  | setItemTypesUnweighted => exact hp.elim
  | setItemTypesOriented => exact hp.elim
  | setItemTypesProfitsAuto => exact hp.elim
  | setItemTypesInfiniteCopies => exact hp.elim
  | addBinTypeFrom _ _ => exact hp.elim
  | addItemTypeFrom _ _ => exact hp.elim

theorem asGiven (hp : ∀ op ∈ ops, Plain op) (h : ops.foldlM step (new o) = .ok b) :
    BuilderAsGiven o ops b := by
  induction ops using List.reverseRecOn generalizing b with
  | nil =>
    cases h
    exact ⟨described_nil, described_nil, rfl, rfl⟩
  | append_singleton ops op ih =>
    rw [foldlM_snoc_ok] at h
    obtain ⟨b1, h1, h2⟩ := h
    exact asGiven_step (ih (fun op' h' => hp op' (List.mem_append_left _ h')) h1)
      (hp op (by simp)) h2

/-- An attribute of a bin type that keeps the value given last. -/
theorem bin_last {α : Type} (A : BinType → α) (g : Op → Option α) (i : Nat) (d : Dims)
    (h : ∀ op f, binUpd op i = some f → ∀ t, t.box = d → (f t).box = t.box ∧ A (f t) = (g op).getD (A t))
    (h0 : ∀ op, binUpd op i = none → g op = none) (ops : List Op) :
    A (entryOf binUpd describedBin ops i d) = (lastGiven g ops).getD (A (describedBin d)) :=
  (entryOf_last A g (fun t => t.box = d) i d rfl
    (fun op f hf t ht => ⟨(h op f hf t ht).1.trans ht, (h op f hf t ht).2⟩) h0 ops).2

/-- An attribute of an item type that keeps the value given last. -/
theorem item_last {α : Type} (A : ItemType → α) (g : Op → Option α) (i : Nat) (d : Dims)
    (h : ∀ op f, itemUpd op i = some f → ∀ t, A (f t) = (g op).getD (A t))
    (h0 : ∀ op, itemUpd op i = none → g op = none) (ops : List Op) :
    A (entryOf itemUpd describedItem ops i d) = (lastGiven g ops).getD (A (describedItem d)) :=
  (entryOf_last A g (fun _ => True) i d trivial
    (fun op f hf t _ => ⟨trivial, h op f hf t⟩) h0 ops).2

/-! ## Consumptions -/

/-- The resources of bin type `i` (none if there is no such bin type). -/
def resList (b : InstanceBuilder) (i : Nat) : List Resource :=
  ((b.inst.binTypes[i]?).map (·.resources)).getD []

theorem resList_modifyBin {id : Nat} {f : BinType → Except Err BinType}
    (hs : b.modifyBin id f = .ok b') (i : Nat) :
    ∃ t t', b.inst.binTypes[id]? = some t ∧ f t = .ok t'
      ∧ resList b' i = if i = id then t'.resources else resList b i := by
  obtain ⟨t, t', ht, hf, rfl⟩ := modifyBin_set hs
  refine ⟨t, t', ht, hf, ?_⟩
  have hl : id < b.inst.binTypes.length := by
    by_contra hc
    rw [List.getElem?_eq_none (by omega)] at ht
    cases ht
  unfold resList
  rw [List.getElem?_set]
  by_cases hi : i = id
  · subst hi; rw [if_pos rfl, if_pos hl, if_pos rfl]; rfl
  · rw [if_neg (fun e => hi e.symm), if_neg hi]

/-- A call that keeps the resources of the type it concerns. -/
theorem resList_keep {id : Nat} {f : BinType → Except Err BinType} (hs : b.modifyBin id f = .ok b')
    (hf : ∀ t t', f t = .ok t' → t'.resources = t.resources) (i : Nat) : resList b' i = resList b i := by
  obtain ⟨t, t', ht, hft, e⟩ := resList_modifyBin hs i
  rw [e]
  by_cases hi : i = id
  · subst hi; rw [if_pos rfl, hf t t' hft]; unfold resList; rw [ht]; rfl
  · rw [if_neg hi]

theorem resList_item {id : Nat} {f : ItemType → Except Err ItemType} (hs : b.modifyItem id f = .ok b')
    (i : Nat) : resList b' i = resList b i := by
  obtain ⟨t, t', -, -, rfl⟩ := modifyItem_set hs; rfl

/-- The schedules of a builder are those written by the consumptions given. -/
def SchedulesAsGiven (ops : List Op) (b : InstanceBuilder) : Prop :=
  ∀ i r j, schedOf ((resList b i).getD r {}) j = writeAll (allGiven (consumptionGiven i r j) ops)

theorem schedules_keep (h : SchedulesAsGiven ops b) {op : Op}
    (hs : ∀ i r j, schedOf ((resList b' i).getD r {}) j = schedOf ((resList b i).getD r {}) j)
    (hg : ∀ i r j, consumptionGiven i r j op = none) : SchedulesAsGiven (ops ++ [op]) b' := by
  intro i r j
  rw [allGiven_snoc, hg, hs, h i r j]
  simp

theorem schedules_step (h : SchedulesAsGiven ops b) {op : Op} (hp : Plain op)
    (hs : step b op = .ok b') : SchedulesAsGiven (ops ++ [op]) b' := by
  have keep : ∀ {id : Nat} {f : BinType → Except Err BinType}, b.modifyBin id f = .ok b' →
      (∀ t t', f t = .ok t' → t'.resources = t.resources) →
      (∀ i r j, consumptionGiven i r j op = none) → SchedulesAsGiven (ops ++ [op]) b' :=
    fun hm hf hg => schedules_keep h (fun i r j => by rw [resList_keep hm hf i]) hg
  have itemCase : ∀ {id : Nat} {f : ItemType → Except Err ItemType}, b.modifyItem id f = .ok b' →
      (∀ i r j, consumptionGiven i r j op = none) → SchedulesAsGiven (ops ++ [op]) b' :=
    fun hm hg => schedules_keep h (fun i r j => by rw [resList_item hm i]) hg
  have same : (∀ i, resList b' i = resList b i) →
      (∀ i r j, consumptionGiven i r j op = none) → SchedulesAsGiven (ops ++ [op]) b' :=
    fun hm hg => schedules_keep h (fun i r j => by rw [hm i]) hg
  cases op with
  | setObjective o' => cases hs; exact same (fun _ => rfl) (fun _ _ _ => rfl)
  | setCallback f => cases hs; exact same (fun _ => rfl) (fun _ _ _ => rfl)
  | addBinType x y z =>
    change b.addBinType x y z = .ok b' at hs
    unfold addBinType at hs
    split_ifs at hs
    cases hs
    refine same (fun i => ?_) (fun _ _ _ => rfl)
    unfold resList
    simp only [List.getElem?_append]
    by_cases hi : i < b.inst.binTypes.length
    · rw [if_pos hi]
    · rw [if_neg hi, List.getElem?_eq_none (by omega : b.inst.binTypes.length ≤ i)]
      cases hk : i - b.inst.binTypes.length <;> simp
  | addItemType x y z =>
    change b.addItemType x y z = .ok b' at hs
    unfold addItemType at hs
    split_ifs at hs
    cases hs
    exact same (fun _ => rfl) (fun _ _ _ => rfl)
  | addBinTypeResource k c p q =>
    change b.addBinTypeResource k c p q = .ok b' at hs
    unfold addBinTypeResource at hs
    refine schedules_keep h (fun i r j => ?_) (fun _ _ _ => rfl)
    obtain ⟨t, t', ht, hft, e⟩ := resList_modifyBin hs i
    cases hft
    rw [e]
    by_cases hi : i = k
    · subst hi
      rw [if_pos rfl]
      have e2 : resList b i = t.resources := by unfold resList; rw [ht]; rfl
      rw [e2, List.getD_eq_getElem?_getD, List.getD_eq_getElem?_getD, List.getElem?_append]
      by_cases hr : r < t.resources.length
      · rw [if_pos hr]
      · rw [if_neg hr, List.getElem?_eq_none (by omega : t.resources.length ≤ r)]
        cases hk : r - t.resources.length <;> simp [schedOf]
    · rw [if_neg hi]
  | addResourceConsumption k m n c q =>
    change b.addResourceConsumption k m n c q = .ok b' at hs
    unfold addResourceConsumption at hs
    intro i r j
    obtain ⟨t, t', ht, hft, e⟩ := resList_modifyBin hs i
    rw [allGiven_snoc, e]
    by_cases h1 : m ≥ t.resources.length
    · rw [if_pos h1] at hft; cases hft
    rw [if_neg h1] at hft
    by_cases h2 : c < 0
    · rw [if_pos h2] at hft; cases hft
    rw [if_neg h2] at hft
    cases hft
    have hi' := h i r j
    by_cases hi : i = k
    · subst hi
      have e2 : resList b i = t.resources := by unfold resList; rw [ht]; rfl
      rw [e2] at hi'
      rw [if_pos rfl]
      by_cases hr : r = m
      · subst hr
        rw [getD_modify_self _ _ _ (by omega), schedOf_add]
        by_cases hj : j = n
        · subst hj
          rw [if_pos rfl, hi']
          simp [consumptionGiven, writeAll_snoc]
        · rw [if_neg hj, hi']
          simp [consumptionGiven, hj]
      · rw [getD_modify_ne _ _ _ hr, hi']
        simp [consumptionGiven, hr]
    · rw [if_neg hi, hi']
      simp [consumptionGiven, hi]
  | setBinTypeCost k c =>
    change b.setBinTypeCost k c = .ok b' at hs
    unfold setBinTypeCost at hs
    refine keep hs (fun t t' e => ?_) (fun _ _ _ => rfl)
    split_ifs at e <;> cases e <;> rfl
  | setBinTypeMaximumWeight k w =>
    change b.setBinTypeMaximumWeight k w = .ok b' at hs
    unfold setBinTypeMaximumWeight at hs
    refine keep hs (fun t t' e => ?_) (fun _ _ _ => rfl)
    cases e; rfl
  | setBinTypeCopies k c =>
    change b.setBinTypeCopies k c = .ok b' at hs
    unfold setBinTypeCopies at hs
    refine keep hs (fun t t' e => ?_) (fun _ _ _ => rfl)
    split_ifs at e; cases e; rfl
  | setBinTypeCopiesMin k c =>
    change b.setBinTypeCopiesMin k c = .ok b' at hs
    unfold setBinTypeCopiesMin at hs
    refine keep hs (fun t t' e => ?_) (fun _ _ _ => rfl)
    split_ifs at e; cases e; rfl
  | addItemTypeRotation k r =>
    change b.addItemTypeRotation k r = .ok b' at hs
    unfold addItemTypeRotation at hs
    exact itemCase hs (fun _ _ _ => rfl)
  | setItemTypeWeight k w =>
    change b.setItemTypeWeight k w = .ok b' at hs
    unfold setItemTypeWeight at hs
    exact itemCase hs (fun _ _ _ => rfl)
  | setItemTypeProfit k p =>
    change b.setItemTypeProfit k p = .ok b' at hs
    unfold setItemTypeProfit at hs
    exact itemCase hs (fun _ _ _ => rfl)
  | setItemTypeCopies k c =>
    change b.setItemTypeCopies k c = .ok b' at hs
    unfold setItemTypeCopies at hs
    exact itemCase hs (fun _ _ _ => rfl)
  | setItemTypeCopiesMin k c =>
    change b.setItemTypeCopiesMin k c = .ok b' at hs
    unfold setItemTypeCopiesMin at hs
    exact itemCase hs (fun _ _ _ => rfl)
  | setBinTypesInfiniteX => exact hp.elim
  | setBinTypesInfiniteY => exact hp.elim
  | setBinTypesInfiniteCopies => exact hp.elim
  | setBinTypesUnweighted => exact hp.elim
  | setItemTypesUnweighted => exact hp.elim
  | setItemTypesOriented => exact hp.elim
  | setItemTypesProfitsAuto => exact hp.elim
  | setItemTypesInfiniteCopies => exact hp.elim
  | addBinTypeFrom _ _ => exact hp.elim
  | addItemTypeFrom _ _ => exact hp.elim
theorem schedules_as_given (hp : ∀ op ∈ ops, Plain op) (h : ops.foldlM step (new o) = .ok b) :
    SchedulesAsGiven ops b := by
  induction ops using List.reverseRecOn generalizing b with
  | nil => cases h; intro i r j; rfl
  | append_singleton ops op ih =>
    rw [foldlM_snoc_ok] at h
    obtain ⟨b1, h1, h2⟩ := h
    exact schedules_step (ih (fun op' h' => hp op' (List.mem_append_left _ h')) h1)
      (hp op (by simp)) h2

end PackingSolver.Box
