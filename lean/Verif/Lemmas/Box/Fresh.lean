import Verif.Model.Box.Builder
import Verif.Lemmas.Except
import Verif.Lemmas.OneDim.Fresh
import Mathlib.Data.List.GetD
import Mathlib.Algebra.Order.Field.Rat
import Mathlib.Tactic.Linarith

/-! Helper lemmas: what holds of the box instance under construction before `build`. -/

namespace PackingSolver.Box

open InstanceBuilder
open PackingSolver.OneDim (forall_mem_set forall_mem_modify getD_mem)

/-- Bin types before `build`. -/
structure BinFresh (t : BinType) : Prop where
  fixedItems : t.fixedItems = []
  copies : t.copies = -1 ∨ 0 < t.copies
  copiesMin : 0 ≤ t.copiesMin

/-- Item types before `build`. -/
structure ItemFresh (t : ItemType) : Prop where
  resourceIds : t.resourceIds = []
  copiesFixed : t.copiesFixed = 0
  copiesMin : -1 ≤ t.copiesMin
  x : 0 ≤ t.box.x
  y : 0 ≤ t.box.y
  z : 0 ≤ t.box.z

/-- No derived data yet. -/
structure Underived (inst : Instance) : Prop where
  numberOfItems : inst.numberOfItems = 0
  binTypeIds : inst.binTypeIds = []
  previousBinsVolume : inst.previousBinsVolume = []
  largestBinCost : inst.largestBinCost = 0
  itemVolume : inst.itemVolume = 0
  itemWeight : inst.itemWeight = 0
  itemProfit : inst.itemProfit = 0
  largestItemProfit : inst.largestItemProfit = 0
  largestItemCopies : inst.largestItemCopies = 0
  largestEfficiency : inst.largestEfficiencyItemTypeId = -1

/-- The instance before `build`. -/
structure BFresh (inst : Instance) : Prop where
  underived : Underived inst
  bins : ∀ t ∈ inst.binTypes, BinFresh t
  items : ∀ t ∈ inst.itemTypes, ItemFresh t

theorem fresh_new (o : Objective) : BFresh (InstanceBuilder.new o).inst :=
  ⟨⟨rfl, rfl, rfl, rfl, rfl, rfl, rfl, rfl, rfl, rfl⟩,
    by simp [InstanceBuilder.new], by simp [InstanceBuilder.new]⟩

theorem Underived.with {inst : Instance} (h : Underived inst) {o : Objective}
    {f : List PackedBin → Bool} {bins : List BinType} {its : List ItemType} {v : Int} :
    Underived { inst with objective := o, callback := f, binTypes := bins,
                          itemTypes := its, binVolume := v } :=
  ⟨h.1, h.2, h.3, h.4, h.5, h.6, h.7, h.8, h.9, h.10⟩

theorem BFresh.withBins {inst : Instance} (h : BFresh inst) {bins : List BinType}
    (hb : ∀ t ∈ bins, BinFresh t) : BFresh { inst with binTypes := bins } :=
  ⟨h.1.with, hb, h.items⟩

theorem BFresh.withItems {inst : Instance} (h : BFresh inst) {its : List ItemType}
    (hi : ∀ t ∈ its, ItemFresh t) : BFresh { inst with itemTypes := its } :=
  ⟨h.1.with, h.bins, hi⟩

theorem modifyBin_ok {b b' : InstanceBuilder} {id : Nat} {f : BinType → Except Err BinType}
    (h : b.modifyBin id f = .ok b') : id < b.inst.binTypes.length
      ∧ ∃ t, f (b.inst.binType id) = .ok t
        ∧ b' = { b with inst := { b.inst with binTypes := b.inst.binTypes.set id t } } := by
  unfold modifyBin at h
  by_cases hid : id ≥ b.inst.binTypes.length
  · rw [if_pos hid] at h; cases h
  · rw [if_neg hid] at h
    cases hf : f (b.inst.binType id) with
    | error e => rw [hf] at h; cases h
    | ok t => rw [hf] at h; cases h; exact ⟨by omega, t, rfl, rfl⟩

theorem modifyItem_ok {b b' : InstanceBuilder} {id : Nat} {f : ItemType → Except Err ItemType}
    (h : b.modifyItem id f = .ok b') : id < b.inst.itemTypes.length
      ∧ ∃ t, f (b.inst.itemType id) = .ok t
        ∧ b' = { b with inst := { b.inst with itemTypes := b.inst.itemTypes.set id t } } := by
  unfold modifyItem at h
  by_cases hid : id ≥ b.inst.itemTypes.length
  · rw [if_pos hid] at h; cases h
  · rw [if_neg hid] at h
    cases hf : f (b.inst.itemType id) with
    | error e => rw [hf] at h; cases h
    | ok t => rw [hf] at h; cases h; exact ⟨by omega, t, rfl, rfl⟩

theorem fresh_modifyBin {b b' : InstanceBuilder} {id : Nat} {f : BinType → Except Err BinType}
    (hF : BFresh b.inst) (hf : ∀ t t', BinFresh t → f t = .ok t' → BinFresh t')
    (h : b.modifyBin id f = .ok b') : BFresh b'.inst := by
  obtain ⟨hid, t, ht, rfl⟩ := modifyBin_ok h
  exact hF.withBins (forall_mem_set hF.bins (hf _ _ (hF.bins _ (getD_mem _ hid)) ht))

theorem fresh_modifyItem {b b' : InstanceBuilder} {id : Nat} {f : ItemType → Except Err ItemType}
    (hF : BFresh b.inst) (hf : ∀ t t', ItemFresh t → f t = .ok t' → ItemFresh t')
    (h : b.modifyItem id f = .ok b') : BFresh b'.inst := by
  obtain ⟨hid, t, ht, rfl⟩ := modifyItem_ok h
  exact hF.withItems (forall_mem_set hF.items (hf _ _ (hF.items _ (getD_mem _ hid)) ht))

theorem fresh_mapBins {inst : Instance} {f : BinType → BinType} (hF : BFresh inst)
    (hf : ∀ t, BinFresh t → BinFresh (f t)) :
    BFresh { inst with binTypes := inst.binTypes.map f } := by
  apply hF.withBins
  intro t ht
  obtain ⟨u, hu, rfl⟩ := List.mem_map.mp ht
  exact hf u (hF.bins u hu)

theorem fresh_mapItems {inst : Instance} {f : ItemType → ItemType} (hF : BFresh inst)
    (hf : ∀ t, ItemFresh t → ItemFresh (f t)) :
    BFresh { inst with itemTypes := inst.itemTypes.map f } := by
  apply hF.withItems
  intro t ht
  obtain ⟨u, hu, rfl⟩ := List.mem_map.mp ht
  exact hf u (hF.items u hu)

variable {b b' : InstanceBuilder}

theorem fresh_addBinType {x y z : Int} (hF : BFresh b.inst) (h : b.addBinType x y z = .ok b') :
    BFresh b'.inst := by
  unfold addBinType at h
  split_ifs at h with hx hy hz
  cases h
  apply hF.withBins
  intro t ht
  rcases List.mem_append.mp ht with h1 | h1
  · exact hF.bins t h1
  · rw [List.mem_singleton] at h1
    subst h1
    exact ⟨rfl, Or.inr (by norm_num), le_refl _⟩

theorem fresh_setBinTypeCost {id : Nat} {c : ℚ} (hF : BFresh b.inst)
    (h : b.setBinTypeCost id c = .ok b') : BFresh b'.inst := by
  refine fresh_modifyBin hF ?_ h
  intro t t' ht hc
  split_ifs at hc with h1 h2
  all_goals
    cases hc
    exact ⟨ht.1, ht.2, ht.3⟩

theorem fresh_setBinTypeMaximumWeight {id : Nat} {w : ExtQ} (hF : BFresh b.inst)
    (h : b.setBinTypeMaximumWeight id w = .ok b') : BFresh b'.inst := by
  refine fresh_modifyBin hF ?_ h
  intro t t' ht hc; cases hc
  exact ⟨ht.1, ht.2, ht.3⟩

theorem fresh_addBinTypeResource {id : Nat} {c : ℚ} {p : Bool} {q : ℚ} (hF : BFresh b.inst)
    (h : b.addBinTypeResource id c p q = .ok b') : BFresh b'.inst := by
  refine fresh_modifyBin hF ?_ h
  intro t t' ht hc; cases hc
  exact ⟨ht.1, ht.2, ht.3⟩

theorem fresh_addResourceConsumption {t r i : Nat} {c : Int} {q : ℚ} (hF : BFresh b.inst)
    (h : b.addResourceConsumption t r i c q = .ok b') : BFresh b'.inst := by
  refine fresh_modifyBin hF ?_ h
  intro t t' ht hc
  split_ifs at hc
  cases hc
  exact ⟨ht.1, ht.2, ht.3⟩

theorem fresh_setBinTypeCopies {id : Nat} {c : Int} (hF : BFresh b.inst)
    (h : b.setBinTypeCopies id c = .ok b') : BFresh b'.inst := by
  refine fresh_modifyBin hF ?_ h
  intro t t' ht hc
  split_ifs at hc with h1
  cases hc
  refine ⟨ht.1, ?_, ht.3⟩
  by_cases h2 : c = -1
  · exact Or.inl h2
  · right
    by_contra h3
    exact h1 ⟨h2, Or.inl (not_lt.mp h3)⟩

theorem fresh_setBinTypeCopiesMin {id : Nat} {c : Int} (hF : BFresh b.inst)
    (h : b.setBinTypeCopiesMin id c = .ok b') : BFresh b'.inst := by
  refine fresh_modifyBin hF ?_ h
  intro t t' ht hc
  split_ifs at hc with h1
  cases hc
  push Not at h1
  exact ⟨ht.1, ht.2, h1.1⟩

theorem fresh_addItemType {x y z : Int} (hF : BFresh b.inst)
    (h : b.addItemType x y z = .ok b') : BFresh b'.inst := by
  unfold addItemType at h
  split_ifs at h with hx hy hz
  cases h
  apply hF.withItems
  intro t ht
  rcases List.mem_append.mp ht with h1 | h1
  · exact hF.items t h1
  · rw [List.mem_singleton] at h1
    subst h1
    exact ⟨rfl, rfl, le_refl _, not_lt.mp hx, not_lt.mp hy, not_lt.mp hz⟩

theorem fresh_addItemTypeRotation {id : Nat} {r : Rotation} (hF : BFresh b.inst)
    (h : b.addItemTypeRotation id r = .ok b') : BFresh b'.inst := by
  refine fresh_modifyItem hF ?_ h
  intro t t' ht hc; cases hc
  exact ⟨ht.1, ht.2, ht.3, ht.4, ht.5, ht.6⟩

theorem fresh_setItemTypeWeight {id : Nat} {w : ℚ} (hF : BFresh b.inst)
    (h : b.setItemTypeWeight id w = .ok b') : BFresh b'.inst := by
  refine fresh_modifyItem hF ?_ h
  intro t t' ht hc; cases hc
  exact ⟨ht.1, ht.2, ht.3, ht.4, ht.5, ht.6⟩

theorem fresh_setItemTypeProfit {id : Nat} {w : ℚ} (hF : BFresh b.inst)
    (h : b.setItemTypeProfit id w = .ok b') : BFresh b'.inst := by
  refine fresh_modifyItem hF ?_ h
  intro t t' ht hc; cases hc
  exact ⟨ht.1, ht.2, ht.3, ht.4, ht.5, ht.6⟩

theorem fresh_setItemTypeCopies {id : Nat} {c : Int} (hF : BFresh b.inst)
    (h : b.setItemTypeCopies id c = .ok b') : BFresh b'.inst := by
  refine fresh_modifyItem hF ?_ h
  intro t t' ht hc
  split_ifs at hc
  cases hc
  exact ⟨ht.1, ht.2, ht.3, ht.4, ht.5, ht.6⟩

theorem fresh_setItemTypeCopiesMin {id : Nat} {c : Int} (hF : BFresh b.inst)
    (h : b.setItemTypeCopiesMin id c = .ok b') : BFresh b'.inst := by
  refine fresh_modifyItem hF ?_ h
  intro t t' ht hc
  split_ifs at hc with h1
  cases hc
  exact ⟨ht.1, ht.2, not_lt.mp h1, ht.4, ht.5, ht.6⟩

theorem fresh_setItemTypesInfiniteCopies (hF : BFresh b.inst)
    (h : b.setItemTypesInfiniteCopies = .ok b') : BFresh b'.inst := by
  unfold setItemTypesInfiniteCopies at h
  split_ifs at h
  cases h
  exact fresh_mapItems hF fun t ht => ⟨ht.1, ht.2, ht.3, ht.4, ht.5, ht.6⟩

theorem fresh_setItemTypesProfitsAuto (hF : BFresh b.inst)
    (h : b.setItemTypesProfitsAuto = .ok b') : BFresh b'.inst := by
  unfold setItemTypesProfitsAuto at h
  dsimp only at h
  split_ifs at h
  cases h
  exact fresh_mapItems (inst := { b.inst with binVolume := totalBinVolume b.inst })
    ⟨hF.1.with, hF.2, hF.3⟩ fun t ht => ⟨ht.1, ht.2, ht.3, ht.4, ht.5, ht.6⟩

theorem fresh_writeSchedule {t r i : Nat} {sch : List ℚ} (hF : BFresh b.inst)
    (h : b.writeSchedule t r i sch = .ok b') : BFresh b'.inst :=
  foldlM_inv (fun b => BFresh b.inst) hF
    (fun _ _ _ _ ha hs => fresh_addResourceConsumption ha hs) h

theorem fresh_copyConsumptions {orig : Instance} {i j : Nat} (hF : BFresh b.inst)
    (h : b.copyConsumptions orig i j = .ok b') : BFresh b'.inst := by
  refine foldlM_inv (fun b => BFresh b.inst) hF ?_ h
  intro x a c _ ha hs
  dsimp only at hs
  cases ho : a.origToSubBin.getD x none with
  | none => rw [ho] at hs; cases hs; exact ha
  | some y =>
    rw [ho] at hs
    simp only at hs
    split_ifs at hs
    refine foldlM_inv (fun b => BFresh b.inst) ha ?_ hs
    intro x' a' c' _ ha' hs'
    split_ifs at hs' with h1
    · cases hs'; exact ha'
    · exact fresh_writeSchedule ha' hs'

theorem fresh_addBinTypeFrom {orig : Instance} {i : Nat} (hF : BFresh b.inst)
    (h : b.addBinTypeFrom orig i = .ok b') : BFresh b'.inst := by
  unfold addBinTypeFrom at h
  split_ifs at h with h1
  obtain ⟨b1, h1, h⟩ := bind_ok.mp h
  obtain ⟨b2, h2, h⟩ := bind_ok.mp h
  obtain ⟨b3, h3, h⟩ := bind_ok.mp h
  obtain ⟨b4, h4, h⟩ := bind_ok.mp h
  obtain ⟨b5, h5, h⟩ := bind_ok.mp h
  have f1 := fresh_addBinType hF h1
  have f2 : BFresh b2.inst := fresh_setBinTypeCost (b := { b1 with
    origToSubBin := (growTo none (i + 1) b1.origToSubBin).set i (some b.inst.binTypes.length) })
    f1 h2
  have f3 := fresh_setBinTypeCopies f2 h3
  have f4 := fresh_setBinTypeCopiesMin f3 h4
  have f5 := fresh_setBinTypeMaximumWeight f4 h5
  exact foldlM_inv (fun b => BFresh b.inst) f5
    (fun _ _ _ _ ha hs => fresh_addBinTypeResource ha hs) h

theorem fresh_addItemTypeFrom {orig : Instance} {i : Nat} (hF : BFresh b.inst)
    (h : b.addItemTypeFrom orig i = .ok b') : BFresh b'.inst := by
  unfold addItemTypeFrom at h
  split_ifs at h with h1
  obtain ⟨b1, h1, h⟩ := bind_ok.mp h
  obtain ⟨b2, h2, h⟩ := bind_ok.mp h
  obtain ⟨b3, h3, h⟩ := bind_ok.mp h
  obtain ⟨b4, h4, h⟩ := bind_ok.mp h
  obtain ⟨b5, h5, h⟩ := bind_ok.mp h
  have f1 := fresh_addItemType hF h1
  have f2 : BFresh b2.inst := foldlM_inv (fun b => BFresh b.inst) f1
    (fun _ _ _ _ ha hs => fresh_addItemTypeRotation ha hs) h2
  have f3 : BFresh b3.inst := fresh_setItemTypeProfit
    (b := { b2 with
      origToSubItem := (growTo none (i + 1) b2.origToSubItem).set i (some b.inst.itemTypes.length) })
    f2 h3
  have f4 := fresh_setItemTypeCopies f3 h4
  have f5 := fresh_setItemTypeWeight f4 h5
  exact fresh_copyConsumptions f5 h

theorem fresh_step {op : Op} (hF : BFresh b.inst) (h : b.step op = .ok b') : BFresh b'.inst := by
  cases op with
  | setObjective o => cases h; exact ⟨hF.1.with, hF.2, hF.3⟩
  | setCallback f => cases h; exact ⟨hF.1.with, hF.2, hF.3⟩
  | addBinType x y z => exact fresh_addBinType hF h
  | setBinTypeCost i c => exact fresh_setBinTypeCost hF h
  | setBinTypeMaximumWeight i w => exact fresh_setBinTypeMaximumWeight hF h
  | addBinTypeResource i c p q => exact fresh_addBinTypeResource hF h
  | addResourceConsumption t r i c q => exact fresh_addResourceConsumption hF h
  | setBinTypeCopies i c => exact fresh_setBinTypeCopies hF h
  | setBinTypeCopiesMin i c => exact fresh_setBinTypeCopiesMin hF h
  | setBinTypesInfiniteX =>
    cases h; exact fresh_mapBins hF fun t ht => ⟨ht.1, ht.2, ht.3⟩
  | setBinTypesInfiniteY =>
    cases h; exact fresh_mapBins hF fun t ht => ⟨ht.1, ht.2, ht.3⟩
  | setBinTypesInfiniteCopies =>
    cases h; exact fresh_mapBins hF fun t ht => ⟨ht.1, Or.inl rfl, ht.3⟩
  | setBinTypesUnweighted =>
    cases h; exact fresh_mapBins hF fun t ht => ⟨ht.1, ht.2, ht.3⟩
  | addItemTypeRotation i r => exact fresh_addItemTypeRotation hF h
  | addItemType x y z => exact fresh_addItemType hF h
  | setItemTypeWeight i w => exact fresh_setItemTypeWeight hF h
  | setItemTypeProfit i p => exact fresh_setItemTypeProfit hF h
  | setItemTypeCopies i c => exact fresh_setItemTypeCopies hF h
  | setItemTypeCopiesMin i c => exact fresh_setItemTypeCopiesMin hF h
  | setItemTypesUnweighted =>
    cases h; exact fresh_mapItems hF fun t ht => ⟨ht.1, ht.2, ht.3, ht.4, ht.5, ht.6⟩
  | setItemTypesOriented =>
    cases h; exact fresh_mapItems hF fun t ht => ⟨ht.1, ht.2, ht.3, ht.4, ht.5, ht.6⟩
  | setItemTypesProfitsAuto => exact fresh_setItemTypesProfitsAuto hF h
  | setItemTypesInfiniteCopies => exact fresh_setItemTypesInfiniteCopies hF h
  | addBinTypeFrom o i => exact fresh_addBinTypeFrom hF h
  | addItemTypeFrom o i => exact fresh_addItemTypeFrom hF h

theorem fresh_ops {o : Objective} {ops : List Op} (h : ops.foldlM step (new o) = .ok b) : BFresh b.inst :=
  foldlM_inv (fun b => BFresh b.inst) (fresh_new o) (fun _ _ _ _ ha hs => fresh_step ha hs) h

end PackingSolver.Box
