import Verif.Model.Guil.Builder
import Verif.Lemmas.Except
import Verif.Lemmas.OneDim.Fresh
import Mathlib.Data.List.GetD
import Mathlib.Algebra.Order.Field.Rat
import Mathlib.Tactic.Linarith

/-! Helper lemmas: what holds of the guillotine instance under construction before `build`. -/

namespace PackingSolver.Guil

open InstanceBuilder
open PackingSolver.OneDim (forall_mem_set forall_mem_modify getD_mem)

/-- Bin types before `build`. -/
structure BinFresh (t : BinType) : Prop where
  fixedItems : t.fixedItems = []
  copies : t.copies = -1 ∨ 0 < t.copies
  copiesMin : 0 ≤ t.copiesMin

/-- Item types before `build`. -/
structure ItemFresh (t : ItemType) : Prop where
  resourceIds : t.resourceIds = []
  copiesFixed : t.copiesFixed = 0
  copiesMin : -1 ≤ t.copiesMin
  w : 0 ≤ t.w
  h : 0 ≤ t.h

/-- No derived data yet. -/
structure Underived (inst : Instance) : Prop where
  numberOfItems : inst.numberOfItems = 0
  binTypeIds : inst.binTypeIds = []
  previousBinsArea : inst.previousBinsArea = []
  largestBinCost : inst.largestBinCost = 0
  numberOfDefects : inst.numberOfDefects = 0
  itemArea : inst.itemArea = 0
  itemProfit : inst.itemProfit = 0
  largestItemProfit : inst.largestItemProfit = 0
  largestItemCopies : inst.largestItemCopies = 0
  largestEfficiency : inst.largestEfficiencyItemTypeId = -1

/-- The instance before `build`. -/
structure BFresh (inst : Instance) : Prop where
  underived : Underived inst
  bins : ∀ t ∈ inst.binTypes, BinFresh t
  items : ∀ t ∈ inst.itemTypes, ItemFresh t

theorem fresh_new (o : Objective) : BFresh (InstanceBuilder.new o).inst :=
  ⟨⟨rfl, rfl, rfl, rfl, rfl, rfl, rfl, rfl, rfl, rfl⟩,
    by simp [InstanceBuilder.new], by simp [InstanceBuilder.new]⟩

theorem Underived.with {inst : Instance} (h : Underived inst) {o : Objective} {p : Parameters}
    {f : List SolutionBin → Bool} {bins : List BinType} {its : List ItemType}
    {ids : List Nat} {offs : List Int} {io ii : Bool} :
    Underived { inst with objective := o, parameters := p, callback := f, binTypes := bins,
                          itemTypes := its, itemTypeIds := ids, stackOffsets := offs,
                          allItemTypesOriented := io, allItemTypesInfiniteCopies := ii } :=
  ⟨h.1, h.2, h.3, h.4, h.5, h.6, h.7, h.8, h.9, h.10⟩

theorem BFresh.withBins {inst : Instance} (h : BFresh inst) {bins : List BinType}
    (hb : ∀ t ∈ bins, BinFresh t) : BFresh { inst with binTypes := bins } :=
  ⟨h.1.with, hb, h.items⟩

theorem BFresh.withItems {inst : Instance} (h : BFresh inst) {its : List ItemType}
    (hi : ∀ t ∈ its, ItemFresh t) : BFresh { inst with itemTypes := its } :=
  ⟨h.1.with, h.bins, hi⟩

theorem modifyBin_ok {b b' : InstanceBuilder} {id : Nat} {f : BinType → Except Err BinType}
    (h : b.modifyBin id f = .ok b') : id < b.inst.binTypes.length
      ∧ ∃ t, f (b.inst.binType id) = .ok t
        ∧ b' = { b with inst := { b.inst with binTypes := b.inst.binTypes.set id t } } := by
  unfold modifyBin at h
  by_cases hid : id ≥ b.inst.binTypes.length
  · rw [if_pos hid] at h; cases h
  · rw [if_neg hid] at h
    cases hf : f (b.inst.binType id) with
    | error e => rw [hf] at h; cases h
    | ok t => rw [hf] at h; cases h; exact ⟨by omega, t, rfl, rfl⟩

theorem modifyItem_ok {b b' : InstanceBuilder} {id : Nat} {f : ItemType → Except Err ItemType}
    (h : b.modifyItem id f = .ok b') : id < b.inst.itemTypes.length
      ∧ ∃ t, f (b.inst.itemType id) = .ok t
        ∧ b' = { b with inst := { b.inst with itemTypes := b.inst.itemTypes.set id t } } := by
  unfold modifyItem at h
  by_cases hid : id ≥ b.inst.itemTypes.length
  · rw [if_pos hid] at h; cases h
  · rw [if_neg hid] at h
    cases hf : f (b.inst.itemType id) with
    | error e => rw [hf] at h; cases h
    | ok t => rw [hf] at h; cases h; exact ⟨by omega, t, rfl, rfl⟩

theorem fresh_modifyBin {b b' : InstanceBuilder} {id : Nat} {f : BinType → Except Err BinType}
    (hF : BFresh b.inst) (hf : ∀ t t', BinFresh t → f t = .ok t' → BinFresh t')
    (h : b.modifyBin id f = .ok b') : BFresh b'.inst := by
  obtain ⟨hid, t, ht, rfl⟩ := modifyBin_ok h
  exact hF.withBins (forall_mem_set hF.bins (hf _ _ (hF.bins _ (getD_mem _ hid)) ht))

theorem fresh_modifyItem {b b' : InstanceBuilder} {id : Nat} {f : ItemType → Except Err ItemType}
    (hF : BFresh b.inst) (hf : ∀ t t', ItemFresh t → f t = .ok t' → ItemFresh t')
    (h : b.modifyItem id f = .ok b') : BFresh b'.inst := by
  obtain ⟨hid, t, ht, rfl⟩ := modifyItem_ok h
  exact hF.withItems (forall_mem_set hF.items (hf _ _ (hF.items _ (getD_mem _ hid)) ht))

theorem fresh_mapBins {inst : Instance} {f : BinType → BinType} (hF : BFresh inst)
    (hf : ∀ t, BinFresh t → BinFresh (f t)) :
    BFresh { inst with binTypes := inst.binTypes.map f } := by
  apply hF.withBins
  intro t ht
  obtain ⟨u, hu, rfl⟩ := List.mem_map.mp ht
  exact hf u (hF.bins u hu)

theorem fresh_mapItems {inst : Instance} {f : ItemType → ItemType} (hF : BFresh inst)
    (hf : ∀ t, ItemFresh t → ItemFresh (f t)) :
    BFresh { inst with itemTypes := inst.itemTypes.map f } := by
  apply hF.withItems
  intro t ht
  obtain ⟨u, hu, rfl⟩ := List.mem_map.mp ht
  exact hf u (hF.items u hu)

variable {b b' : InstanceBuilder}

theorem fresh_addBinType {x y : Int} (hF : BFresh b.inst) (h : b.addBinType x y = .ok b') :
    BFresh b'.inst := by
  unfold addBinType at h
  split_ifs at h with hx hy
  cases h
  apply hF.withBins
  intro t ht
  rcases List.mem_append.mp ht with h1 | h1
  · exact hF.bins t h1
  · rw [List.mem_singleton] at h1
    subst h1
    exact ⟨rfl, Or.inr (by norm_num), le_refl _⟩

theorem fresh_setBinTypeCost {id : Nat} {c : ℚ} (hF : BFresh b.inst)
    (h : b.setBinTypeCost id c = .ok b') : BFresh b'.inst := by
  refine fresh_modifyBin hF ?_ h
  intro t t' ht hc
  split_ifs at hc with h1 h2
  all_goals
    cases hc
    exact ⟨ht.1, ht.2, ht.3⟩

theorem fresh_addDefect {id : Nat} {px py x y : Int} (hF : BFresh b.inst)
    (h : b.addDefect id px py x y = .ok b') : BFresh b'.inst := by
  refine fresh_modifyBin hF ?_ h
  intro t t' ht hc; cases hc
  exact ⟨ht.1, ht.2, ht.3⟩

theorem fresh_addTrims {id : Nat} {tr : Trims} (hF : BFresh b.inst)
    (h : b.addTrims id tr = .ok b') : BFresh b'.inst := by
  refine fresh_modifyBin hF ?_ h
  intro t t' ht hc
  split_ifs at hc
  cases hc
  exact ⟨ht.1, ht.2, ht.3⟩

theorem fresh_addBinTypeResource {id : Nat} {c : ℚ} {p : Bool} {q : ℚ} (hF : BFresh b.inst)
    (h : b.addBinTypeResource id c p q = .ok b') : BFresh b'.inst := by
  refine fresh_modifyBin hF ?_ h
  intro t t' ht hc; cases hc
  exact ⟨ht.1, ht.2, ht.3⟩

theorem fresh_addResourceConsumption {t r i : Nat} {c : Int} {q : ℚ} (hF : BFresh b.inst)
    (h : b.addResourceConsumption t r i c q = .ok b') : BFresh b'.inst := by
  refine fresh_modifyBin hF ?_ h
  intro t t' ht hc
  split_ifs at hc
  cases hc
  exact ⟨ht.1, ht.2, ht.3⟩

theorem fresh_setBinTypeCopies {id : Nat} {c : Int} (hF : BFresh b.inst)
    (h : b.setBinTypeCopies id c = .ok b') : BFresh b'.inst := by
  refine fresh_modifyBin hF ?_ h
  intro t t' ht hc
  split_ifs at hc with h1
  cases hc
  refine ⟨ht.1, ?_, ht.3⟩
  by_cases h2 : c = -1
  · exact Or.inl h2
  · right
    by_contra h3
    exact h1 ⟨h2, Or.inl (not_lt.mp h3)⟩

theorem fresh_setBinTypeCopiesMin {id : Nat} {c : Int} (hF : BFresh b.inst)
    (h : b.setBinTypeCopiesMin id c = .ok b') : BFresh b'.inst := by
  refine fresh_modifyBin hF ?_ h
  intro t t' ht hc
  split_ifs at hc with h1
  cases hc
  push Not at h1
  exact ⟨ht.1, ht.2, h1.1⟩

theorem fresh_addItemType {x y st : Int} {o : Bool} (hF : BFresh b.inst)
    (h : b.addItemType x y o st = .ok b') : BFresh b'.inst := by
  unfold addItemType at h
  split_ifs at h with hx hy
  cases h
  apply hF.withItems
  intro t ht
  rcases List.mem_append.mp ht with h1 | h1
  · exact hF.items t h1
  · rw [List.mem_singleton] at h1
    subst h1
    exact ⟨rfl, rfl, le_refl _, not_lt.mp hx, not_lt.mp hy⟩

theorem fresh_setItemTypeProfit {id : Nat} {w : ℚ} (hF : BFresh b.inst)
    (h : b.setItemTypeProfit id w = .ok b') : BFresh b'.inst := by
  refine fresh_modifyItem hF ?_ h
  intro t t' ht hc; cases hc
  exact ⟨ht.1, ht.2, ht.3, ht.4, ht.5⟩

theorem fresh_setItemTypeCopies {id : Nat} {c : Int} (hF : BFresh b.inst)
    (h : b.setItemTypeCopies id c = .ok b') : BFresh b'.inst := by
  refine fresh_modifyItem hF ?_ h
  intro t t' ht hc
  split_ifs at hc
  cases hc
  exact ⟨ht.1, ht.2, ht.3, ht.4, ht.5⟩

theorem fresh_setItemTypeCopiesMin {id : Nat} {c : Int} (hF : BFresh b.inst)
    (h : b.setItemTypeCopiesMin id c = .ok b') : BFresh b'.inst := by
  refine fresh_modifyItem hF ?_ h
  intro t t' ht hc
  split_ifs at hc with h1
  cases hc
  exact ⟨ht.1, ht.2, not_lt.mp h1, ht.4, ht.5⟩

theorem fresh_setItemTypesInfiniteCopies (hF : BFresh b.inst)
    (h : b.setItemTypesInfiniteCopies = .ok b') : BFresh b'.inst := by
  unfold setItemTypesInfiniteCopies at h
  split_ifs at h
  cases h
  exact fresh_mapItems hF fun t ht => ⟨ht.1, ht.2, ht.3, ht.4, ht.5⟩

theorem fresh_writeSchedule {t r i : Nat} {sch : List ℚ} (hF : BFresh b.inst)
    (h : b.writeSchedule t r i sch = .ok b') : BFresh b'.inst :=
  foldlM_inv (fun b => BFresh b.inst) hF
    (fun _ _ _ _ ha hs => fresh_addResourceConsumption ha hs) h

theorem fresh_copyConsumptions {orig : Instance} {i j : Nat} (hF : BFresh b.inst)
    (h : b.copyConsumptions orig i j = .ok b') : BFresh b'.inst := by
  refine foldlM_inv (fun b => BFresh b.inst) hF ?_ h
  intro x a c _ ha hs
  dsimp only at hs
  cases ho : a.origToSubBin.getD x none with
  | none => rw [ho] at hs; cases hs; exact ha
  | some y =>
    rw [ho] at hs
    simp only at hs
    split_ifs at hs
    refine foldlM_inv (fun b => BFresh b.inst) ha ?_ hs
    intro x' a' c' _ ha' hs'
    split_ifs at hs' with h1
    · cases hs'; exact ha'
    · exact fresh_writeSchedule ha' hs'

theorem fresh_addBinTypeFrom {orig : Instance} {i : Nat} (hF : BFresh b.inst)
    (h : b.addBinTypeFrom orig i = .ok b') : BFresh b'.inst := by
  unfold addBinTypeFrom at h
  split_ifs at h with h1
  obtain ⟨b1, h1, h⟩ := bind_ok.mp h
  obtain ⟨b2, h2, h⟩ := bind_ok.mp h
  obtain ⟨b3, h3, h⟩ := bind_ok.mp h
  obtain ⟨b4, h4, h⟩ := bind_ok.mp h
  obtain ⟨b5, h5, h⟩ := bind_ok.mp h
  obtain ⟨b6, h6, h⟩ := bind_ok.mp h
  have f1 := fresh_addBinType hF h1
  have f2 : BFresh b2.inst := fresh_setBinTypeCost (b := { b1 with
    origToSubBin := (growTo none (i + 1) b1.origToSubBin).set i (some b.inst.binTypes.length) })
    f1 h2
  have f3 := fresh_setBinTypeCopies f2 h3
  have f4 := fresh_setBinTypeCopiesMin f3 h4
  have f5 := fresh_addTrims f4 h5
  have f6 : BFresh b6.inst := foldlM_inv (fun b => BFresh b.inst) f5
    (fun _ _ _ _ ha hs => fresh_addDefect ha hs) h6
  exact foldlM_inv (fun b => BFresh b.inst) f6
    (fun _ _ _ _ ha hs => fresh_addBinTypeResource ha hs) h

theorem BFresh.parameters {inst : Instance} (h : BFresh inst) {p : Parameters} :
    BFresh { inst with parameters := p } :=
  ⟨h.1.with, h.2, h.3⟩

theorem fresh_setItemTypesOriented {o : Bool} (hF : BFresh b.inst) :
    BFresh (b.setItemTypesOriented o).inst :=
  fresh_mapItems hF fun _ ht => ⟨ht.1, ht.2, ht.3, ht.4, ht.5⟩

theorem fresh_setPredefinedOriented {c : Char} (hF : BFresh b.inst)
    (h : b.setPredefinedOriented c = .ok b') : BFresh b'.inst := by
  unfold setPredefinedOriented at h
  split at h
  · cases h; exact fresh_setItemTypesOriented hF
  · cases h; exact fresh_setItemTypesOriented hF
  · cases h

theorem fresh_setPredefined {str : List Char} (hF : BFresh b.inst)
    (h : b.setPredefined str = .ok b') : BFresh b'.inst := by
  unfold setPredefined at h
  split_ifs at h
  · cases h; exact hF.parameters
  · exact fresh_setPredefinedOriented (b := b.setNumberOfStagesUnlimited) hF.parameters h
  · split at h
    · dsimp only at h
      split_ifs at h
      split at h
      · cases h
      · split at h
        · cases h
        · exact fresh_setPredefinedOriented (b := ((b.setNumberOfStages _).setCutType
            _).setFirstStageOrientation _) hF.parameters.parameters.parameters h
    · cases h

theorem fresh_addItemTypeFrom {orig : Instance} {i : Nat} (hF : BFresh b.inst)
    (h : b.addItemTypeFrom orig i = .ok b') : BFresh b'.inst := by
  unfold addItemTypeFrom at h
  split_ifs at h with h1
  obtain ⟨b1, h1, h⟩ := bind_ok.mp h
  obtain ⟨b2, h2, h⟩ := bind_ok.mp h
  obtain ⟨b3, h3, h⟩ := bind_ok.mp h
  have f1 := fresh_addItemType hF h1
  have f2 : BFresh b2.inst := fresh_setItemTypeProfit
    (b := { b1 with
      origToSubItem := (growTo none (i + 1) b1.origToSubItem).set i (some b.inst.itemTypes.length) })
    f1 h2
  have f3 := fresh_setItemTypeCopies f2 h3
  exact fresh_copyConsumptions f3 h

theorem fresh_step {op : BuilderOp} (hF : BFresh b.inst) (h : b.step op = .ok b') : BFresh b'.inst := by
  cases op with
  | setObjective o => cases h; exact ⟨hF.1.with, hF.2, hF.3⟩
  | setCallback f => cases h; exact ⟨hF.1.with, hF.2, hF.3⟩
  | setParameters p => cases h; exact hF.parameters
  | setFirstStageOrientation o => cases h; exact hF.parameters
  | setMinimumDistance1Cuts n => cases h; exact hF.parameters
  | setMaximumDistance1Cuts n => cases h; exact hF.parameters
  | setMinimumDistance2Cuts n => cases h; exact hF.parameters
  | setMaximumDistance2Cuts n => cases h; exact hF.parameters
  | setMinimumWasteLength n => cases h; exact hF.parameters
  | setMaximumNumber1Cuts n => cases h; exact hF.parameters
  | setMaximumNumber2Cuts n => cases h; exact hF.parameters
  | setCutThickness n => cases h; exact hF.parameters
  | setWasteCost n => cases h; exact hF.parameters
  | setCutThroughDefects c => cases h; exact hF.parameters
  | setNumberOfStages n => cases h; exact hF.parameters
  | setNumberOfStagesUnlimited => cases h; exact hF.parameters
  | setCutType c => cases h; exact hF.parameters
  | setRoadef2018 => cases h; exact hF.parameters
  | setFixedCuttingCost s c =>
    change b.setFixedCuttingCost s c = _ at h
    unfold setFixedCuttingCost at h
    split_ifs at h
    cases h
    exact hF.parameters
  | setVariableCuttingCost s c =>
    change b.setVariableCuttingCost s c = _ at h
    unfold setVariableCuttingCost at h
    split_ifs at h
    cases h
    exact hF.parameters
  | setPredefined str => exact fresh_setPredefined hF h
  | addBinType x y => exact fresh_addBinType hF h
  | setBinTypeCost i c => exact fresh_setBinTypeCost hF h
  | addTrims i tr => exact fresh_addTrims hF h
  | addDefect i px py x y => exact fresh_addDefect hF h
  | addBinTypeResource i c p q => exact fresh_addBinTypeResource hF h
  | addResourceConsumption t r i c q => exact fresh_addResourceConsumption hF h
  | setBinTypeCopies i c => exact fresh_setBinTypeCopies hF h
  | setBinTypeCopiesMin i c => exact fresh_setBinTypeCopiesMin hF h
  | setBinTypesInfiniteX =>
    cases h; exact fresh_mapBins hF fun t ht => ⟨ht.1, ht.2, ht.3⟩
  | setBinTypesInfiniteY =>
    cases h; exact fresh_mapBins hF fun t ht => ⟨ht.1, ht.2, ht.3⟩
  | setBinTypesInfiniteCopies =>
    cases h; exact fresh_mapBins hF fun t ht => ⟨ht.1, Or.inl rfl, ht.3⟩
  | setBinTypesUnweighted =>
    cases h; exact fresh_mapBins hF fun t ht => ⟨ht.1, ht.2, ht.3⟩
  | addItemType x y o st => exact fresh_addItemType hF h
  | setItemTypeProfit i p => exact fresh_setItemTypeProfit hF h
  | setItemTypeCopies i c => exact fresh_setItemTypeCopies hF h
  | setItemTypeCopiesMin i c => exact fresh_setItemTypeCopiesMin hF h
  | setItemTypesUnweighted =>
    cases h; exact fresh_mapItems hF fun t ht => ⟨ht.1, ht.2, ht.3, ht.4, ht.5⟩
  | setItemTypesOriented o => cases h; exact fresh_setItemTypesOriented hF
  | setItemTypesInfiniteCopies => exact fresh_setItemTypesInfiniteCopies hF h
  | multiplyItemTypesCopies f =>
    cases h; exact fresh_mapItems hF fun t ht => ⟨ht.1, ht.2, ht.3, ht.4, ht.5⟩
  | addBinTypeFrom o i => exact fresh_addBinTypeFrom hF h
  | addItemTypeFrom o i => exact fresh_addItemTypeFrom hF h

theorem fresh_ops {o : Objective} {ops : List BuilderOp}
    (h : ops.foldlM step (new o) = .ok b) : BFresh b.inst :=
  foldlM_inv (fun b => BFresh b.inst) (fresh_new o) (fun _ _ _ _ ha hs => fresh_step ha hs) h

end PackingSolver.Guil
