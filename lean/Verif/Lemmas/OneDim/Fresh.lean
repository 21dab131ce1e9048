import Verif.Model.OneDim.Builder
import Verif.Lemmas.Except
import Mathlib.Data.List.GetD
import Mathlib.Algebra.Order.Field.Rat
import Mathlib.Tactic.Linarith

/-! Helper lemmas: what holds of the instance under construction before `build`. -/

namespace PackingSolver.OneDim

open InstanceBuilder

/-- Bin types before `build`. -/
structure BinFresh (t : BinType) : Prop where
  itemTypeIds : t.itemTypeIds = []
  fixedItems : t.fixedItems = []
  length : 0 < t.length
  cost : 0 < t.cost
  copies : t.copies = -1 ∨ 0 < t.copies
  copiesMin : 0 ≤ t.copiesMin

/-- Item types before `build`. -/
structure ItemFresh (t : ItemType) : Prop where
  resourceIds : t.resourceIds = []
  copiesFixed : t.copiesFixed = 0
  copiesMin : -1 ≤ t.copiesMin

/-- The instance before `build`: no derived data yet. -/
structure BFresh (inst : Instance) : Prop where
  numberOfItems : inst.numberOfItems = 0
  itemLength : inst.itemLength = 0
  itemProfit : inst.itemProfit = 0
  largestItemProfit : inst.largestItemProfit = 0
  largestItemCopies : inst.largestItemCopies = 0
  largestEfficiency : inst.largestEfficiencyItemTypeId = -1
  binTypeIds : inst.binTypeIds = []
  previousBinsLength : inst.previousBinsLength = []
  largestBinCost : inst.largestBinCost = 0
  bins : ∀ t ∈ inst.binTypes, BinFresh t
  items : ∀ t ∈ inst.itemTypes, ItemFresh t

theorem fresh_new (o : Objective) : BFresh (InstanceBuilder.new o).inst :=
  ⟨rfl, rfl, rfl, rfl, rfl, rfl, rfl, rfl, rfl, by simp [InstanceBuilder.new],
    by simp [InstanceBuilder.new]⟩

theorem BFresh.withBins {inst : Instance} (h : BFresh inst) {bins : List BinType}
    (hb : ∀ t ∈ bins, BinFresh t) : BFresh { inst with binTypes := bins } :=
  ⟨h.1, h.2, h.3, h.4, h.5, h.6, h.7, h.8, h.9, hb, h.11⟩

theorem BFresh.withItems {inst : Instance} (h : BFresh inst) {its : List ItemType}
    (hi : ∀ t ∈ its, ItemFresh t) : BFresh { inst with itemTypes := its } :=
  ⟨h.1, h.2, h.3, h.4, h.5, h.6, h.7, h.8, h.9, h.10, hi⟩

theorem forall_mem_set {α : Type} {l : List α} {i : Nat} {a : α} {P : α → Prop}
    (h : ∀ x ∈ l, P x) (ha : P a) : ∀ x ∈ l.set i a, P x := by
  intro x hx
  rcases List.mem_or_eq_of_mem_set hx with h1 | h1
  · exact h x h1
  · exact h1 ▸ ha

theorem forall_mem_modify {α : Type} {l : List α} {i : Nat} {f : α → α} {P : α → Prop}
    (h : ∀ x ∈ l, P x) (hf : ∀ x, P x → P (f x)) : ∀ x ∈ l.modify i f, P x := by
  intro x hx
  obtain ⟨j, hj⟩ := List.mem_iff_getElem?.mp hx
  rw [List.getElem?_modify] at hj
  cases hl : l[j]? with
  | none => rw [hl] at hj; simp at hj
  | some y =>
    have hy : y ∈ l := List.mem_of_getElem? hl
    rw [hl] at hj
    by_cases hij : i = j
    · simp [hij] at hj; exact hj ▸ hf y (h y hy)
    · simp [hij] at hj; exact hj ▸ h y hy

theorem modifyBin_ok {b b' : InstanceBuilder} {id : Nat} {f : BinType → Except Err BinType}
    (h : b.modifyBin id f = .ok b') : id < b.inst.binTypes.length
      ∧ ∃ t, f (b.inst.binType id) = .ok t
        ∧ b' = { b with inst := { b.inst with binTypes := b.inst.binTypes.set id t } } := by
  unfold modifyBin at h
  by_cases hid : id ≥ b.inst.binTypes.length
  · rw [if_pos hid] at h; cases h
  · rw [if_neg hid] at h
    cases hf : f (b.inst.binType id) with
    | error e => rw [hf] at h; cases h
    | ok t => rw [hf] at h; cases h; exact ⟨by omega, t, rfl, rfl⟩

theorem modifyItem_ok {b b' : InstanceBuilder} {id : Nat} {f : ItemType → Except Err ItemType}
    (h : b.modifyItem id f = .ok b') : id < b.inst.itemTypes.length
      ∧ ∃ t, f (b.inst.itemType id) = .ok t
        ∧ b' = { b with inst := { b.inst with itemTypes := b.inst.itemTypes.set id t } } := by
  unfold modifyItem at h
  by_cases hid : id ≥ b.inst.itemTypes.length
  · rw [if_pos hid] at h; cases h
  · rw [if_neg hid] at h
    cases hf : f (b.inst.itemType id) with
    | error e => rw [hf] at h; cases h
    | ok t => rw [hf] at h; cases h; exact ⟨by omega, t, rfl, rfl⟩

theorem getD_mem {α : Type} {l : List α} {i : Nat} (d : α) (h : i < l.length) : l.getD i d ∈ l := by
  rw [List.getD_eq_getElem _ _ h]; exact List.getElem_mem h

theorem fresh_modifyBin {b b' : InstanceBuilder} {id : Nat} {f : BinType → Except Err BinType}
    (hF : BFresh b.inst) (hf : ∀ t t', BinFresh t → f t = .ok t' → BinFresh t')
    (h : b.modifyBin id f = .ok b') : BFresh b'.inst := by
  obtain ⟨hid, t, ht, rfl⟩ := modifyBin_ok h
  exact hF.withBins (forall_mem_set hF.bins (hf _ _ (hF.bins _ (getD_mem _ hid)) ht))

theorem fresh_modifyItem {b b' : InstanceBuilder} {id : Nat} {f : ItemType → Except Err ItemType}
    (hF : BFresh b.inst) (hf : ∀ t t', ItemFresh t → f t = .ok t' → ItemFresh t')
    (h : b.modifyItem id f = .ok b') : BFresh b'.inst := by
  obtain ⟨hid, t, ht, rfl⟩ := modifyItem_ok h
  exact hF.withItems (forall_mem_set hF.items (hf _ _ (hF.items _ (getD_mem _ hid)) ht))

variable {b b' : InstanceBuilder}

theorem fresh_addBinType {l : Int} (hF : BFresh b.inst) (h : b.addBinType l = .ok b') :
    BFresh b'.inst := by
  unfold addBinType at h
  split_ifs at h with hl
  cases h
  apply hF.withBins
  intro t ht
  rcases List.mem_append.mp ht with h1 | h1
  · exact hF.bins t h1
  · rw [List.mem_singleton] at h1
    subst h1
    exact ⟨rfl, rfl, by simpa using hl, by simpa using hl, Or.inr (by norm_num), le_refl _⟩

theorem fresh_setBinTypeCost {id : Nat} {c : ℚ} (hF : BFresh b.inst)
    (h : b.setBinTypeCost id c = .ok b') : BFresh b'.inst := by
  refine fresh_modifyBin hF ?_ h
  intro t t' ht hc
  split_ifs at hc with h1 h2
  · cases hc; exact ⟨ht.1, ht.2, ht.3, Int.cast_pos.mpr ht.3, ht.5, ht.6⟩
  · cases hc
    refine ⟨ht.1, ht.2, ht.3, ?_, ht.5, ht.6⟩
    by_contra hneg
    exact h1 ⟨not_lt.mp hneg, h2⟩

theorem fresh_setBinTypeMaximumWeight {id : Nat} {w : ExtQ} (hF : BFresh b.inst)
    (h : b.setBinTypeMaximumWeight id w = .ok b') : BFresh b'.inst := by
  refine fresh_modifyBin hF ?_ h
  intro t t' ht hc; cases hc
  exact ⟨ht.1, ht.2, ht.3, ht.4, ht.5, ht.6⟩

theorem fresh_addBinTypeEligibility {id : Nat} {e : Int} (hF : BFresh b.inst)
    (h : b.addBinTypeEligibility id e = .ok b') : BFresh b'.inst := by
  refine fresh_modifyBin hF ?_ h
  intro t t' ht hc; cases hc
  exact ⟨ht.1, ht.2, ht.3, ht.4, ht.5, ht.6⟩

theorem fresh_addBinTypeResource {id : Nat} {c : ℚ} {p : Bool} {q : ℚ} (hF : BFresh b.inst)
    (h : b.addBinTypeResource id c p q = .ok b') : BFresh b'.inst := by
  refine fresh_modifyBin hF ?_ h
  intro t t' ht hc; cases hc
  exact ⟨ht.1, ht.2, ht.3, ht.4, ht.5, ht.6⟩

theorem fresh_addResourceConsumption {t r i : Nat} {c : Int} {q : ℚ} (hF : BFresh b.inst)
    (h : b.addResourceConsumption t r i c q = .ok b') : BFresh b'.inst := by
  refine fresh_modifyBin hF ?_ h
  intro t t' ht hc
  split_ifs at hc
  cases hc
  exact ⟨ht.1, ht.2, ht.3, ht.4, ht.5, ht.6⟩

theorem fresh_setBinTypeCopies {id : Nat} {c : Int} (hF : BFresh b.inst)
    (h : b.setBinTypeCopies id c = .ok b') : BFresh b'.inst := by
  refine fresh_modifyBin hF ?_ h
  intro t t' ht hc
  split_ifs at hc with h1
  cases hc
  refine ⟨ht.1, ht.2, ht.3, ht.4, ?_, ht.6⟩
  by_cases h2 : c = -1
  · exact Or.inl h2
  · right
    by_contra h3
    exact h1 ⟨h2, Or.inl (not_lt.mp h3)⟩

theorem fresh_setBinTypeCopiesMin {id : Nat} {c : Int} (hF : BFresh b.inst)
    (h : b.setBinTypeCopiesMin id c = .ok b') : BFresh b'.inst := by
  refine fresh_modifyBin hF ?_ h
  intro t t' ht hc
  split_ifs at hc with h1
  cases hc
  push Not at h1
  exact ⟨ht.1, ht.2, ht.3, ht.4, ht.5, h1.1⟩

theorem fresh_setBinTypesInfiniteCopies (hF : BFresh b.inst) :
    BFresh b.setBinTypesInfiniteCopies.inst := by
  apply hF.withBins
  intro t ht
  obtain ⟨u, hu, rfl⟩ := List.mem_map.mp ht
  have := hF.bins u hu
  exact ⟨this.1, this.2, this.3, this.4, Or.inl rfl, this.6⟩

theorem fresh_setBinTypesUnweighted (hF : BFresh b.inst) :
    BFresh b.setBinTypesUnweighted.inst := by
  apply hF.withBins
  intro t ht
  obtain ⟨u, hu, rfl⟩ := List.mem_map.mp ht
  have := hF.bins u hu
  exact ⟨this.1, this.2, this.3, Int.cast_pos.mpr this.3, this.5, this.6⟩

theorem fresh_addItemType {l : Int} (hF : BFresh b.inst) : BFresh (b.addItemType l).inst := by
  apply hF.withItems
  intro t ht
  rcases List.mem_append.mp ht with h1 | h1
  · exact hF.items t h1
  · rw [List.mem_singleton] at h1
    subst h1
    exact ⟨rfl, rfl, le_refl _⟩

theorem fresh_setItemTypeWeight {id : Nat} {w : ℚ} (hF : BFresh b.inst)
    (h : b.setItemTypeWeight id w = .ok b') : BFresh b'.inst := by
  refine fresh_modifyItem hF ?_ h
  intro t t' ht hc; cases hc
  exact ⟨ht.1, ht.2, ht.3⟩

theorem fresh_setItemTypeNestingLength {id : Nat} {w : Int} (hF : BFresh b.inst)
    (h : b.setItemTypeNestingLength id w = .ok b') : BFresh b'.inst := by
  refine fresh_modifyItem hF ?_ h
  intro t t' ht hc; cases hc
  exact ⟨ht.1, ht.2, ht.3⟩

theorem fresh_setItemTypeMaximumStackability {id : Nat} {w : Int} (hF : BFresh b.inst)
    (h : b.setItemTypeMaximumStackability id w = .ok b') : BFresh b'.inst := by
  refine fresh_modifyItem hF ?_ h
  intro t t' ht hc; cases hc
  exact ⟨ht.1, ht.2, ht.3⟩

theorem fresh_setItemTypeMaximumWeightAfter {id : Nat} {w : ExtQ} (hF : BFresh b.inst)
    (h : b.setItemTypeMaximumWeightAfter id w = .ok b') : BFresh b'.inst := by
  refine fresh_modifyItem hF ?_ h
  intro t t' ht hc; cases hc
  exact ⟨ht.1, ht.2, ht.3⟩

theorem fresh_setItemTypeEligibility {id : Nat} {w : Int} (hF : BFresh b.inst)
    (h : b.setItemTypeEligibility id w = .ok b') : BFresh b'.inst := by
  refine fresh_modifyItem hF ?_ h
  intro t t' ht hc; cases hc
  exact ⟨ht.1, ht.2, ht.3⟩

theorem fresh_setItemTypeProfit {id : Nat} {w : ℚ} (hF : BFresh b.inst)
    (h : b.setItemTypeProfit id w = .ok b') : BFresh b'.inst := by
  refine fresh_modifyItem hF ?_ h
  intro t t' ht hc; cases hc
  exact ⟨ht.1, ht.2, ht.3⟩

theorem fresh_setItemTypeCopies {id : Nat} {c : Int} (hF : BFresh b.inst)
    (h : b.setItemTypeCopies id c = .ok b') : BFresh b'.inst := by
  refine fresh_modifyItem hF ?_ h
  intro t t' ht hc
  split_ifs at hc
  cases hc
  exact ⟨ht.1, ht.2, ht.3⟩

theorem fresh_setItemTypeCopiesMin {id : Nat} {c : Int} (hF : BFresh b.inst)
    (h : b.setItemTypeCopiesMin id c = .ok b') : BFresh b'.inst := by
  refine fresh_modifyItem hF ?_ h
  intro t t' ht hc
  split_ifs at hc with h1
  cases hc
  exact ⟨ht.1, ht.2, not_lt.mp h1⟩

theorem fresh_addItemTypePrecedence {d g : Nat} (hF : BFresh b.inst)
    (h : b.addItemTypePrecedence d g = .ok b') : BFresh b'.inst := by
  unfold addItemTypePrecedence at h
  dsimp only at h
  split_ifs at h
  cases h
  have := hF.withItems (forall_mem_modify (i := g) (forall_mem_modify (i := d) hF.items
    (f := fun t => { t with
      dominatedPrecedenceIds := t.dominatedPrecedenceIds ++ [b.inst.precedences.length] })
    (fun t ht => ⟨ht.1, ht.2, ht.3⟩))
    (f := fun t => { t with
      dominatingPrecedenceIds := t.dominatingPrecedenceIds ++ [b.inst.precedences.length] })
    (fun t ht => ⟨ht.1, ht.2, ht.3⟩))
  exact ⟨this.1, this.2, this.3, this.4, this.5, this.6, this.7, this.8, this.9, this.10, this.11⟩

theorem fresh_setItemTypesUnweighted (hF : BFresh b.inst) :
    BFresh b.setItemTypesUnweighted.inst := by
  apply hF.withItems
  intro t ht
  obtain ⟨u, hu, rfl⟩ := List.mem_map.mp ht
  have := hF.items u hu
  exact ⟨this.1, this.2, this.3⟩

theorem fresh_setItemTypesInfiniteCopies (hF : BFresh b.inst)
    (h : b.setItemTypesInfiniteCopies = .ok b') : BFresh b'.inst := by
  unfold setItemTypesInfiniteCopies at h
  split_ifs at h
  cases h
  apply hF.withItems
  intro t ht
  obtain ⟨u, hu, rfl⟩ := List.mem_map.mp ht
  have := hF.items u hu
  exact ⟨this.1, this.2, this.3⟩

theorem fresh_writeSchedule {t r i : Nat} {sch : List ℚ} (hF : BFresh b.inst)
    (h : b.writeSchedule t r i sch = .ok b') : BFresh b'.inst :=
  foldlM_inv (fun b => BFresh b.inst) hF
    (fun _ _ _ _ ha hs => fresh_addResourceConsumption ha hs) h

theorem fresh_copyConsumptions {orig : Instance} {i j : Nat} (hF : BFresh b.inst)
    (h : b.copyConsumptions orig i j = .ok b') : BFresh b'.inst := by
  refine foldlM_inv (fun b => BFresh b.inst) hF ?_ h
  intro x a c _ ha hs
  dsimp only at hs
  cases ho : a.origToSubBin.getD x none with
  | none => rw [ho] at hs; cases hs; exact ha
  | some y =>
    rw [ho] at hs
    simp only at hs
    split_ifs at hs
    refine foldlM_inv (fun b => BFresh b.inst) ha ?_ hs
    intro x' a' c' _ ha' hs'
    split_ifs at hs' with h1
    · cases hs'; exact ha'
    · exact fresh_writeSchedule ha' hs'

theorem fresh_addBinTypeFrom {orig : Instance} {i : Nat} (hF : BFresh b.inst)
    (h : b.addBinTypeFrom orig i = .ok b') : BFresh b'.inst := by
  unfold addBinTypeFrom at h
  split_ifs at h with h1
  obtain ⟨b1, h1, h⟩ := bind_ok.mp h
  obtain ⟨b2, h2, h⟩ := bind_ok.mp h
  obtain ⟨b3, h3, h⟩ := bind_ok.mp h
  obtain ⟨b4, h4, h⟩ := bind_ok.mp h
  obtain ⟨b5, h5, h⟩ := bind_ok.mp h
  obtain ⟨b6, h6, h⟩ := bind_ok.mp h
  have f1 := fresh_addBinType hF h1
  have f2 : BFresh b2.inst := fresh_setBinTypeCost (b := { b1 with
    origToSubBin := (growTo none (i + 1) b1.origToSubBin).set i (some b.inst.binTypes.length) })
    f1 h2
  have f3 := fresh_setBinTypeCopies f2 h3
  have f4 := fresh_setBinTypeCopiesMin f3 h4
  have f5 := fresh_setBinTypeMaximumWeight f4 h5
  have f6 : BFresh b6.inst := foldlM_inv (fun b => BFresh b.inst) f5
    (fun _ _ _ _ ha hs => fresh_addBinTypeEligibility ha hs) h6
  exact foldlM_inv (fun b => BFresh b.inst) f6
    (fun _ _ _ _ ha hs => fresh_addBinTypeResource ha hs) h

theorem fresh_addItemTypeFrom {orig : Instance} {i : Nat} (hF : BFresh b.inst)
    (h : b.addItemTypeFrom orig i = .ok b') : BFresh b'.inst := by
  unfold addItemTypeFrom at h
  split_ifs at h with h1
  obtain ⟨b2, h2, h⟩ := bind_ok.mp h
  obtain ⟨b3, h3, h⟩ := bind_ok.mp h
  obtain ⟨b4, h4, h⟩ := bind_ok.mp h
  obtain ⟨b5, h5, h⟩ := bind_ok.mp h
  obtain ⟨b6, h6, h⟩ := bind_ok.mp h
  obtain ⟨b7, h7, h⟩ := bind_ok.mp h
  obtain ⟨b8, h8, h⟩ := bind_ok.mp h
  obtain ⟨b9, h9, h⟩ := bind_ok.mp h
  have f1 := fresh_addItemType (l := (orig.itemType i).length) hF
  have f2 : BFresh b2.inst := fresh_setItemTypeProfit
    (b := { b.addItemType (orig.itemType i).length with
      origToSubItem := (growTo none (i + 1) b.origToSubItem).set i (some b.inst.itemTypes.length) })
    f1 h2
  have f3 := fresh_setItemTypeCopies f2 h3
  have f4 := fresh_setItemTypeWeight f3 h4
  have f5 := fresh_setItemTypeNestingLength f4 h5
  have f6 := fresh_setItemTypeMaximumStackability f5 h6
  have f7 := fresh_setItemTypeMaximumWeightAfter f6 h7
  have f8 := fresh_setItemTypeEligibility f7 h8
  have f9 := fresh_copyConsumptions f8 h9
  cases h
  exact f9

theorem fresh_step {op : Op} (hF : BFresh b.inst) (h : b.step op = .ok b') : BFresh b'.inst := by
  cases op with
  | setObjective o => cases h; exact ⟨hF.1, hF.2, hF.3, hF.4, hF.5, hF.6, hF.7, hF.8, hF.9, hF.10, hF.11⟩
  | setCallback f => cases h; exact ⟨hF.1, hF.2, hF.3, hF.4, hF.5, hF.6, hF.7, hF.8, hF.9, hF.10, hF.11⟩
  | addBinType l => exact fresh_addBinType hF h
  | setBinTypeCost i c => exact fresh_setBinTypeCost hF h
  | setBinTypeMaximumWeight i w => exact fresh_setBinTypeMaximumWeight hF h
  | addBinTypeEligibility i e => exact fresh_addBinTypeEligibility hF h
  | addBinTypeResource i c p q => exact fresh_addBinTypeResource hF h
  | addResourceConsumption t r i c q => exact fresh_addResourceConsumption hF h
  | setBinTypeCopies i c => exact fresh_setBinTypeCopies hF h
  | setBinTypeCopiesMin i c => exact fresh_setBinTypeCopiesMin hF h
  | setBinTypesInfiniteCopies => cases h; exact fresh_setBinTypesInfiniteCopies hF
  | setBinTypesUnweighted => cases h; exact fresh_setBinTypesUnweighted hF
  | addItemType l => cases h; exact fresh_addItemType hF
  | setItemTypeWeight i w => exact fresh_setItemTypeWeight hF h
  | setItemTypeNestingLength i l => exact fresh_setItemTypeNestingLength hF h
  | setItemTypeMaximumStackability i m => exact fresh_setItemTypeMaximumStackability hF h
  | setItemTypeMaximumWeightAfter i w => exact fresh_setItemTypeMaximumWeightAfter hF h
  | setItemTypeEligibility i e => exact fresh_setItemTypeEligibility hF h
  | addItemTypePrecedence d g => exact fresh_addItemTypePrecedence hF h
  | setItemTypeProfit i p => exact fresh_setItemTypeProfit hF h
  | setItemTypeCopies i c => exact fresh_setItemTypeCopies hF h
  | setItemTypeCopiesMin i c => exact fresh_setItemTypeCopiesMin hF h
  | setItemTypesUnweighted => cases h; exact fresh_setItemTypesUnweighted hF
  | setItemTypesInfiniteCopies => exact fresh_setItemTypesInfiniteCopies hF h
  | addBinTypeFrom o i => exact fresh_addBinTypeFrom hF h
  | addItemTypeFrom o i => exact fresh_addItemTypeFrom hF h

theorem fresh_ops {o : Objective} {ops : List Op} (h : ops.foldlM step (new o) = .ok b) :
    BFresh b.inst :=
  foldlM_inv (fun b => BFresh b.inst) (fresh_new o) (fun _ _ _ _ ha hs => fresh_step ha hs) h

theorem fresh_finalize (hF : BFresh b.inst) (h : b.finalizePrecedences = .ok b') :
    BFresh b'.inst := by
  refine foldlM_inv (fun b => BFresh b.inst) hF ?_ h
  rintro ⟨x, y⟩ a c _ ha hs
  rcases x with _ | x <;> rcases y with _ | y
  · cases hs; exact ha
  · cases hs; exact ha
  · cases hs; exact ha
  · exact fresh_addItemTypePrecedence ha hs

end PackingSolver.OneDim
