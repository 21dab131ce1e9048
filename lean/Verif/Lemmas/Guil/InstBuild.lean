import Verif.Lemmas.Guil.InstFresh
import Verif.Lemmas.OneDim.Build
import Verif.Spec.GuillotineBuild
import Mathlib.Data.List.GetD
import Mathlib.Tactic.Ring

/-! Helper lemmas: closed forms of the loops of the guillotine `InstanceBuilder::build`. -/

namespace PackingSolver.Guil

open InstanceBuilder
open Guil.Spec hiding IsMaxWithZero
open PackingSolver.OneDim (take_succ_getD getD_map_take_drop set_map_take_drop isMax_snoc getD_mem)
open PackingSolver.OneDim.Spec (IsMaxWithZero)

theorem resolve_fields (o : Objective) (t : ItemType) :
    (resolveItem o t).copies = t.copies ∧ (resolveItem o t).w = t.w ∧ (resolveItem o t).h = t.h
    ∧ (resolveItem o t).profit = t.profit ∧ (resolveItem o t).resourceIds = t.resourceIds
    ∧ (resolveItem o t).stackId = t.stackId
    ∧ (resolveItem o t).oriented = t.oriented ∧ (resolveItem o t).stackPos = t.stackPos
    ∧ (resolveItem o t).copiesFixed = t.copiesFixed ∧ (resolveItem o t).area = t.area := by
  unfold resolveItem; split_ifs <;> simp [ItemType.area]

/-- State of the item loop after `k` iterations on `inst0`. -/
structure ItemInv (areaMax : Int) (inst0 : Instance) (k : Nat) (inst : Instance) : Prop where
  objective : inst.objective = inst0.objective
  parameters : inst.parameters = inst0.parameters
  callback : inst.callback = inst0.callback
  itemTypes : inst.itemTypes = (inst0.itemTypes.take k).map (resolveItem inst0.objective)
    ++ inst0.itemTypes.drop k
  binTypes : inst.binTypes = inst0.binTypes
  itemTypeIds : inst.itemTypeIds = inst0.itemTypeIds
  stackOffsets : inst.stackOffsets = inst0.stackOffsets
  binTypeIds : inst.binTypeIds = inst0.binTypeIds
  previousBinsArea : inst.previousBinsArea = inst0.previousBinsArea
  largestBinCost : inst.largestBinCost = inst0.largestBinCost
  numberOfDefects : inst.numberOfDefects = inst0.numberOfDefects
  numberOfItems : inst.numberOfItems = ((inst0.itemTypes.take k).map (·.copies)).sum
  itemArea : inst.itemArea = ((inst0.itemTypes.take k).map fun t => t.copies * t.area).sum
  itemProfit : inst.itemProfit
    = ((inst0.itemTypes.take k).map fun t => (t.copies : ℚ) * t.profit).sum
  largestItemProfit :
    IsMaxWithZero ((inst0.itemTypes.take k).map (·.profit)) inst.largestItemProfit
  largestItemCopies :
    IsMaxWithZero ((inst0.itemTypes.take k).map (·.copies)) inst.largestItemCopies
  largestEfficiency : (k = 0 → inst.largestEfficiencyItemTypeId = -1)
    ∧ (0 < k → ∃ i, i < k ∧ inst.largestEfficiencyItemTypeId = (i : Int)
      ∧ ∀ j, j < k → (inst0.itemType j).profit / ((inst0.itemType j).area : ℚ)
          ≤ (inst0.itemType i).profit / ((inst0.itemType i).area : ℚ))
  copiesMin : ∀ t ∈ (inst0.itemTypes.take k), (resolveItem inst0.objective t).copiesMin ≤ t.copies
  areaNe : ∀ t ∈ (inst0.itemTypes.take k), t.area ≠ 0
  allInfinite : inst.allItemTypesInfiniteCopies = true ↔
    ∀ t ∈ (inst0.itemTypes.take k), (areaMax - 1).tdiv t.area + 1 ≤ t.copies
  allOriented : inst.allItemTypesOriented = true ↔
    ∀ t ∈ (inst0.itemTypes.take k), t.oriented = true

/-- The state in which the item loop starts. -/
def itemStart (inst0 : Instance) : Instance :=
  { inst0 with
    allItemTypesInfiniteCopies := true
    allItemTypesOriented := true }

theorem itemInv_zero {areaMax : Int} {inst0 : Instance} (hF : BFresh inst0) :
    ItemInv areaMax inst0 0 (itemStart inst0) where
  objective := rfl
  parameters := rfl
  callback := rfl
  itemTypes := by simp [itemStart]
  binTypes := rfl
  itemTypeIds := rfl
  stackOffsets := rfl
  binTypeIds := rfl
  previousBinsArea := rfl
  largestBinCost := rfl
  numberOfDefects := rfl
  numberOfItems := by simp [itemStart, hF.underived.numberOfItems]
  itemArea := by simp [itemStart, hF.underived.itemArea]
  itemProfit := by simp [itemStart, hF.underived.itemProfit]
  largestItemProfit := by simp [itemStart, IsMaxWithZero, hF.underived.largestItemProfit]
  largestItemCopies := by simp [itemStart, IsMaxWithZero, hF.underived.largestItemCopies]
  largestEfficiency := ⟨fun _ => hF.underived.largestEfficiency, by simp⟩
  copiesMin := by simp
  areaNe := by simp
  allInfinite := by simp [itemStart]
  allOriented := by simp [itemStart]

theorem itemInv_step {areaMax : Int} {inst0 a b : Instance} {k : Nat}
    (hk : k < inst0.itemTypes.length) (h : ItemInv areaMax inst0 k a)
    (hs : buildItem areaMax a k = .ok b) : ItemInv areaMax inst0 (k + 1) b := by
  have hget : a.itemType k = inst0.itemType k := by
    unfold Instance.itemType
    rw [h.itemTypes, getD_map_take_drop _ _ _ _ hk]
  have hgetj : ∀ j, (a.itemType j).profit = (inst0.itemType j).profit
      ∧ (a.itemType j).area = (inst0.itemType j).area := by
    intro j
    unfold Instance.itemType
    rw [h.itemTypes, List.getD_eq_getElem?_getD, List.getD_eq_getElem?_getD,
      List.getElem?_append]
    simp only [List.length_map, List.length_take]
    by_cases hj : j < k
    · rw [if_pos (by omega), List.getElem?_map, List.getElem?_take, if_pos hj]
      cases hx : inst0.itemTypes[j]? with
      | none => simp
      | some t =>
        have := resolve_fields inst0.objective t
        simp [this.2.2.2.1, this.2.2.2.2.2.2.2.2.2]
    · rw [if_neg (by omega), List.getElem?_drop]
      have : k + (j - min k inst0.itemTypes.length) = j := by omega
      rw [this]
      exact ⟨rfl, rfl⟩
  obtain ⟨hc, hx, hy, hp, -, -, ho, hw, -, ha⟩ :=
    resolve_fields inst0.objective (inst0.itemType k)
  have htake : inst0.itemTypes.take (k + 1) = inst0.itemTypes.take k ++ [inst0.itemType k] :=
    take_succ_getD _ _ _ hk
  unfold buildItem at hs
  dsimp only at hs
  rw [hget, h.objective] at hs
  by_cases h1 : (resolveItem inst0.objective (inst0.itemType k)).copiesMin
      > (resolveItem inst0.objective (inst0.itemType k)).copies
  · rw [if_pos h1] at hs; cases hs
  rw [if_neg h1] at hs
  by_cases h2 : (resolveItem inst0.objective (inst0.itemType k)).area = 0
  · rw [if_pos h2] at hs; cases hs
  rw [if_neg h2] at hs
  cases hs
  refine ⟨rfl, h.parameters, h.callback, ?_, h.binTypes, h.itemTypeIds, h.stackOffsets,
    h.binTypeIds, h.previousBinsArea, h.largestBinCost, h.numberOfDefects,
    ?_, ?_, ?_, ?_, ?_, ?_, ?_, ?_, ?_, ?_⟩
  · change a.itemTypes.set k (resolveItem inst0.objective (inst0.itemType k)) = _
    rw [h.itemTypes]
    exact set_map_take_drop _ _ _ default hk
  · change a.numberOfItems + (resolveItem inst0.objective (inst0.itemType k)).copies = _
    rw [hc, h.numberOfItems, htake]; simp
  · change a.itemArea + (resolveItem inst0.objective (inst0.itemType k)).copies
      * (resolveItem inst0.objective (inst0.itemType k)).area = _
    rw [hc, ha, h.itemArea, htake]; simp
  · change a.itemProfit + ((resolveItem inst0.objective (inst0.itemType k)).copies : ℚ)
      * (resolveItem inst0.objective (inst0.itemType k)).profit = _
    rw [hc, hp, h.itemProfit, htake]; simp
  · change IsMaxWithZero _
      (max a.largestItemProfit (resolveItem inst0.objective (inst0.itemType k)).profit)
    rw [hp, htake, List.map_append]
    have := isMax_snoc (inst0.itemType k).profit h.largestItemProfit
    rw [max_def_lt]
    exact this
  · change IsMaxWithZero _ (if a.largestItemCopies
      < (resolveItem inst0.objective (inst0.itemType k)).copies then _ else _)
    rw [htake, List.map_append, hc]
    exact isMax_snoc _ h.largestItemCopies
  · refine ⟨by simp, fun _ => ?_⟩
    change ∃ i, i < k + 1 ∧ (if a.largestEfficiencyItemTypeId = -1
      ∨ lessEfficient (a.itemType a.largestEfficiencyItemTypeId.toNat)
        (resolveItem inst0.objective (inst0.itemType k)) = true then (k : Int)
      else a.largestEfficiencyItemTypeId) = (i : Int) ∧ _
    by_cases hk0 : k = 0
    · subst hk0
      rw [if_pos (Or.inl (h.largestEfficiency.1 rfl))]
      refine ⟨0, by omega, rfl, fun j hj => ?_⟩
      have : j = 0 := by omega
      subst this
      exact le_refl _
    · obtain ⟨i, hi, hie, hmax⟩ := h.largestEfficiency.2 (by omega)
      rw [hie]
      have hne : ¬ ((i : Int) = -1) := by omega
      rw [Int.toNat_natCast]
      by_cases hlt : lessEfficient (a.itemType i)
          (resolveItem inst0.objective (inst0.itemType k)) = true
      · rw [if_pos (Or.inr hlt)]
        refine ⟨k, by omega, rfl, fun j hj => ?_⟩
        simp only [lessEfficient, decide_eq_true_eq, hp, ha, (hgetj i).1, (hgetj i).2] at hlt
        rcases Nat.lt_succ_iff_lt_or_eq.mp hj with hj | rfl
        · exact le_trans (hmax j hj) hlt.le
        · exact le_refl _
      · rw [if_neg (by rintro (h3 | h3); exact hne h3; exact hlt h3)]
        refine ⟨i, by omega, rfl, fun j hj => ?_⟩
        simp only [lessEfficient, decide_eq_true_eq, hp, ha, (hgetj i).1, (hgetj i).2,
          not_lt] at hlt
        rcases Nat.lt_succ_iff_lt_or_eq.mp hj with hj | rfl
        · exact hmax j hj
        · exact hlt
  · rw [htake]
    intro t ht
    rcases List.mem_append.mp ht with ht | ht
    · exact h.copiesMin t ht
    · rw [List.mem_singleton.mp ht]
      rw [hc] at h1
      exact not_lt.mp h1
  · rw [htake]
    intro t ht
    rcases List.mem_append.mp ht with ht | ht
    · exact h.areaNe t ht
    · rw [List.mem_singleton.mp ht, ← ha]; exact h2
  · change (a.allItemTypesInfiniteCopies && !decide
      ((resolveItem inst0.objective (inst0.itemType k)).copies < (areaMax - 1).tdiv
        (resolveItem inst0.objective (inst0.itemType k)).area + 1)) = true ↔ _
    rw [hc, ha, htake, Bool.and_eq_true, h.allInfinite]
    simp only [Bool.not_eq_true', decide_eq_false_iff_not, not_lt, List.mem_append,
      List.mem_singleton, or_imp, forall_and, forall_eq]
  · change (a.allItemTypesOriented
      && (resolveItem inst0.objective (inst0.itemType k)).oriented) = true ↔ _
    rw [ho, htake, Bool.and_eq_true, h.allOriented]
    simp only [List.mem_append, List.mem_singleton, or_imp, forall_and, forall_eq]

theorem itemLoop {inst0 inst : Instance} {areaMax : Int} (hF : BFresh inst0)
    (h : (List.range inst0.itemTypes.length).foldlM (buildItem areaMax) (itemStart inst0)
      = .ok inst) :
    ItemInv areaMax inst0 inst0.itemTypes.length inst :=
  foldlM_range_inv (ItemInv areaMax inst0) (itemInv_zero hF)
    (fun _ _ _ hk ha hs => itemInv_step hk ha hs) h

/-! ### The bin loop -/

theorem resolveBin_fields (n : Int) (t : BinType) :
    (resolveBin n t).w = t.w ∧ (resolveBin n t).h = t.h ∧ (resolveBin n t).area = t.area
    ∧ (resolveBin n t).cost = t.cost
    ∧ (resolveBin n t).copiesMin = t.copiesMin ∧ (resolveBin n t).resources = t.resources
    ∧ (resolveBin n t).fixedItems = t.fixedItems
    ∧ (resolveBin n t).defects = t.defects := by
  unfold resolveBin; split_ifs <;> simp [BinType.area]

/-- Total area of the bins at the positions described by a list of bin types. -/
def posArea (bins : List BinType) : Int :=
  (bins.map fun t => (t.copies.toNat : Int) * t.area).sum

/-- Offsets of the bin positions. -/
def offsets : Int → List BinType → List Int
  | _, [] => []
  | p, t :: l => (List.range t.copies.toNat).map (fun (k : Nat) => p + (k : Int) * t.area)
      ++ offsets (p + (t.copies.toNat : Int) * t.area) l

theorem offsets_snoc (p : Int) (l : List BinType) (t : BinType) :
    offsets p (l ++ [t]) = offsets p l
      ++ (List.range t.copies.toNat).map (fun (k : Nat) => p + posArea l + (k : Int) * t.area) := by
  induction l generalizing p with
  | nil => simp [offsets, posArea]
  | cons a l ih =>
    simp only [List.cons_append, offsets, ih, List.append_assoc]
    congr 2
    apply List.map_congr_left
    intro k _
    simp [posArea]
    ring

theorem positions_snoc (l : List BinType) (t : BinType) :
    binPositions (l ++ [t]) = binPositions l ++ List.replicate t.copies.toNat l.length := by
  unfold binPositions
  rw [List.zipIdx_append]
  simp

/-- State of the bin loop after `k` iterations on `inst0`. -/
structure BinLoopInv (inst0 : Instance) (k : Nat) (st : Instance × Int) : Prop where
  rest : ∃ bins ids prev area cost defects, st.1 = { inst0 with
    binTypes := bins, binTypeIds := ids, previousBinsArea := prev, binArea := area,
    largestBinCost := cost, numberOfDefects := defects }
  binTypes : st.1.binTypes = (inst0.binTypes.take k).map (resolveBin inst0.numberOfItems)
    ++ inst0.binTypes.drop k
  offset : st.2 = posArea ((inst0.binTypes.take k).map (resolveBin inst0.numberOfItems))
  binArea : st.1.binArea = (((inst0.binTypes.take k).map
    (resolveBin inst0.numberOfItems)).map fun t => t.copies * t.area).sum
  binTypeIds : st.1.binTypeIds
    = binPositions ((inst0.binTypes.take k).map (resolveBin inst0.numberOfItems))
  previousBinsArea : st.1.previousBinsArea
    = offsets 0 ((inst0.binTypes.take k).map (resolveBin inst0.numberOfItems))
  largestBinCost : IsMaxWithZero (((inst0.binTypes.take k).map
    (resolveBin inst0.numberOfItems)).map (·.cost)) st.1.largestBinCost
  numberOfDefects : st.1.numberOfDefects = ((inst0.binTypes.take k).map
    fun t => t.defects.length).sum

theorem binInv_zero {inst0 : Instance} (h1 : inst0.binTypeIds = [])
    (h2 : inst0.previousBinsArea = []) (h3 : inst0.largestBinCost = 0)
    (h4 : inst0.numberOfDefects = 0) :
    BinLoopInv inst0 0 ({ inst0 with binArea := 0 }, 0) where
  rest := ⟨_, _, _, _, _, _, rfl⟩
  binTypes := by simp
  offset := by simp [posArea]
  binArea := by simp
  binTypeIds := by simp [binPositions, h1]
  previousBinsArea := by simp [offsets, h2]
  largestBinCost := by simp [IsMaxWithZero, h3]
  numberOfDefects := by simp [h4]

theorem binInv_step {inst0 : Instance} {a : Instance × Int} {k : Nat}
    (hk : k < inst0.binTypes.length) (h : BinLoopInv inst0 k a) :
    BinLoopInv inst0 (k + 1) (buildBin a k) := by
  have hget : a.1.binType k = inst0.binType k := by
    unfold Instance.binType
    rw [h.binTypes, getD_map_take_drop _ _ _ _ hk]
  have hn : a.1.numberOfItems = inst0.numberOfItems := by
    obtain ⟨_, _, _, _, _, _, e⟩ := h.rest
    rw [e]
  have hd := (resolveBin_fields inst0.numberOfItems (inst0.binType k)).2.2.2.2.2.2.2
  have htake : inst0.binTypes.take (k + 1) = inst0.binTypes.take k ++ [inst0.binType k] :=
    take_succ_getD _ _ _ hk
  have hlen : ((inst0.binTypes.take k).map (resolveBin inst0.numberOfItems)).length = k := by
    simp; omega
  refine ⟨?_, ?_, ?_, ?_, ?_, ?_, ?_, ?_⟩
  · obtain ⟨bins, ids, prev, area, cost, defects, e⟩ := h.rest
    obtain ⟨a1, a2⟩ := a
    dsimp only at e
    subst e
    exact ⟨_, _, _, _, _, _, rfl⟩
  · change a.1.binTypes.set k (resolveBin a.1.numberOfItems (a.1.binType k)) = _
    rw [h.binTypes, hn, hget]
    exact set_map_take_drop _ _ _ default hk
  · change a.2 + ((resolveBin a.1.numberOfItems (a.1.binType k)).copies.toNat : Int)
      * (resolveBin a.1.numberOfItems (a.1.binType k)).area = _
    rw [h.offset, hn, hget, htake, List.map_append]
    simp [posArea]
  · change a.1.binArea + (resolveBin a.1.numberOfItems (a.1.binType k)).copies
      * (resolveBin a.1.numberOfItems (a.1.binType k)).area = _
    rw [h.binArea, hn, hget, htake]
    simp
  · change a.1.binTypeIds
      ++ List.replicate (resolveBin a.1.numberOfItems (a.1.binType k)).copies.toNat k = _
    rw [h.binTypeIds, hn, hget, htake, List.map_append, List.map_singleton, positions_snoc, hlen]
  · change a.1.previousBinsArea ++ (List.range
      (resolveBin a.1.numberOfItems (a.1.binType k)).copies.toNat).map (fun (j : Nat) => a.2
        + (j : Int) * (resolveBin a.1.numberOfItems (a.1.binType k)).area) = _
    rw [h.previousBinsArea, hn, hget, htake, List.map_append, List.map_singleton, offsets_snoc,
      h.offset]
    simp
  · change IsMaxWithZero _ (if a.1.largestBinCost
      < (resolveBin a.1.numberOfItems (a.1.binType k)).cost then
        (resolveBin a.1.numberOfItems (a.1.binType k)).cost else a.1.largestBinCost)
    rw [hn, hget, htake, List.map_append, List.map_append]
    exact isMax_snoc _ h.largestBinCost
  · change a.1.numberOfDefects
      + (resolveBin a.1.numberOfItems (a.1.binType k)).defects.length = _
    rw [hn, hget, hd, h.numberOfDefects, htake]
    simp

theorem foldl_range_inv {α : Type} {n : Nat} {f : α → Nat → α} {a : α} (P : Nat → α → Prop)
    (h0 : P 0 a) (hs : ∀ k x, k < n → P k x → P (k + 1) (f x k)) :
    P n ((List.range n).foldl f a) := by
  induction n with
  | zero => simpa using h0
  | succ n ih =>
    rw [List.range_succ, List.foldl_append]
    exact hs n _ (Nat.lt_succ_self n) (ih fun k x hk => hs k x (by omega))

theorem binLoop {inst0 : Instance} (h1 : inst0.binTypeIds = [])
    (h2 : inst0.previousBinsArea = []) (h3 : inst0.largestBinCost = 0)
    (h4 : inst0.numberOfDefects = 0) :
    BinLoopInv inst0 inst0.binTypes.length
      ((List.range inst0.binTypes.length).foldl buildBin ({ inst0 with binArea := 0 }, 0)) :=
  foldl_range_inv (BinLoopInv inst0) (binInv_zero h1 h2 h3 h4) fun _ _ hk ha => binInv_step hk ha

/-- The offsets are the total areas of the previous positions. -/
theorem offsets_spec (p : Int) (bins : List BinType) (off : Nat)
    (len : Nat → Int) (hlen : ∀ i, i < bins.length → len (off + i) = (bins.getD i default).area) :
    (offsets p bins).length
      = (bins.zipIdx off |>.flatMap fun q => List.replicate q.1.copies.toNat q.2).length
    ∧ ∀ k, k < (offsets p bins).length → (offsets p bins).getD k 0
      = p + (((bins.zipIdx off |>.flatMap fun q => List.replicate q.1.copies.toNat q.2).take k).map
        len).sum := by
  induction bins generalizing p off with
  | nil => simp [offsets]
  | cons t l ih =>
    have h0 : len off = t.area := by simpa using hlen 0 (by simp)
    obtain ⟨ih1, ih2⟩ := ih (p + (t.copies.toNat : Int) * t.area) (off + 1) (by
      intro i hi
      have := hlen (i + 1) (by simp; omega)
      simpa [Nat.add_assoc, Nat.add_comm 1 i] using this)
    simp only [offsets, List.zipIdx_cons, List.flatMap_cons]
    refine ⟨by rw [List.length_append, List.length_append, ih1]; simp, fun k hk => ?_⟩
    by_cases hk1 : k < t.copies.toNat
    · rw [List.getD_append _ _ _ _ (by simpa using hk1),
        List.take_append_of_le_length (by simp; omega)]
      rw [List.getD_eq_getElem _ _ (by simpa using hk1)]
      simp only [List.getElem_map, List.getElem_range, List.take_replicate, List.map_replicate,
        List.sum_replicate, h0]
      rw [Nat.min_eq_left hk1.le]
      simp
    · have hk1' : t.copies.toNat ≤ k := not_lt.mp hk1
      rw [List.getD_append_right _ _ _ _ (by simpa using hk1')]
      have hk2 : k - t.copies.toNat < (offsets (p + (t.copies.toNat : Int) * t.area) l).length := by
        simp only [List.length_append, List.length_map, List.length_range] at hk
        omega
      simp only [List.length_map, List.length_range]
      rw [ih2 _ hk2, List.take_append]
      simp only [List.take_replicate, List.map_append, List.sum_append, List.map_replicate,
        List.sum_replicate, h0, List.length_replicate]
      rw [Nat.min_eq_right hk1']
      simp only [nsmul_eq_mul]
      ring

/-! ### Resource ids -/

/-- Item types with the given resource ids for `nb` bin types. -/
def withRes (nb : Nat) (its : List ItemType) (F : Nat → Nat → List Nat) : List ItemType :=
  its.mapIdx fun j t => { t with resourceIds := (List.range nb).map (F j) }

theorem withRes_length (nb : Nat) (its : List ItemType) (F : Nat → Nat → List Nat) :
    (withRes nb its F).length = its.length := by
  simp [withRes]

theorem pushResourceId_withRes {nb b r i : Nat} {its its' : List ItemType}
    {F : Nat → Nat → List Nat} (h : pushResourceId b r (withRes nb its F) i = .ok its') :
    its' = withRes nb its (fun j b' => if j = i ∧ b' = b then F j b' ++ [r] else F j b') := by
  unfold pushResourceId at h
  split_ifs at h with hi
  cases h
  apply List.ext_getElem?
  intro j
  simp only [withRes, List.getElem?_modify, List.getElem?_mapIdx]
  cases its[j]? with
  | none => simp
  | some t =>
    by_cases hij : i = j
    · subst hij
      simp only [Option.map_eq_map, Option.map_some, if_true, true_and]
      congr 2
      apply List.ext_getElem?
      intro k
      simp only [List.getElem?_modify, List.getElem?_map]
      cases hk : (List.range nb)[k]? with
      | none => simp
      | some x =>
        have hx : x = k := by
          have := List.getElem?_eq_some_iff.mp hk
          obtain ⟨h1, h2⟩ := this
          simpa using h2.symm
        subst hx
        by_cases hb : b = x
        · simp [hb]
        · simp [hb, Ne.symm hb]
    · simp [hij, Ne.symm hij]

/-- The resources of a bin type for which an item type has a schedule. -/
def wantedIds (resources : List Resource) (r : Nat) (j : Nat) : List Nat :=
  (List.range r).filter fun r => decide ((resources.getD r {}).itemConsumptions.getD j [] ≠ [])

theorem resourceLoop_items {nb b r : Nat} {its its' : List ItemType} {ic : List (List ℚ)}
    {F : Nat → Nat → List Nat}
    (h : (List.range ic.length).foldlM
      (fun its i => if ic.getD i [] = [] then .ok its else pushResourceId b r its i)
      (withRes nb its F) = .ok its') :
    its' = withRes nb its (fun j b' =>
      if ic.getD j [] ≠ [] ∧ b' = b then F j b' ++ [r] else F j b') := by
  have hinv := foldlM_range_inv
    (P := fun k l => l = withRes nb its (fun j b' =>
      if j < k ∧ ic.getD j [] ≠ [] ∧ b' = b then F j b' ++ [r] else F j b'))
    (by simp) ?_ h
  · rw [hinv]
    congr 1
    funext j b'
    by_cases hj : j < ic.length
    · simp [hj]
    · have : ic.getD j [] = [] := List.getD_eq_default _ _ (not_lt.mp hj)
      rw [if_neg (by tauto), if_neg (by tauto)]
  · intro k a c hk ha hs
    by_cases he : ic.getD k [] = []
    · rw [if_pos he] at hs
      cases hs
      rw [ha]
      congr 1
      funext j b'
      congr 1
      apply propext
      constructor
      · rintro ⟨h1, h2⟩; exact ⟨by omega, h2⟩
      · rintro ⟨h1, h2, h3⟩
        refine ⟨?_, h2, h3⟩
        rcases Nat.lt_succ_iff_lt_or_eq.mp h1 with h1 | h1
        · exact h1
        · subst h1; exact absurd he h2
    · rw [if_neg he, ha] at hs
      rw [pushResourceId_withRes hs]
      congr 1
      funext j b'
      by_cases hj : j = k
      · subst hj
        simp only [true_and, lt_irrefl, false_and, if_false, lt_add_iff_pos_right,
          zero_lt_one, ne_eq, he, not_false_eq_true]
      · have : (j < k + 1) ↔ j < k := by omega
        simp only [hj, false_and, if_false, this]

theorem resourceLoop_resources {nb b : Nat} {its its' : List ItemType} {rs : List Resource}
    {F : Nat → Nat → List Nat} (hF : ∀ j, F j b = [])
    (h : (List.range rs.length).foldlM
      (fun its r =>
        let ic := (rs.getD r {}).itemConsumptions
        (List.range ic.length).foldlM
          (fun its i => if ic.getD i [] = [] then .ok its else pushResourceId b r its i) its)
      (withRes nb its F) = .ok its') :
    its' = withRes nb its (fun j b' => if b' = b then wantedIds rs rs.length j else F j b') := by
  refine foldlM_range_inv
    (P := fun k l => l = withRes nb its (fun j b' => if b' = b then wantedIds rs k j else F j b'))
    ?_ ?_ h
  · congr 1
    funext j b'
    by_cases hb : b' = b
    · rw [if_pos hb, hb, hF]; rfl
    · rw [if_neg hb]
  · intro k a c hk ha hs
    rw [ha] at hs
    rw [resourceLoop_items hs]
    congr 1
    funext j b'
    by_cases hb : b' = b
    · simp only [hb, if_true, and_true]
      unfold wantedIds
      rw [List.range_succ, List.filter_append]
      by_cases hw : (rs.getD k {}).itemConsumptions.getD j [] = []
      · rw [if_neg (by simpa using hw), List.filter_cons_of_neg (by simpa using hw)]; simp
      · rw [if_pos hw, List.filter_cons_of_pos (by simpa using hw)]; simp
    · simp [hb]

theorem computeResourceIds_ok {inst inst' : Instance}
    (hr : ∀ t ∈ inst.itemTypes, t.resourceIds = [])
    (h : computeResourceIds inst = .ok inst') :
    inst' = { inst with
      itemTypes := withRes inst.binTypes.length inst.itemTypes
        (fun j b => wantedIds (inst.binType b).resources (inst.binType b).resources.length j) } := by
  unfold computeResourceIds at h
  obtain ⟨its, h1, h2⟩ := bind_ok.mp h
  cases h2
  have h0 : (inst.itemTypes.map fun t =>
      { t with resourceIds := growTo [] inst.binTypes.length t.resourceIds })
      = withRes inst.binTypes.length inst.itemTypes (fun _ _ => []) := by
    apply List.ext_getElem?
    intro j
    simp only [withRes, List.getElem?_map, List.getElem?_mapIdx]
    cases hj : inst.itemTypes[j]? with
    | none => rfl
    | some t =>
      have := hr t (List.mem_of_getElem? hj)
      simp only [Option.map_some, this, growTo]
      congr 2
      simp [List.map_const']
  rw [h0] at h1
  have hinv := foldlM_range_inv
    (P := fun k l => l = withRes inst.binTypes.length inst.itemTypes (fun j b =>
      if b < k then wantedIds (inst.binType b).resources (inst.binType b).resources.length j
      else []))
    (by simp) ?_ h1
  · rw [hinv]
    congr 1
    unfold withRes
    apply List.ext_getElem?
    intro j
    simp only [List.getElem?_mapIdx]
    cases inst.itemTypes[j]? with
    | none => rfl
    | some t =>
      simp only [Option.map_some]
      congr 2
      apply List.map_congr_left
      intro b hb
      rw [if_pos (List.mem_range.mp hb)]
  · intro k a c hk ha hs
    rw [ha] at hs
    rw [resourceLoop_resources (by intro j; simp) hs]
    congr 1
    funext j b'
    by_cases hb : b' = k
    · simp [hb]
    · have : (b' < k + 1) ↔ b' < k := by omega
      simp [hb, this]

theorem computeCopiesFixed_ok {inst inst' : Instance}
    (hf : ∀ t ∈ inst.binTypes, t.fixedItems = [])
    (h : computeCopiesFixed inst = .ok inst') : inst' = inst := by
  unfold computeCopiesFixed at h
  obtain ⟨its, h1, h2⟩ := bind_ok.mp h
  cases h2
  have : its = inst.itemTypes := by
    refine foldlM_inv (fun l => l = inst.itemTypes) rfl ?_ h1
    intro t a c ht ha hs
    rw [hf t ht] at hs
    simp [pure, Except.pure] at hs
    rw [← hs, ha]
  rw [this]

theorem map_withRes {β : Type} (nb : Nat) (its : List ItemType) (F : Nat → Nat → List Nat)
    (g : ItemType → β) (hg : ∀ t x, g { t with resourceIds := x } = g t) :
    (withRes nb its F).map g = its.map g := by
  apply List.ext_getElem?
  intro j
  simp only [withRes, List.getElem?_map, List.getElem?_mapIdx]
  cases its[j]? with
  | none => rfl
  | some t => simp [hg]


/-! ### Stacks -/

/-- An item type without its stack. -/
def unstack (t : ItemType) : ItemType := { t with stackId := 0, stackPos := 0 }

theorem map_unstack_set {its : List ItemType} {id : Nat} {t : ItemType}
    (h : unstack t = unstack (its.getD id default)) : (its.set id t).map unstack = its.map unstack := by
  apply List.ext_getElem?
  intro k
  rw [List.getElem?_map, List.getElem?_map, List.getElem?_set]
  by_cases hk : id = k
  · subst hk
    rw [if_pos rfl]
    by_cases hl : id < its.length
    · rw [if_pos hl, List.getElem?_eq_getElem hl]
      rw [List.getD_eq_getElem _ _ hl] at h
      simp [h]
    · rw [if_neg hl, List.getElem?_eq_none (not_lt.mp hl)]
  · rw [if_neg hk]

/-- What `build_stacks` leaves unchanged. -/
theorem buildStacks_ok {inst inst' : Instance} (h : buildStacks inst = .ok inst') :
    ∃ its ids offs, inst' = { inst with itemTypes := its, itemTypeIds := ids, stackOffsets := offs }
      ∧ its.map unstack = inst.itemTypes.map unstack := by
  unfold buildStacks at h
  dsimp only at h
  split_ifs at h
  · unfold buildNamedStacks at h
    obtain ⟨ids, -, h⟩ := bind_ok.mp h
    obtain ⟨st, h1, h⟩ := bind_ok.mp h
    cases h
    refine ⟨st.its, st.ids, _, rfl, ?_⟩
    refine foldlM_inv (fun st : Fill => st.its.map unstack = inst.itemTypes.map unstack) rfl ?_ h1
    intro id a c _ ha hs
    unfold fillNamed at hs
    obtain ⟨ids', -, hs⟩ := bind_ok.mp hs
    cases hs
    change (a.its.set id _).map unstack = _
    rw [map_unstack_set (by rfl)]
    exact ha
  · unfold buildOwnStacks at h
    obtain ⟨ids, -, h⟩ := bind_ok.mp h
    obtain ⟨r, h1, h⟩ := bind_ok.mp h
    cases h
    refine ⟨_, _, _, rfl, ?_⟩
    refine foldl_range_inv (fun _ (st : List ItemType × List Int × Int) =>
      st.1.map unstack = inst.itemTypes.map unstack) rfl ?_
    intro id a _ ha
    change (a.1.set id _).map unstack = _
    rw [map_unstack_set (by rfl)]
    exact ha

theorem fresh_of_unstack {inst : Instance} {its : List ItemType} {ids : List Nat} {offs : List Int}
    (hF : BFresh inst) (h : its.map unstack = inst.itemTypes.map unstack) :
    BFresh { inst with itemTypes := its, itemTypeIds := ids, stackOffsets := offs } := by
  refine ⟨hF.1.with, hF.2, fun t ht => ?_⟩
  have h1 : unstack t ∈ inst.itemTypes.map unstack := by
    rw [← h]; exact List.mem_map.mpr ⟨t, ht, rfl⟩
  obtain ⟨u, hu, he⟩ := List.mem_map.mp h1
  have h2 := hF.items u hu
  have e1 : (unstack u).resourceIds = (unstack t).resourceIds := by rw [he]
  have e2 : (unstack u).copiesFixed = (unstack t).copiesFixed := by rw [he]
  have e3 : (unstack u).copiesMin = (unstack t).copiesMin := by rw [he]
  have e4 : (unstack u).w = (unstack t).w := by rw [he]
  have e5 : (unstack u).h = (unstack t).h := by rw [he]
  exact ⟨e1 ▸ h2.1, e2 ▸ h2.2, e3 ▸ h2.3, e4 ▸ h2.4, e5 ▸ h2.5⟩

/-- The pieces of a successful `build`. -/
theorem build_pieces {b : InstanceBuilder} {inst : Instance} (hF : BFresh b.inst)
    (h : b.build = .ok inst) :
    ∃ i0 i1 st, checkParameters b.inst.parameters = .ok () ∧ buildStacks b.inst = .ok i0
      ∧ BFresh i0 ∧ ItemInv (binTypesAreaMax i0) i0 i0.itemTypes.length i1
      ∧ BinLoopInv i1 i1.binTypes.length st
      ∧ checkOpenDimension inst = .ok ()
      ∧ inst = { st.1 with
          itemTypes := withRes st.1.binTypes.length st.1.itemTypes
            (fun j t => wantedIds (st.1.binType t).resources
              (st.1.binType t).resources.length j) } := by
  unfold build at h
  obtain ⟨u0, hu0, h⟩ := bind_ok.mp h
  obtain ⟨i0, h0, h⟩ := bind_ok.mp h
  obtain ⟨i1, h2, h⟩ := bind_ok.mp h
  obtain ⟨i3, h4, h⟩ := bind_ok.mp h
  obtain ⟨u, hu, h⟩ := bind_ok.mp h
  have hF0 : BFresh i0 := by
    obtain ⟨its, ids, offs, rfl, hs⟩ := buildStacks_ok h0
    exact fresh_of_unstack hF hs
  have hI := itemLoop hF0 h2
  have hB := binLoop (inst0 := i1) (by rw [hI.binTypeIds, hF0.underived.binTypeIds])
    (by rw [hI.previousBinsArea, hF0.underived.previousBinsArea])
    (by rw [hI.largestBinCost, hF0.underived.largestBinCost])
    (by rw [hI.numberOfDefects, hF0.underived.numberOfDefects])
  dsimp only at h4
  generalize hst : (List.range i1.binTypes.length).foldl buildBin ({ i1 with binArea := 0 }, 0)
    = st at hB h4
  obtain ⟨_, _, _, _, _, _, est⟩ := hB.rest
  have hitems : st.1.itemTypes = i0.itemTypes.map (resolveItem i0.objective) := by
    have e : st.1.itemTypes = i1.itemTypes := by rw [est]
    rw [e, hI.itemTypes]; simp
  have hbins : st.1.binTypes = i0.binTypes.map (resolveBin i1.numberOfItems) := by
    rw [hB.binTypes, hI.binTypes]; simp
  have hres : ∀ t ∈ st.1.itemTypes, t.resourceIds = [] := by
    intro t ht
    rw [hitems] at ht
    obtain ⟨u, hu, rfl⟩ := List.mem_map.mp ht
    rw [(resolve_fields _ _).2.2.2.2.1]
    exact (hF0.items u hu).resourceIds
  have h4' := computeResourceIds_ok hres h4
  have hfix : ∀ t ∈ i3.binTypes, t.fixedItems = [] := by
    rw [h4']
    intro t ht
    change t ∈ st.1.binTypes at ht
    rw [hbins] at ht
    obtain ⟨v, hv, rfl⟩ := List.mem_map.mp ht
    rw [(resolveBin_fields _ _).2.2.2.2.2.2.1]
    exact (hF0.bins v hv).fixedItems
  have h5 := computeCopiesFixed_ok hfix h
  exact ⟨i0, i1, st, hu0, h0, hF0, hI, hB, by rw [h5]; exact hu, by rw [h5, h4']⟩

end PackingSolver.Guil
