import Verif.Lemmas.OneDim.Fresh
import Verif.Spec.OneDimBuild
import Mathlib.Data.List.GetD
import Mathlib.Tactic.Ring

/-! Helper lemmas: closed forms of the loops of `InstanceBuilder::build`. -/

namespace PackingSolver.OneDim

open InstanceBuilder Spec

/-! ### Lists updated position by position -/

theorem take_succ_getD {α : Type} (l : List α) (k : Nat) (d : α) (h : k < l.length) :
    l.take (k + 1) = l.take k ++ [l.getD k d] := by
  rw [List.take_add_one, List.getD_eq_getElem _ _ h, List.getElem?_eq_getElem h]
  rfl

theorem getD_map_take_drop {α : Type} (l : List α) (f : α → α) (k : Nat) (d : α)
    (h : k < l.length) : ((l.take k).map f ++ l.drop k).getD k d = l.getD k d := by
  rw [List.getD_append_right _ _ _ _ (by simp)]
  have : k - ((l.take k).map f).length = 0 := by simp; omega
  rw [this]
  simp [List.getD_eq_getElem?_getD]

theorem set_map_take_drop {α : Type} (l : List α) (f : α → α) (k : Nat) (d : α)
    (h : k < l.length) : ((l.take k).map f ++ l.drop k).set k (f (l.getD k d))
      = (l.take (k + 1)).map f ++ l.drop (k + 1) := by
  rw [take_succ_getD l k d h, List.map_append, List.drop_eq_getElem_cons h]
  rw [List.set_append_right _ _ (by simp)]
  have : k - ((l.take k).map f).length = 0 := by simp; omega
  rw [this, List.set_cons_zero]
  simp

theorem isMax_snoc {α : Type} [LinearOrder α] [OfNat α 0] {l : List α} {m : α} (x : α)
    (h : IsMaxWithZero l m) : IsMaxWithZero (l ++ [x]) (if m < x then x else m) := by
  obtain ⟨h1, h2, h3⟩ := h
  by_cases hx : m < x
  · rw [if_pos hx]
    refine ⟨fun y hy => ?_, le_trans h2 hx.le, Or.inr (by simp)⟩
    rcases List.mem_append.mp hy with hy | hy
    · exact le_trans (h1 y hy) hx.le
    · rw [List.mem_singleton.mp hy]
  · rw [if_neg hx]
    refine ⟨fun y hy => ?_, h2, ?_⟩
    · rcases List.mem_append.mp hy with hy | hy
      · exact h1 y hy
      · rw [List.mem_singleton.mp hy]; exact not_lt.mp hx
    · rcases h3 with h3 | h3
      · exact Or.inl h3
      · exact Or.inr (by simp [h3])

/-! ### The item loop -/

theorem resolve_fields (o : Objective) (t : ItemType) :
    (resolveItem o t).copies = t.copies ∧ (resolveItem o t).length = t.length
    ∧ (resolveItem o t).profit = t.profit ∧ (resolveItem o t).resourceIds = t.resourceIds
    ∧ (resolveItem o t).eligibilityId = t.eligibilityId
    ∧ (resolveItem o t).copiesFixed = t.copiesFixed := by
  unfold resolveItem; split_ifs <;> simp

/-- State of the item loop after `k` iterations on `inst0`. -/
structure ItemInv (lengthMax : Int) (inst0 : Instance) (k : Nat) (inst : Instance) : Prop where
  objective : inst.objective = inst0.objective
  itemTypes : inst.itemTypes = (inst0.itemTypes.take k).map (resolveItem inst0.objective)
    ++ inst0.itemTypes.drop k
  binTypes : inst.binTypes = inst0.binTypes
  binTypeIds : inst.binTypeIds = inst0.binTypeIds
  previousBinsLength : inst.previousBinsLength = inst0.previousBinsLength
  largestBinCost : inst.largestBinCost = inst0.largestBinCost
  precedences : inst.precedences = inst0.precedences
  callback : inst.callback = inst0.callback
  numberOfItems : inst.numberOfItems = ((inst0.itemTypes.take k).map (·.copies)).sum
  itemLength : inst.itemLength = ((inst0.itemTypes.take k).map fun t => t.copies * t.length).sum
  itemProfit : inst.itemProfit
    = ((inst0.itemTypes.take k).map fun t => (t.copies : ℚ) * t.profit).sum
  largestItemProfit :
    IsMaxWithZero ((inst0.itemTypes.take k).map (·.profit)) inst.largestItemProfit
  largestItemCopies :
    IsMaxWithZero ((inst0.itemTypes.take k).map (·.copies)) inst.largestItemCopies
  largestEfficiency : (k = 0 → inst.largestEfficiencyItemTypeId = -1)
    ∧ (0 < k → ∃ i, i < k ∧ inst.largestEfficiencyItemTypeId = (i : Int)
      ∧ ∀ j, j < k → (inst0.itemType j).profit / ((inst0.itemType j).length : ℚ)
          ≤ (inst0.itemType i).profit / ((inst0.itemType i).length : ℚ))
  copiesMin : ∀ t ∈ (inst0.itemTypes.take k), (resolveItem inst0.objective t).copiesMin ≤ t.copies
  lengthNe : ∀ t ∈ (inst0.itemTypes.take k), t.length ≠ 0
  allInfinite : inst.allItemTypesInfiniteCopies = true ↔
    ∀ t ∈ (inst0.itemTypes.take k), (lengthMax - 1).tdiv t.length + 1 ≤ t.copies

theorem itemInv_zero {lengthMax : Int} {inst0 : Instance} (hF : BFresh inst0) :
    ItemInv lengthMax inst0 0 { inst0 with allItemTypesInfiniteCopies := true } where
  objective := rfl
  itemTypes := by simp
  binTypes := rfl
  binTypeIds := rfl
  previousBinsLength := rfl
  largestBinCost := rfl
  precedences := rfl
  callback := rfl
  numberOfItems := by simp [hF.numberOfItems]
  itemLength := by simp [hF.itemLength]
  itemProfit := by simp [hF.itemProfit]
  largestItemProfit := by simp [IsMaxWithZero, hF.largestItemProfit]
  largestItemCopies := by simp [IsMaxWithZero, hF.largestItemCopies]
  largestEfficiency := ⟨fun _ => hF.largestEfficiency, by simp⟩
  copiesMin := by simp
  lengthNe := by simp
  allInfinite := by simp

theorem itemInv_step {lengthMax : Int} {inst0 a b : Instance} {k : Nat}
    (hk : k < inst0.itemTypes.length) (h : ItemInv lengthMax inst0 k a)
    (hs : buildItem lengthMax a k = .ok b) : ItemInv lengthMax inst0 (k + 1) b := by
  have hget : a.itemType k = inst0.itemType k := by
    unfold Instance.itemType
    rw [h.itemTypes, getD_map_take_drop _ _ _ _ hk]
  have hgetj : ∀ j, (a.itemType j).profit = (inst0.itemType j).profit
      ∧ (a.itemType j).length = (inst0.itemType j).length := by
    intro j
    unfold Instance.itemType
    rw [h.itemTypes, List.getD_eq_getElem?_getD, List.getD_eq_getElem?_getD,
      List.getElem?_append]
    simp only [List.length_map, List.length_take]
    by_cases hj : j < k
    · rw [if_pos (by omega), List.getElem?_map, List.getElem?_take, if_pos hj]
      cases hx : inst0.itemTypes[j]? with
      | none => simp
      | some t =>
        have := resolve_fields inst0.objective t
        simp [this.2.1, this.2.2.1]
    · rw [if_neg (by omega), List.getElem?_drop]
      have : k + (j - min k inst0.itemTypes.length) = j := by omega
      rw [this]
      exact ⟨rfl, rfl⟩
  obtain ⟨hc, hl, hp, -, -, -⟩ := resolve_fields inst0.objective (inst0.itemType k)
  have htake : inst0.itemTypes.take (k + 1) = inst0.itemTypes.take k ++ [inst0.itemType k] :=
    take_succ_getD _ _ _ hk
  unfold buildItem at hs
  dsimp only at hs
  rw [hget, h.objective] at hs
  by_cases h1 : (resolveItem inst0.objective (inst0.itemType k)).copiesMin
      > (resolveItem inst0.objective (inst0.itemType k)).copies
  · rw [if_pos h1] at hs; cases hs
  rw [if_neg h1] at hs
  by_cases h2 : (resolveItem inst0.objective (inst0.itemType k)).length = 0
  · rw [if_pos h2] at hs; cases hs
  rw [if_neg h2] at hs
  cases hs
  refine ⟨rfl, ?_, h.binTypes, h.binTypeIds, h.previousBinsLength, h.largestBinCost,
    h.precedences, h.callback, ?_, ?_, ?_, ?_, ?_, ?_, ?_, ?_, ?_⟩
  · change a.itemTypes.set k (resolveItem inst0.objective (inst0.itemType k)) = _
    rw [h.itemTypes]
    exact set_map_take_drop _ _ _ default hk
  · change a.numberOfItems + (resolveItem inst0.objective (inst0.itemType k)).copies = _
    rw [hc, h.numberOfItems, htake]; simp
  · change a.itemLength + (resolveItem inst0.objective (inst0.itemType k)).copies
      * (resolveItem inst0.objective (inst0.itemType k)).length = _
    rw [hc, hl, h.itemLength, htake]; simp
  · change a.itemProfit + ((resolveItem inst0.objective (inst0.itemType k)).copies : ℚ)
      * (resolveItem inst0.objective (inst0.itemType k)).profit = _
    rw [hc, hp, h.itemProfit, htake]; simp
  · change IsMaxWithZero _
      (max a.largestItemProfit (resolveItem inst0.objective (inst0.itemType k)).profit)
    rw [hp, htake, List.map_append]
    have := isMax_snoc (inst0.itemType k).profit h.largestItemProfit
    rw [max_def_lt]
    exact this
  · change IsMaxWithZero _ (if a.largestItemCopies
      < (resolveItem inst0.objective (inst0.itemType k)).copies then _ else _)
    rw [htake, List.map_append, hc]
    exact isMax_snoc _ h.largestItemCopies
  · refine ⟨by simp, fun _ => ?_⟩
    change ∃ i, i < k + 1 ∧ (if a.largestEfficiencyItemTypeId = -1
      ∨ lessEfficient (a.itemType a.largestEfficiencyItemTypeId.toNat)
        (resolveItem inst0.objective (inst0.itemType k)) = true then (k : Int)
      else a.largestEfficiencyItemTypeId) = (i : Int) ∧ _
    by_cases hk0 : k = 0
    · subst hk0
      rw [if_pos (Or.inl (h.largestEfficiency.1 rfl))]
      refine ⟨0, by omega, rfl, fun j hj => ?_⟩
      have : j = 0 := by omega
      subst this
      exact le_refl _
    · obtain ⟨i, hi, hie, hmax⟩ := h.largestEfficiency.2 (by omega)
      rw [hie]
      have hne : ¬ ((i : Int) = -1) := by omega
      rw [Int.toNat_natCast]
      by_cases hlt : lessEfficient (a.itemType i)
          (resolveItem inst0.objective (inst0.itemType k)) = true
      · rw [if_pos (Or.inr hlt)]
        refine ⟨k, by omega, rfl, fun j hj => ?_⟩
        simp only [lessEfficient, decide_eq_true_eq, hp, hl, (hgetj i).1, (hgetj i).2] at hlt
        rcases Nat.lt_succ_iff_lt_or_eq.mp hj with hj | rfl
        · exact le_trans (hmax j hj) hlt.le
        · exact le_refl _
      · rw [if_neg (by rintro (h3 | h3); exact hne h3; exact hlt h3)]
        refine ⟨i, by omega, rfl, fun j hj => ?_⟩
        simp only [lessEfficient, decide_eq_true_eq, hp, hl, (hgetj i).1, (hgetj i).2,
          not_lt] at hlt
        rcases Nat.lt_succ_iff_lt_or_eq.mp hj with hj | rfl
        · exact hmax j hj
        · exact hlt
  · rw [htake]
    intro t ht
    rcases List.mem_append.mp ht with ht | ht
    · exact h.copiesMin t ht
    · rw [List.mem_singleton.mp ht]
      rw [hc] at h1
      exact not_lt.mp h1
  · rw [htake]
    intro t ht
    rcases List.mem_append.mp ht with ht | ht
    · exact h.lengthNe t ht
    · rw [List.mem_singleton.mp ht, ← hl]; exact h2
  · change (a.allItemTypesInfiniteCopies && !decide
      ((resolveItem inst0.objective (inst0.itemType k)).copies < (lengthMax - 1).tdiv
        (resolveItem inst0.objective (inst0.itemType k)).length + 1)) = true ↔ _
    rw [hc, hl, htake, Bool.and_eq_true, h.allInfinite]
    simp only [Bool.not_eq_true', decide_eq_false_iff_not, not_lt, List.mem_append,
      List.mem_singleton, or_imp, forall_and, forall_eq]

theorem itemLoop {inst0 inst : Instance} {lengthMax : Int} (hF : BFresh inst0)
    (h : (List.range inst0.itemTypes.length).foldlM (buildItem lengthMax)
      { inst0 with allItemTypesInfiniteCopies := true } = .ok inst) :
    ItemInv lengthMax inst0 inst0.itemTypes.length inst :=
  foldlM_range_inv (ItemInv lengthMax inst0) (itemInv_zero hF)
    (fun _ _ _ hk ha hs => itemInv_step hk ha hs) h

/-! ### The bin loop -/

theorem resolveBin_fields (n : Int) (t : BinType) :
    (resolveBin n t).length = t.length ∧ (resolveBin n t).cost = t.cost
    ∧ (resolveBin n t).copiesMin = t.copiesMin ∧ (resolveBin n t).resources = t.resources
    ∧ (resolveBin n t).eligibilityIds = t.eligibilityIds
    ∧ (resolveBin n t).itemTypeIds = t.itemTypeIds
    ∧ (resolveBin n t).fixedItems = t.fixedItems := by
  unfold resolveBin; split_ifs <;> simp

/-- Total length of the bins at the positions described by a list of bin types. -/
def posLength (bins : List BinType) : Int :=
  (bins.map fun t => (t.copies.toNat : Int) * t.length).sum

/-- Offsets of the bin positions. -/
def offsets : Int → List BinType → List Int
  | _, [] => []
  | p, t :: l => (List.range t.copies.toNat).map (fun (k : Nat) => p + (k : Int) * t.length)
      ++ offsets (p + (t.copies.toNat : Int) * t.length) l

theorem offsets_snoc (p : Int) (l : List BinType) (t : BinType) :
    offsets p (l ++ [t]) = offsets p l
      ++ (List.range t.copies.toNat).map (fun (k : Nat) => p + posLength l + (k : Int) * t.length) := by
  induction l generalizing p with
  | nil => simp [offsets, posLength]
  | cons a l ih =>
    simp only [List.cons_append, offsets, ih, List.append_assoc]
    congr 2
    apply List.map_congr_left
    intro k _
    simp [posLength]
    ring

theorem positions_snoc (l : List BinType) (t : BinType) :
    binPositions (l ++ [t]) = binPositions l ++ List.replicate t.copies.toNat l.length := by
  unfold binPositions
  rw [List.zipIdx_append]
  simp

/-- State of the bin loop after `k` iterations on `inst0`. -/
structure BinInv (inst0 : Instance) (k : Nat) (st : Instance × Int) : Prop where
  objective : st.1.objective = inst0.objective
  itemTypes : st.1.itemTypes = inst0.itemTypes
  binTypes : st.1.binTypes = (inst0.binTypes.take k).map (resolveBin inst0.numberOfItems)
    ++ inst0.binTypes.drop k
  precedences : st.1.precedences = inst0.precedences
  callback : st.1.callback = inst0.callback
  numberOfItems : st.1.numberOfItems = inst0.numberOfItems
  itemLength : st.1.itemLength = inst0.itemLength
  itemProfit : st.1.itemProfit = inst0.itemProfit
  largestItemProfit : st.1.largestItemProfit = inst0.largestItemProfit
  largestItemCopies : st.1.largestItemCopies = inst0.largestItemCopies
  largestEfficiency : st.1.largestEfficiencyItemTypeId = inst0.largestEfficiencyItemTypeId
  allInfinite : st.1.allItemTypesInfiniteCopies = inst0.allItemTypesInfiniteCopies
  offset : st.2 = posLength ((inst0.binTypes.take k).map (resolveBin inst0.numberOfItems))
  binLength : st.1.binLength = (((inst0.binTypes.take k).map
    (resolveBin inst0.numberOfItems)).map fun t => t.copies * t.length).sum
  binTypeIds : st.1.binTypeIds
    = binPositions ((inst0.binTypes.take k).map (resolveBin inst0.numberOfItems))
  previousBinsLength : st.1.previousBinsLength
    = offsets 0 ((inst0.binTypes.take k).map (resolveBin inst0.numberOfItems))
  largestBinCost : IsMaxWithZero (((inst0.binTypes.take k).map
    (resolveBin inst0.numberOfItems)).map (·.cost)) st.1.largestBinCost
  copiesMin : inst0.objective = .binPacking → ∀ t ∈ inst0.binTypes.take k, t.copiesMin ≤ 0

theorem binInv_zero {inst0 : Instance} (h1 : inst0.binTypeIds = [])
    (h2 : inst0.previousBinsLength = []) (h3 : inst0.largestBinCost = 0) :
    BinInv inst0 0 ({ inst0 with binLength := 0 }, 0) where
  objective := rfl
  itemTypes := rfl
  binTypes := by simp
  precedences := rfl
  callback := rfl
  numberOfItems := rfl
  itemLength := rfl
  itemProfit := rfl
  largestItemProfit := rfl
  largestItemCopies := rfl
  largestEfficiency := rfl
  allInfinite := rfl
  offset := by simp [posLength]
  binLength := by simp
  binTypeIds := by simp [binPositions, h1]
  previousBinsLength := by simp [offsets, h2]
  largestBinCost := by simp [IsMaxWithZero, h3]
  copiesMin := by simp

theorem binInv_step {inst0 : Instance} {a b : Instance × Int} {k : Nat}
    (hk : k < inst0.binTypes.length) (h : BinInv inst0 k a)
    (hs : buildBin a k = .ok b) : BinInv inst0 (k + 1) b := by
  have hget : a.1.binType k = inst0.binType k := by
    unfold Instance.binType
    rw [h.binTypes, getD_map_take_drop _ _ _ _ hk]
  obtain ⟨hl, hcost, -, -, -, -, -⟩ := resolveBin_fields inst0.numberOfItems (inst0.binType k)
  have htake : inst0.binTypes.take (k + 1) = inst0.binTypes.take k ++ [inst0.binType k] :=
    take_succ_getD _ _ _ hk
  have hlen : ((inst0.binTypes.take k).map (resolveBin inst0.numberOfItems)).length = k := by
    simp; omega
  unfold buildBin at hs
  dsimp only at hs
  rw [hget, h.objective, h.numberOfItems] at hs
  by_cases h0 : inst0.objective = .binPacking ∧ (inst0.binType k).copiesMin > 0
  · rw [if_pos h0] at hs; cases hs
  rw [if_neg h0] at hs
  cases hs
  refine ⟨rfl, h.itemTypes, ?_, h.precedences, h.callback, rfl, h.itemLength,
    h.itemProfit, h.largestItemProfit, h.largestItemCopies, h.largestEfficiency, h.allInfinite,
    ?_, ?_, ?_, ?_, ?_, ?_⟩
  · change a.1.binTypes.set k (resolveBin inst0.numberOfItems (inst0.binType k)) = _
    rw [h.binTypes]
    exact set_map_take_drop _ _ _ default hk
  · change a.2 + ((resolveBin inst0.numberOfItems (inst0.binType k)).copies.toNat : Int)
      * (resolveBin inst0.numberOfItems (inst0.binType k)).length = _
    rw [h.offset, htake, List.map_append]
    simp [posLength]
  · change a.1.binLength + (resolveBin inst0.numberOfItems (inst0.binType k)).copies
      * (resolveBin inst0.numberOfItems (inst0.binType k)).length = _
    rw [h.binLength, htake]
    simp
  · change a.1.binTypeIds
      ++ List.replicate (resolveBin inst0.numberOfItems (inst0.binType k)).copies.toNat k = _
    rw [h.binTypeIds, htake, List.map_append, List.map_singleton, positions_snoc, hlen]
  · change a.1.previousBinsLength ++ (List.range
      (resolveBin inst0.numberOfItems (inst0.binType k)).copies.toNat).map (fun (j : Nat) => a.2
        + (j : Int) * (resolveBin inst0.numberOfItems (inst0.binType k)).length) = _
    rw [h.previousBinsLength, htake, List.map_append, List.map_singleton, offsets_snoc, h.offset]
    simp
  · change IsMaxWithZero _ (if a.1.largestBinCost
      < (resolveBin inst0.numberOfItems (inst0.binType k)).cost then _ else _)
    rw [htake, List.map_append, List.map_append]
    exact isMax_snoc _ h.largestBinCost
  · intro ho t ht
    rw [htake] at ht
    rcases List.mem_append.mp ht with ht | ht
    · exact h.copiesMin ho t ht
    · rw [List.mem_singleton.mp ht]
      by_contra hneg
      exact h0 ⟨ho, not_le.mp hneg⟩

theorem binLoop {inst0 : Instance} {st : Instance × Int} (h1 : inst0.binTypeIds = [])
    (h2 : inst0.previousBinsLength = []) (h3 : inst0.largestBinCost = 0)
    (h : (List.range inst0.binTypes.length).foldlM buildBin ({ inst0 with binLength := 0 }, 0)
      = .ok st) : BinInv inst0 inst0.binTypes.length st :=
  foldlM_range_inv (BinInv inst0) (binInv_zero h1 h2 h3)
    (fun _ _ _ hk ha hs => binInv_step hk ha hs) h

/-- The offsets are the total lengths of the previous positions. -/
theorem offsets_spec (p : Int) (bins : List BinType) (off : Nat)
    (len : Nat → Int) (hlen : ∀ i, i < bins.length → len (off + i) = (bins.getD i default).length) :
    (offsets p bins).length
      = (bins.zipIdx off |>.flatMap fun q => List.replicate q.1.copies.toNat q.2).length
    ∧ ∀ k, k < (offsets p bins).length → (offsets p bins).getD k 0
      = p + (((bins.zipIdx off |>.flatMap fun q => List.replicate q.1.copies.toNat q.2).take k).map
        len).sum := by
  induction bins generalizing p off with
  | nil => simp [offsets]
  | cons t l ih =>
    have h0 : len off = t.length := by simpa using hlen 0 (by simp)
    obtain ⟨ih1, ih2⟩ := ih (p + (t.copies.toNat : Int) * t.length) (off + 1) (by
      intro i hi
      have := hlen (i + 1) (by simp; omega)
      simpa [Nat.add_assoc, Nat.add_comm 1 i] using this)
    simp only [offsets, List.zipIdx_cons, List.flatMap_cons]
    refine ⟨by rw [List.length_append, List.length_append, ih1]; simp, fun k hk => ?_⟩
    by_cases hk1 : k < t.copies.toNat
    · rw [List.getD_append _ _ _ _ (by simpa using hk1),
        List.take_append_of_le_length (by simp; omega)]
      rw [List.getD_eq_getElem _ _ (by simpa using hk1)]
      simp only [List.getElem_map, List.getElem_range, List.take_replicate, List.map_replicate,
        List.sum_replicate, h0]
      rw [Nat.min_eq_left hk1.le]
      simp
    · have hk1' : t.copies.toNat ≤ k := not_lt.mp hk1
      rw [List.getD_append_right _ _ _ _ (by simpa using hk1')]
      have hk2 : k - t.copies.toNat < (offsets (p + (t.copies.toNat : Int) * t.length) l).length := by
        simp only [List.length_append, List.length_map, List.length_range] at hk
        omega
      simp only [List.length_map, List.length_range]
      rw [ih2 _ hk2, List.take_append]
      simp only [List.take_replicate, List.map_append, List.sum_append, List.map_replicate,
        List.sum_replicate, h0, List.length_replicate]
      rw [Nat.min_eq_right hk1']
      simp only [nsmul_eq_mul]
      ring

/-! ### Resource ids -/

/-- Item types with the given resource ids for `nb` bin types. -/
def withRes (nb : Nat) (its : List ItemType) (F : Nat → Nat → List Nat) : List ItemType :=
  its.mapIdx fun j t => { t with resourceIds := (List.range nb).map (F j) }

theorem withRes_length (nb : Nat) (its : List ItemType) (F : Nat → Nat → List Nat) :
    (withRes nb its F).length = its.length := by
  simp [withRes]

theorem pushResourceId_withRes {nb b r i : Nat} {its its' : List ItemType}
    {F : Nat → Nat → List Nat} (h : pushResourceId b r (withRes nb its F) i = .ok its') :
    its' = withRes nb its (fun j b' => if j = i ∧ b' = b then F j b' ++ [r] else F j b') := by
  unfold pushResourceId at h
  split_ifs at h with hi
  cases h
  apply List.ext_getElem?
  intro j
  simp only [withRes, List.getElem?_modify, List.getElem?_mapIdx]
  cases its[j]? with
  | none => simp
  | some t =>
    by_cases hij : i = j
    · subst hij
      simp only [Option.map_eq_map, Option.map_some, if_true, true_and]
      congr 2
      apply List.ext_getElem?
      intro k
      simp only [List.getElem?_modify, List.getElem?_map]
      cases hk : (List.range nb)[k]? with
      | none => simp
      | some x =>
        have hx : x = k := by
          have := List.getElem?_eq_some_iff.mp hk
          obtain ⟨h1, h2⟩ := this
          simpa using h2.symm
        subst hx
        by_cases hb : b = x
        · simp [hb]
        · simp [hb, Ne.symm hb]
    · simp [hij, Ne.symm hij]

/-- The resources of a bin type for which an item type has a schedule. -/
def wantedIds (resources : List Resource) (r : Nat) (j : Nat) : List Nat :=
  (List.range r).filter fun r => decide ((resources.getD r {}).itemConsumptions.getD j [] ≠ [])

theorem resourceLoop_items {nb b r : Nat} {its its' : List ItemType} {ic : List (List ℚ)}
    {F : Nat → Nat → List Nat}
    (h : (List.range ic.length).foldlM
      (fun its i => if ic.getD i [] = [] then .ok its else pushResourceId b r its i)
      (withRes nb its F) = .ok its') :
    its' = withRes nb its (fun j b' =>
      if ic.getD j [] ≠ [] ∧ b' = b then F j b' ++ [r] else F j b') := by
  have hinv := foldlM_range_inv
    (P := fun k l => l = withRes nb its (fun j b' =>
      if j < k ∧ ic.getD j [] ≠ [] ∧ b' = b then F j b' ++ [r] else F j b'))
    (by simp) ?_ h
  · rw [hinv]
    congr 1
    funext j b'
    by_cases hj : j < ic.length
    · simp [hj]
    · have : ic.getD j [] = [] := List.getD_eq_default _ _ (not_lt.mp hj)
      rw [if_neg (by tauto), if_neg (by tauto)]
  · intro k a c hk ha hs
    by_cases he : ic.getD k [] = []
    · rw [if_pos he] at hs
      cases hs
      rw [ha]
      congr 1
      funext j b'
      congr 1
      apply propext
      constructor
      · rintro ⟨h1, h2⟩; exact ⟨by omega, h2⟩
      · rintro ⟨h1, h2, h3⟩
        refine ⟨?_, h2, h3⟩
        rcases Nat.lt_succ_iff_lt_or_eq.mp h1 with h1 | h1
        · exact h1
        · subst h1; exact absurd he h2
    · rw [if_neg he, ha] at hs
      rw [pushResourceId_withRes hs]
      congr 1
      funext j b'
      by_cases hj : j = k
      · subst hj
        simp only [true_and, lt_irrefl, false_and, if_false, lt_add_iff_pos_right,
          zero_lt_one, ne_eq, he, not_false_eq_true]
      · have : (j < k + 1) ↔ j < k := by omega
        simp only [hj, false_and, if_false, this]

theorem resourceLoop_resources {nb b : Nat} {its its' : List ItemType} {rs : List Resource}
    {F : Nat → Nat → List Nat} (hF : ∀ j, F j b = [])
    (h : (List.range rs.length).foldlM
      (fun its r =>
        let ic := (rs.getD r {}).itemConsumptions
        (List.range ic.length).foldlM
          (fun its i => if ic.getD i [] = [] then .ok its else pushResourceId b r its i) its)
      (withRes nb its F) = .ok its') :
    its' = withRes nb its (fun j b' => if b' = b then wantedIds rs rs.length j else F j b') := by
  refine foldlM_range_inv
    (P := fun k l => l = withRes nb its (fun j b' => if b' = b then wantedIds rs k j else F j b'))
    ?_ ?_ h
  · congr 1
    funext j b'
    by_cases hb : b' = b
    · rw [if_pos hb, hb, hF]; rfl
    · rw [if_neg hb]
  · intro k a c hk ha hs
    rw [ha] at hs
    rw [resourceLoop_items hs]
    congr 1
    funext j b'
    by_cases hb : b' = b
    · simp only [hb, if_true, and_true]
      unfold wantedIds
      rw [List.range_succ, List.filter_append]
      by_cases hw : (rs.getD k {}).itemConsumptions.getD j [] = []
      · rw [if_neg (by simpa using hw), List.filter_cons_of_neg (by simpa using hw)]; simp
      · rw [if_pos hw, List.filter_cons_of_pos (by simpa using hw)]; simp
    · simp [hb]

theorem computeResourceIds_ok {inst inst' : Instance}
    (hr : ∀ t ∈ inst.itemTypes, t.resourceIds = [])
    (h : computeResourceIds inst = .ok inst') :
    inst' = { inst with
      itemTypes := withRes inst.binTypes.length inst.itemTypes
        (fun j b => wantedIds (inst.binType b).resources (inst.binType b).resources.length j) } := by
  unfold computeResourceIds at h
  obtain ⟨its, h1, h2⟩ := bind_ok.mp h
  cases h2
  have h0 : (inst.itemTypes.map fun t =>
      { t with resourceIds := growTo [] inst.binTypes.length t.resourceIds })
      = withRes inst.binTypes.length inst.itemTypes (fun _ _ => []) := by
    apply List.ext_getElem?
    intro j
    simp only [withRes, List.getElem?_map, List.getElem?_mapIdx]
    cases hj : inst.itemTypes[j]? with
    | none => rfl
    | some t =>
      have := hr t (List.mem_of_getElem? hj)
      simp only [Option.map_some, this, growTo]
      congr 2
      simp [List.map_const']
  rw [h0] at h1
  have hinv := foldlM_range_inv
    (P := fun k l => l = withRes inst.binTypes.length inst.itemTypes (fun j b =>
      if b < k then wantedIds (inst.binType b).resources (inst.binType b).resources.length j
      else []))
    (by simp) ?_ h1
  · rw [hinv]
    congr 1
    unfold withRes
    apply List.ext_getElem?
    intro j
    simp only [List.getElem?_mapIdx]
    cases inst.itemTypes[j]? with
    | none => rfl
    | some t =>
      simp only [Option.map_some]
      congr 2
      apply List.map_congr_left
      intro b hb
      rw [if_pos (List.mem_range.mp hb)]
  · intro k a c hk ha hs
    rw [ha] at hs
    rw [resourceLoop_resources (by intro j; simp) hs]
    congr 1
    funext j b'
    by_cases hb : b' = k
    · simp [hb]
    · have : (b' < k + 1) ↔ b' < k := by omega
      simp [hb, this]

theorem computeCopiesFixed_ok {inst inst' : Instance}
    (hf : ∀ t ∈ inst.binTypes, t.fixedItems = [])
    (h : computeCopiesFixed inst = .ok inst') : inst' = inst := by
  unfold computeCopiesFixed at h
  obtain ⟨its, h1, h2⟩ := bind_ok.mp h
  cases h2
  have : its = inst.itemTypes := by
    refine foldlM_inv (fun l => l = inst.itemTypes) rfl ?_ h1
    intro t a c ht ha hs
    rw [hf t ht] at hs
    simp [pure, Except.pure] at hs
    rw [← hs, ha]
  rw [this]

theorem map_withRes {β : Type} (nb : Nat) (its : List ItemType) (F : Nat → Nat → List Nat)
    (g : ItemType → β) (hg : ∀ t x, g { t with resourceIds := x } = g t) :
    (withRes nb its F).map g = its.map g := by
  apply List.ext_getElem?
  intro j
  simp only [withRes, List.getElem?_map, List.getElem?_mapIdx]
  cases its[j]? with
  | none => rfl
  | some t => simp [hg]

/-- The pieces of a successful `build`. -/
theorem build_pieces {b : InstanceBuilder} {inst : Instance} (hF : BFresh b.inst)
    (h : b.build = .ok inst) :
    ∃ b1 i1 st, b.finalizePrecedences = .ok b1 ∧ BFresh b1.inst
      ∧ ItemInv (binTypesLengthMax b1.inst) b1.inst b1.inst.itemTypes.length i1
      ∧ BinInv i1 i1.binTypes.length st
      ∧ inst = { computeItemTypeIds st.1 with
          itemTypes := withRes st.1.binTypes.length st.1.itemTypes
            (fun j t => wantedIds (st.1.binType t).resources
              (st.1.binType t).resources.length j) } := by
  unfold build at h
  obtain ⟨b1, h1, h⟩ := bind_ok.mp h
  obtain ⟨i1, h2, h⟩ := bind_ok.mp h
  obtain ⟨st, h3, h⟩ := bind_ok.mp h
  obtain ⟨i3, h4, h⟩ := bind_ok.mp h
  have hF1 := fresh_finalize hF h1
  have hI := itemLoop hF1 h2
  have hB := binLoop (by rw [hI.binTypeIds, hF1.binTypeIds])
    (by rw [hI.previousBinsLength, hF1.previousBinsLength])
    (by rw [hI.largestBinCost, hF1.largestBinCost]) h3
  have hitems : st.1.itemTypes = b1.inst.itemTypes.map (resolveItem b1.inst.objective) := by
    rw [hB.itemTypes, hI.itemTypes]; simp
  have hbins : st.1.binTypes = b1.inst.binTypes.map (resolveBin i1.numberOfItems) := by
    rw [hB.binTypes, hI.binTypes]; simp
  have hres : ∀ t ∈ (computeItemTypeIds st.1).itemTypes, t.resourceIds = [] := by
    intro t ht
    change t ∈ st.1.itemTypes at ht
    rw [hitems] at ht
    obtain ⟨u, hu, rfl⟩ := List.mem_map.mp ht
    rw [(resolve_fields _ _).2.2.2.1]
    exact (hF1.items u hu).resourceIds
  have h4' := computeResourceIds_ok hres h4
  have hfix : ∀ t ∈ i3.binTypes, t.fixedItems = [] := by
    rw [h4']
    intro t ht
    change t ∈ (computeItemTypeIds st.1).binTypes at ht
    unfold computeItemTypeIds at ht
    obtain ⟨u, hu, rfl⟩ := List.mem_map.mp ht
    rw [hbins] at hu
    obtain ⟨v, hv, rfl⟩ := List.mem_map.mp hu
    change (resolveBin i1.numberOfItems v).fixedItems = []
    rw [(resolveBin_fields _ _).2.2.2.2.2.2]
    exact (hF1.bins v hv).fixedItems
  have h5 := computeCopiesFixed_ok hfix h
  refine ⟨b1, i1, st, h1, hF1, hI, hB, ?_⟩
  rw [h5, h4']
  have hlen : (computeItemTypeIds st.1).binTypes.length = st.1.binTypes.length := by
    simp [computeItemTypeIds]
  have hbt : ∀ t, ((computeItemTypeIds st.1).binType t).resources = (st.1.binType t).resources := by
    intro t
    unfold Instance.binType computeItemTypeIds
    simp only [List.getD_eq_getElem?_getD, List.getElem?_map]
    cases st.1.binTypes[t]? <;> rfl
  have hit : (computeItemTypeIds st.1).itemTypes = st.1.itemTypes := rfl
  rw [hlen, hit]
  simp only [hbt]

end PackingSolver.OneDim
