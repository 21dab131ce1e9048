import Verif.Lemmas.OneDim.TreeSearch

/-!
# Lemmas on the pruning bound of the one-dimensional tree search
-/

namespace PackingSolver.OneDim.TreeBound

open PackingSolver.OneDim OneDim.Spec TreeSearchLemmas Scheme PackingLemmas

variable {inst : Instance} {n m : Node}

/-- Total length of the first `k` bins. -/
def firstBins (inst : Instance) (k : Nat) : Int :=
  (((schemeBins inst).take k).map fun t => (inst.binType t).length).sum

theorem firstBins_mono (hN : NoNesting inst) {a b : Nat} (h : a ≤ b) :
    firstBins inst a ≤ firstBins inst b := by
  unfold firstBins
  have : (schemeBins inst).take b
      = (schemeBins inst).take a ++ ((schemeBins inst).take b).drop a := by
    conv_lhs => rw [← List.take_append_drop a ((schemeBins inst).take b), List.take_take,
      min_eq_left h]
  rw [this, List.map_append, List.sum_append]
  have : 0 ≤ (((((schemeBins inst).take b).drop a)).map fun t => (inst.binType t).length).sum := by
    refine List.sum_nonneg fun x hx => ?_
    obtain ⟨t, ht, rfl⟩ := List.mem_map.mp hx
    exact hN.lengths t (schemeBins_mem (List.mem_of_mem_take (List.mem_of_mem_drop ht)))
  omega

theorem firstBins_succ {k : Nat} (h : k < (schemeBins inst).length) :
    firstBins inst (k + 1)
      = firstBins inst k + (inst.binType ((schemeBins inst).getD k 0)).length := by
  unfold firstBins
  rw [List.take_succ_eq_append_getElem h, List.map_append, List.sum_append,
    List.getD_eq_getElem _ _ h]
  simp

/-- Where the last item of a node ends. -/
theorem current_eq {p : Packing} (h : Inv inst n p) (hnb : 0 < n.numberOfBins) :
    n.currentLength = firstBins inst (n.numberOfBins - 1) + n.lastBinLength := by
  rcases h.last with ⟨-, h0⟩ | ⟨q, t, l, hp, hl, -, ht, -, hlast⟩
  · omega
  have hlen := h.length
  have hq : q.length = n.numberOfBins - 1 := by rw [hp] at hlen; simp at hlen; omega
  have := h.binLength_take (n.numberOfBins - 1)
  rw [hp, List.take_left' hq] at this
  rw [h.current, hp, length_snoc _ _ _ hl, this, hlast.length, min_eq_left (by omega)]
  rfl

theorem current_le {p : Packing} (h : Inv inst n p) :
    n.currentLength ≤ firstBins inst n.numberOfBins := by
  rcases h.last with ⟨hp, h0⟩ | ⟨q, t, l, hp, hl, hnb, ht, -, hlast⟩
  · rw [h.current, hp, h0]; simp [Spec.length, firstBins]
  · have hle := h.le
    have h1 := current_eq h hnb
    have h2 : firstBins inst n.numberOfBins
        = firstBins inst (n.numberOfBins - 1) + (inst.binType t).length := by
      have := firstBins_succ (inst := inst) (k := n.numberOfBins - 1) (by omega)
      rw [Nat.sub_add_cancel hnb] at this
      rw [this, ← ht]
    have h3 : binEnd inst l ≤ (inst.binType t).length :=
      (h.fits ⟨t, 1, l⟩ (by rw [hp]; simp)) l (List.prefix_refl l) hl
    have h4 := hlast.length
    omega

/-- The waste does not decrease. -/
theorem waste_step (hN : NoNesting inst) {p : Packing} (hS : Sound inst) (h : Inv inst n p)
    {ins : Insertion} (hi : ins ∈ insertions inst n) : n.waste ≤ (n.child inst ins).waste := by
  have hw := h.waste
  rcases mem_insertions hi with ⟨i, rfl, h1, h2, h3, h4⟩ | ⟨i, k, rfl, h1, h2, h3, h4, h5, -⟩
  · have hle := h.le
    have hc := current_eq h h1
    obtain ⟨hit, -⟩ := ((hS.agg.itemTypeIds _ (schemeBins_getD (by omega))).2 i).mp h2
    have hn := hN.nesting i hit
    have hprev := schemePrevious_getD (inst := inst) (k := n.numberOfBins - 1) (by omega)
    change _ = firstBins inst (n.numberOfBins - 1) at hprev
    simp only [Node.child, hprev]
    omega
  · have hk : k < (schemeBins inst).length := by rw [schemeBins_length hS.agg.binTypeIds]; exact h2
    have hc := current_le h
    have hprev := schemePrevious_getD (inst := inst) hk
    change _ = firstBins inst k at hprev
    have := firstBins_mono hN h1
    simp only [Node.child, hprev]
    omega

theorem sameFold_profit (hP : PenaltiesNonneg inst) {t : Nat} (ht : t < inst.numberOfBinTypes)
    (i c : Nat) (L : List Nat) (s : List ℚ × ℚ) :
    (L.foldl (sameBinResourceStep (inst.binType t) i c) s).2 ≤ s.2 := by
  induction L generalizing s with
  | nil => exact le_rfl
  | cons r L ih =>
    rw [List.foldl_cons]
    refine (ih _).trans ?_
    simp only [sameBinResourceStep]
    split_ifs with hc
    · have : 0 ≤ ((inst.binType t).resources.getD r {}).penalty := by
        by_cases hr : r < (inst.binType t).resources.length
        · exact hP _ (binType_mem inst ht) _ (resAt_mem hr) hc.1
        · rw [List.getD_eq_default _ _ (by omega)] at hc
          exact absurd hc.1 (by decide)
      linarith
    · exact le_rfl

theorem newFold_profit (hP : PenaltiesNonneg inst) {t : Nat} (ht : t < inst.numberOfBinTypes)
    (i : Nat) (L : List Nat) (s : List ℚ × ℚ) :
    (L.foldl (newBinResourceStep (inst.binType t) i) s).2 ≤ s.2 := by
  induction L generalizing s with
  | nil => exact le_rfl
  | cons r L ih =>
    rw [List.foldl_cons]
    refine (ih _).trans ?_
    simp only [newBinResourceStep]
    split_ifs with hc
    · have : 0 ≤ ((inst.binType t).resources.getD r {}).penalty := by
        by_cases hr : r < (inst.binType t).resources.length
        · exact hP _ (binType_mem inst ht) _ (resAt_mem hr) hc.1
        · rw [List.getD_eq_default _ _ (by omega)] at hc
          exact absurd hc.1 (by decide)
      linarith
    · exact le_rfl

theorem ite_snd_le {c : Prop} [Decidable c] {a b : List ℚ × ℚ} {x : ℚ} (ha : a.2 ≤ x)
    (hb : b.2 ≤ x) : (if c then a else b).2 ≤ x := by
  split_ifs
  · exact ha
  · exact hb

/-- An insertion adds at most the profit of its item, and exactly its length. -/
theorem profit_step (hP : PenaltiesNonneg inst) {p : Packing} (hS : Sound inst) (h : Inv inst n p)
    {ins : Insertion} (hi : ins ∈ insertions inst n) :
    ins.itemTypeId < inst.numberOfItemTypes
      ∧ (n.child inst ins).profit ≤ n.profit + (inst.itemType ins.itemTypeId).profit
      ∧ (n.child inst ins).itemLength
        = n.itemLength + (inst.itemType ins.itemTypeId).length := by
  have hle := h.le
  rcases mem_insertions hi with ⟨i, rfl, h1, h2, h3, h4⟩ | ⟨i, k, rfl, h1, h2, h3, h4, h5, -⟩
  · have ht : (schemeBins inst).getD (n.numberOfBins - 1) 0 < inst.numberOfBinTypes :=
      schemeBins_getD (by omega)
    refine ⟨(((hS.agg.itemTypeIds _ ht).2 i).mp h2).1, ?_, rfl⟩
    simp only [Node.child]
    exact ite_snd_le (sameFold_profit hP ht _ _ _ _) le_rfl
  · have ht : (schemeBins inst).getD k 0 < inst.numberOfBinTypes :=
      schemeBins_getD (by rw [schemeBins_length hS.agg.binTypeIds]; exact h2)
    refine ⟨(((hS.agg.itemTypeIds _ ht).2 i).mp h3).1, ?_, rfl⟩
    simp only [Node.child]
    exact ite_snd_le (newFold_profit hP ht _ _ _) le_rfl

theorem waste_descends (hN : NoNesting inst) {p : Packing} (hS : Sound inst) (h : Inv inst n p)
    (hd : Descends inst n m) : n.waste ≤ m.waste := by
  induction hd with
  | refl => exact le_rfl
  | step m ins hd' hi ih =>
    obtain ⟨p', h'⟩ := inv_descends hS h hd'
    exact ih.trans (waste_step hN hS h' hi)

/-- Along a path, the profit grows at most as fast as the best efficiency allows. -/
theorem efficiency_descends (hP : PenaltiesNonneg inst) {e : ℚ}
    (he : ∀ j, j < inst.numberOfItemTypes →
      (inst.itemType j).profit ≤ e * ((inst.itemType j).length : ℚ))
    {p : Packing} (hS : Sound inst) (h : Inv inst n p) (hd : Descends inst n m) :
    m.profit ≤ n.profit + e * ((m.itemLength - n.itemLength : Int) : ℚ) := by
  induction hd with
  | refl => simp
  | step m ins hd' hi ih =>
    obtain ⟨p', h'⟩ := inv_descends hS h hd'
    obtain ⟨h1, h2, h3⟩ := profit_step hP hS h' hi
    have h4 := he _ h1
    rw [h3]
    push_cast at ih ⊢
    linarith

theorem itemCopies_of_leaf {p : Packing} (hS : Sound inst) (h : Inv inst n p)
    (hl : n.leaf inst = true) (i : Nat) (hi : i < inst.numberOfItemTypes) :
    itemCopies p i = (inst.itemType i).copies := by
  unfold Node.leaf at hl
  have hl := of_decide_eq_true hl
  rw [h.number, numberOfItems_eq h.wellTyped, hS.agg.numberOfItems,
    sum_types _ default (fun t : ItemType => t.copies)] at hl
  have := (Finset.sum_eq_sum_iff_of_le (fun j hj => h.within j (Finset.mem_range.mp hj))).mp hl
  exact this i (Finset.mem_range.mpr hi)

theorem itemLength_of_leaf {p : Packing} (hS : Sound inst) (h : Inv inst n p)
    (hl : n.leaf inst = true) : n.itemLength = inst.itemLength := by
  rw [h.itemLength, itemLength_eq h.wellTyped, hS.agg.itemLength,
    sum_types _ default (fun t : ItemType => t.copies * t.length)]
  refine Finset.sum_congr rfl fun i hi => ?_
  rw [itemCopies_of_leaf hS h hl i (Finset.mem_range.mp hi)]
  rfl

/-- The number of bins needed to reach a length is at most that of any prefix reaching it. -/
theorem binsToReach_le (L : List Nat) (a : Int) (k : Nat) (hk : k ≤ L.length)
    (h : a ≤ ((L.take k).map fun t => (inst.binType t).length).sum) :
    ∃ j, binsToReach inst L a = some j ∧ j ≤ k := by
  induction L generalizing a k with
  | nil =>
    have : a ≤ 0 := by simpa using h
    exact ⟨0, by rw [binsToReach, if_neg (by omega)], by omega⟩
  | cons t L ih =>
    by_cases ha : a > 0
    · cases k with
      | zero => simp at h; omega
      | succ k =>
        obtain ⟨j, hj, hjk⟩ := ih (a - (inst.binType t).length) k (by simpa using hk)
          (by rw [List.take_succ_cons, List.map_cons, List.sum_cons] at h; omega)
        exact ⟨j + 1, by rw [binsToReach, if_pos ha]; simp [hj], by omega⟩
    · exact ⟨0, by rw [binsToReach, if_neg ha], by omega⟩

theorem penalties_nonneg (hP : PenaltiesNonneg inst) {t : Nat} (ht : t < inst.numberOfBinTypes)
    (l : List Nat) : 0 ≤ penalties inst t l := by
  unfold penalties
  refine List.sum_nonneg fun x hx => ?_
  obtain ⟨r, hr, rfl⟩ := List.mem_map.mp hx
  split_ifs with hc
  · exact hP _ (binType_mem inst ht) r hr hc.1
  · exact le_rfl

/-- The profit of a node is at most that of its items. -/
theorem profit_le (hP : PenaltiesNonneg inst) {p : Packing} (h : Inv inst n p) :
    n.profit ≤ ∑ i ∈ Finset.range inst.numberOfItemTypes,
      (itemCopies p i : ℚ) * (inst.itemType i).profit := by
  have h1 := items_sum (R := ℚ) (fun i => (inst.itemType i).profit) h.wellTyped
  rw [h.profit, ← h1]
  unfold profit
  refine List.sum_le_sum fun b hb => ?_
  have := penalties_nonneg hP (h.wellTyped b hb).1 b.items
  unfold itemsProfit
  linarith

theorem profit_le_total (hP : PenaltiesNonneg inst) (hN : ProfitsNonneg inst) {p : Packing}
    (hS : Sound inst) (h : Inv inst n p) : n.profit ≤ inst.itemProfit := by
  refine (profit_le hP h).trans ?_
  rw [hS.agg.itemProfit, sum_types _ default (fun t : ItemType => (t.copies : ℚ) * t.profit)]
  refine Finset.sum_le_sum fun i hi => ?_
  have h1 := h.within i (Finset.mem_range.mp hi)
  have h2 := hN i (Finset.mem_range.mp hi)
  exact mul_le_mul_of_nonneg_right (by exact_mod_cast h1) h2

/-- Without penalties, a leaf has the profit of all the items. -/
theorem profit_leaf (hP : NoPenalties inst) {p : Packing} (hS : Sound inst) (h : Inv inst n p)
    (hl : n.leaf inst = true) : n.profit = inst.itemProfit := by
  have h1 := items_sum (R := ℚ) (fun i => (inst.itemType i).profit) h.wellTyped
  have h2 : n.profit = ∑ i ∈ Finset.range inst.numberOfItemTypes,
      (itemCopies p i : ℚ) * (inst.itemType i).profit := by
    rw [h.profit, ← h1]
    unfold profit
    congr 1
    refine List.map_congr_left fun b hb => ?_
    have : penalties inst b.binTypeId b.items = 0 := by
      unfold penalties
      refine List.sum_eq_zero fun x hx => ?_
      obtain ⟨r, hr, rfl⟩ := List.mem_map.mp hx
      rw [if_neg]
      rw [hP _ (binType_mem inst (h.wellTyped b hb).1) r hr]
      simp
    rw [this, sub_zero]
    rfl
  rw [h2, hS.agg.itemProfit, sum_types _ default (fun t : ItemType => (t.copies : ℚ) * t.profit)]
  refine Finset.sum_congr rfl fun i hi => ?_
  rw [itemCopies_of_leaf hS h hl i (Finset.mem_range.mp hi)]
  rfl

theorem positions_sum (f : Nat → Int) (bins : List BinType) (h : ∀ b ∈ bins, 0 ≤ b.copies) :
    ((binPositions bins).map f).sum
      = ∑ t ∈ Finset.range bins.length, (bins.getD t default).copies * f t := by
  rw [binPositions_eq]
  have key : ∀ k, k ≤ bins.length → (((List.range k).flatMap
      fun t => List.replicate (bins.getD t default).copies.toNat t).map f).sum
      = ∑ t ∈ Finset.range k, (bins.getD t default).copies * f t := by
    intro k hk
    induction k with
    | zero => simp
    | succ k ih =>
      rw [List.range_succ, List.flatMap_append, List.map_append, List.sum_append,
        ih (by omega), Finset.sum_range_succ]
      congr 1
      have hb := h (bins.getD k default) (by
        rw [List.getD_eq_getElem _ _ (by omega)]; exact List.getElem_mem _)
      simp only [List.flatMap_cons, List.flatMap_nil, List.append_nil, List.map_replicate,
        List.sum_replicate, nsmul_eq_mul]
      rw [Int.toNat_of_nonneg hb]
  exact key _ le_rfl

/-- All the bins together. -/
theorem firstBins_total (hS : Sound inst) :
    firstBins inst (schemeBins inst).length = inst.binLength := by
  unfold firstBins
  rw [List.take_length, hS.agg.binLength,
    ((schemeBins_perm hS.agg.binTypeIds).map _).sum_eq, hS.agg.binTypeIds,
    positions_sum (fun t => (inst.binType t).length) _ hS.binCopies,
    sum_types _ default (fun t : BinType => t.copies * t.length)]
  rfl

theorem current_le_total (hN : NoNesting inst) (hS : Sound inst) {p : Packing}
    (h : Inv inst n p) : n.currentLength ≤ inst.binLength := by
  rw [← firstBins_total hS]
  exact (current_le h).trans (firstBins_mono hN h.le)

/-- The upper bound on the profit of the descendants. -/
theorem ubkp_valid (hN : NoNesting inst) (hP : PenaltiesNonneg inst) (hpr : ProfitsNonneg inst)
    (hlen : ∀ i, i < inst.numberOfItemTypes → 0 < (inst.itemType i).length)
    (hS : Sound inst) {p : Packing} (h : Inv inst n p) (hd : Descends inst n m) :
    m.profit ≤ ubkp inst n := by
  obtain ⟨pm, hm⟩ := inv_descends hS h hd
  unfold ubkp
  dsimp only
  split_ifs with hc
  · exact profit_le_total hP hpr hS hm
  · by_cases hne : inst.itemTypes = []
    · exfalso
      have h1 : inst.itemLength = 0 := by rw [hS.agg.itemLength, hne]; rfl
      have h2 : n.itemLength = 0 := by
        rw [h.itemLength, itemLength_eq h.wellTyped]
        simp [Instance.numberOfItemTypes, hne]
      have := current_le_total hN hS h
      omega
    · obtain ⟨i, hi, hie, hmax⟩ := hS.agg.largestEfficiency.2 hne
      rw [hie, Int.toNat_natCast]
      have hLi : (0 : ℚ) < (inst.itemType i).length := by exact_mod_cast hlen i hi
      have he : ∀ j, j < inst.numberOfItemTypes → (inst.itemType j).profit
          ≤ (inst.itemType i).profit / ((inst.itemType i).length : ℚ)
            * ((inst.itemType j).length : ℚ) := by
        intro j hj
        have hLj : (0 : ℚ) < (inst.itemType j).length := by exact_mod_cast hlen j hj
        have := hmax j hj
        rwa [div_le_iff₀ hLj] at this
      have h1 := efficiency_descends hP he hS h hd
      have h2 := waste_descends hN hS h hd
      have h3 := current_le_total hN hS hm
      have h4 := h.waste
      have h5 := hm.waste
      have h6 : m.itemLength - n.itemLength ≤ inst.binLength - n.currentLength := by omega
      have h7 : ((m.itemLength - n.itemLength : Int) : ℚ)
          ≤ ((inst.binLength - n.currentLength : Int) : ℚ) := by exact_mod_cast h6
      have he0 : 0 ≤ (inst.itemType i).profit / ((inst.itemType i).length : ℚ) :=
        div_nonneg (hpr i hi) hLi.le
      have h8 := mul_le_mul_of_nonneg_left h7 he0
      calc m.profit ≤ _ := h1
        _ ≤ n.profit + (inst.itemType i).profit / ((inst.itemType i).length : ℚ)
              * ((inst.binLength - n.currentLength : Int) : ℚ) := by linarith
        _ = _ := by ring

end PackingSolver.OneDim.TreeBound
