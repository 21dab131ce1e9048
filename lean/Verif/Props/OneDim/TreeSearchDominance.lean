import Verif.Lemmas.OneDim.Dominance
import Verif.Props.OneDim.TreeSearchBound

/-!
# Property theorems: dominance in the one-dimensional tree search (C30)
-/

namespace PackingSolver.OneDim

open OneDim.Spec InstanceBuilder TreeSearchLemmas Checks Scheme TreeBound Dominance PackingLemmas

variable {inst : Instance} {n1 n2 : Node}

/-- **C30**, without weight limits, stackability, penalties and varying consumptions: if `n1`
packs the same items as `n2` and dominates it, then every completion of the packing of `n2` that
satisfies the constraints is a completion of the packing of `n1` that satisfies them, with the
same items, the same bins, the same profit and at most the same length. -/
theorem dominance_safe_partial (hS : Sound inst) (hL : LengthOnly inst)
    (h1 : TreeNode inst n1) (h2 : TreeNode inst n2)
    (hc : comparable n1 n2 = true) (hd : dominates n1 n2 = true)
    (hok : ∀ b ∈ nodePacking inst n1, BinOk inst b.binTypeId b.items)
    (items : List Nat) (bins : Packing)
    (hw : WellTyped inst (completion (nodePacking inst n2) items bins))
    (hb : ∀ b ∈ completion (nodePacking inst n2) items bins, BinOk inst b.binTypeId b.items)
    (hl : ∀ i, i < inst.numberOfItemTypes →
      itemCopies (completion (nodePacking inst n2) items bins) i ≤ (inst.itemType i).copies) :
    (∀ b ∈ completion (nodePacking inst n1) items bins, BinOk inst b.binTypeId b.items)
      ∧ (∀ i, i < inst.numberOfItemTypes →
        itemCopies (completion (nodePacking inst n1) items bins) i
          = itemCopies (completion (nodePacking inst n2) items bins) i)
      ∧ (completion (nodePacking inst n1) items bins).map (·.binTypeId)
        = (completion (nodePacking inst n2) items bins).map (·.binTypeId)
      ∧ profit inst (completion (nodePacking inst n1) items bins)
        = profit inst (completion (nodePacking inst n2) items bins)
      ∧ Spec.length inst (completion (nodePacking inst n1) items bins)
        ≤ Spec.length inst (completion (nodePacking inst n2) items bins) := by
  have i1 := treeNode_inv hS h1
  have i2 := treeNode_inv hS h2
  simp only [comparable, decide_eq_true_eq] at hc
  simp only [dominates, Bool.and_eq_true, decide_eq_true_eq, Bool.not_eq_true',
    decide_eq_false_iff_not, not_lt, List.all_eq_true, List.mem_range] at hd
  obtain ⟨⟨⟨⟨hit, hnb⟩, hcl⟩, -⟩, hres⟩ := hd
  have hcop : ∀ i, i < inst.numberOfItemTypes →
      itemCopies (nodePacking inst n1) i = itemCopies (nodePacking inst n2) i := fun i hi => by
    rw [← i1.copies i hi, ← i2.copies i hi, hc]
  rcases i2.last with ⟨hp2, h0⟩ | ⟨q2, t, l2, hp2, hl2, hpos, ht2, hlast2, hinv2⟩
  · have hp1 : nodePacking inst n1 = [] := by
      have := i1.length; rw [hnb, h0] at this; exact List.length_eq_zero_iff.mp this
    rw [hp2] at hb ⊢
    rw [hp1]
    exact ⟨hb, fun _ _ => rfl, rfl, rfl, le_rfl⟩
  rcases i1.last with ⟨hp1, h0⟩ | ⟨q1, t', l1, hp1, hl1, -, ht1, hlast1, hinv1⟩
  · omega
  have htt : t' = t := by rw [ht1, ht2, hnb]
  subst htt
  have hle := i1.le
  have ht : t' < inst.numberOfBinTypes := by rw [ht1]; exact schemeBins_getD (by omega)
  have htypes : q1.map (·.binTypeId) = q2.map (·.binTypeId) := by
    have := i1.types.trans (hnb ▸ i2.types.symm)
    rw [hp1, hp2, List.map_append, List.map_append] at this
    exact List.append_inj_left' this rfl
  have hones1 := i1.ones
  have hones2 := i2.ones
  rw [hp1] at hok hcop hones1 ⊢
  rw [hp2] at hw hb hl hcop hones2 ⊢
  rw [completion_snoc] at hw hb hl ⊢
  rw [completion_snoc]
  simp only at hw hb hl ⊢
  have hcopies : ∀ i, i < inst.numberOfItemTypes →
      itemCopies (q1 ++ ⟨t', 1, l1 ++ items⟩ :: bins) i
        = itemCopies (q2 ++ ⟨t', 1, l2 ++ items⟩ :: bins) i := fun i hi => by
    have := hcop i hi
    simp only [itemCopies_append] at this ⊢
    rw [itemCopies_cons, itemCopies_cons ⟨t', 1, l2 ++ items⟩, itemCopies_grow, itemCopies_grow]
    omega
  have hw1 : WellTyped inst (q1 ++ ⟨t', 1, l1 ++ items⟩ :: bins) := by
    intro b hb'
    rcases List.mem_append.mp hb' with hb' | hb'
    · exact i1.wellTyped b (by rw [hp1]; simp [hb'])
    · rcases List.mem_cons.mp hb' with rfl | hb'
      · refine ⟨ht, zero_le_one, fun i hi => ?_⟩
        rcases List.mem_append.mp hi with hi | hi
        · exact i1.items ⟨t', 1, l1⟩ (by rw [hp1]; simp) i hi
        · exact (hw ⟨t', 1, l2 ++ items⟩ (by simp)).2.2 i (List.mem_append_right _ hi)
      · exact hw b (by simp [hb'])
  have hbl : binLength inst q1 = binLength inst q2 := by
    have e1 : binLength inst q1 = ((q1.map (·.binTypeId)).map fun t => (inst.binType t).length).sum := by
      unfold binLength
      rw [List.map_map]
      congr 1
      refine List.map_congr_left fun b hb' => ?_
      rw [hones1 b (by simp [hb'])]; simp
    have e2 : binLength inst q2 = ((q2.map (·.binTypeId)).map fun t => (inst.binType t).length).sum := by
      unfold binLength
      rw [List.map_map]
      congr 1
      refine List.map_congr_left fun b hb' => ?_
      rw [hones2 b (by simp [hb'])]; simp
    rw [e1, e2, htypes]
  have hend : binEnd inst l1 ≤ binEnd inst l2 := by
    have a1 := i1.current
    have a2 := i2.current
    rw [hp1, length_snoc _ _ _ hl1] at a1
    rw [hp2, length_snoc _ _ _ hl2] at a2
    omega
  have hcons : ∀ r ∈ (inst.binType t').resources,
      consumption inst r l1 ≤ consumption inst r l2 := by
    intro r hr
    obtain ⟨k, hk, rfl⟩ := List.getElem_of_mem hr
    obtain ⟨b1, b2, -⟩ := hinv1.resources (by omega)
    obtain ⟨-, c2, -⟩ := hinv2.resources (by omega)
    have := hres k (by omega)
    rw [b2 k hk, c2 k hk, resAt, List.getD_eq_getElem _ _ hk] at this
    exact this
  have hnum : numberOfItems (q1 ++ ⟨t', 1, l1 ++ items⟩ :: bins) ≤ inst.numberOfItems := by
    rw [numberOfItems_eq hw1, hS.agg.numberOfItems,
      sum_types _ default (fun t : ItemType => t.copies)]
    refine Finset.sum_le_sum fun i hi => ?_
    rw [hcopies i (Finset.mem_range.mp hi)]
    exact hl i (Finset.mem_range.mp hi)
  have hlen : ((l1 ++ items).length : Int) ≤ inst.numberOfItems := by
    refine le_trans ?_ hnum
    unfold numberOfItems
    have : ∀ L : Packing, WellTyped inst L →
        0 ≤ (L.map fun b => b.copies * (b.items.length : Int)).sum := fun L hL => by
      refine List.sum_nonneg fun x hx => ?_
      obtain ⟨b, hb', rfl⟩ := List.mem_map.mp hx
      exact mul_nonneg (hL b hb').2.1 (by omega)
    have e1 := this q1 fun b hb' => hw1 b (by simp [hb'])
    have e2 := this bins fun b hb' => hw1 b (by simp [hb'])
    simp only [List.map_append, List.map_cons, List.sum_append, List.sum_cons, one_mul]
    omega
  refine ⟨?_, hcopies, ?_, ?_, ?_⟩
  · intro b hb'
    rcases List.mem_append.mp hb' with hb' | hb'
    · exact hok b (by simp [hb'])
    · rcases List.mem_cons.mp hb' with rfl | hb'
      · exact binOk_append hS hL ht hl1 hl2 (hok ⟨t', 1, l1⟩ (by simp))
          (hb ⟨t', 1, l2 ++ items⟩ (by simp)) hend hcons
          (hw1 ⟨t', 1, l1 ++ items⟩ (by simp)).2.2 hlen
      · exact hb b (by simp [hb'])
  · simp [htypes]
  · rw [profit_copies hL.penalties hw1, profit_copies hL.penalties hw]
    refine Finset.sum_congr rfl fun i hi => ?_
    rw [hcopies i (Finset.mem_range.mp hi)]
  · rw [List.append_cons q1, List.append_cons q2, length_append _ bins,
      length_append (q2 ++ _) bins]
    by_cases hne : ∃ b ∈ bins, b.items ≠ []
    · rw [if_pos hne, if_pos hne, binLength_snoc, binLength_snoc, hbl]
    · rw [if_neg hne, if_neg hne, length_snoc _ _ _ (by simp [hl1]),
        length_snoc _ _ _ (by simp [hl2]), binEnd_append _ _ hl1, binEnd_append _ _ hl2, hbl]
      omega

/-! ### Concrete cases -/

/-- Checks `LengthOnly`. -/
def lengthOnlyB (inst : Instance) : Bool :=
  (inst.itemTypes.all fun i => decide (i.maximumWeightAfter = .inf)
    && decide (inst.numberOfItems ≤ i.maximumStackability))
  && inst.binTypes.all fun b => decide (b.maximumWeight = .inf) && b.resources.all fun r =>
    !r.penalize && r.itemConsumptions.all fun s => decide (s.length ≤ 1)

theorem lengthOnly_of (h : lengthOnlyB inst = true) : LengthOnly inst := by
  simp only [lengthOnlyB, Bool.and_eq_true, List.all_eq_true, decide_eq_true_eq,
    Bool.not_eq_true'] at h
  have hit : ∀ i, i < inst.numberOfItemTypes → inst.itemType i ∈ inst.itemTypes := fun i hi => by
    unfold Instance.itemType
    rw [List.getD_eq_getElem _ _ hi]; exact List.getElem_mem _
  exact ⟨fun t ht => (h.2 _ (binType_mem inst ht)).1, fun i hi => (h.1 _ (hit i hi)).1,
    fun i hi => (h.1 _ (hit i hi)).2, fun b hb r hr => ((h.2 b hb).2 r hr).1,
    fun b hb r hr => ((h.2 b hb).2 r hr).2⟩

/-- Two bins with a resource; items of lengths 4 (consumption 1), 5 (consumption 0), 6, 3
and 2. -/
def dominanceCalls : List Op :=
  [.addBinType 10, .setBinTypeCopies 0 2, .addBinTypeResource 0 1 false 0,
   .addItemType 4, .addResourceConsumption 0 0 0 0 1, .addItemType 5, .addItemType 5,
   .addItemType 6, .addItemType 3, .addItemType 2]

/-- Two different arrangements of the same items, the first of which leaves more room in the
second bin; the second one is completed by the last item. -/
example : ∃ inst n1 n2 m, runOps .binPacking dominanceCalls = .ok inst ∧ Sound inst
    ∧ LengthOnly inst ∧ TreeNode inst n1 ∧ TreeNode inst n2 ∧ comparable n1 n2 = true
    ∧ dominates n1 n2 = true ∧ n1.history ≠ n2.history ∧ Descends inst n2 m
    ∧ nodePacking inst m = completion (nodePacking inst n2) [5] [] ∧ m.numberOfItems = 4 := by
  obtain ⟨inst, n2, n1, m, h1, h2, h3, h4, h5, hc⟩ := threeAnd_ok (o := .binPacking)
    (calls := dominanceCalls) (l1 := [⟨0, some 0⟩, ⟨3, none⟩, ⟨1, some 1⟩])
    (l2 := [⟨3, some 0⟩, ⟨0, none⟩, ⟨1, some 1⟩]) (l3 := [⟨5, none⟩])
    (f := fun inst n2 n1 m => lengthOnlyB inst && comparable n1 n2 && dominates n1 n2
      && decide (n1.history ≠ n2.history)
      && decide (nodePacking inst m = completion (nodePacking inst n2) [5] [])
      && decide (m.numberOfItems = 4))
    (by decide +kernel)
  simp only [Bool.and_eq_true, decide_eq_true_eq] at hc
  exact ⟨inst, n1, n2, m, h1, h2, lengthOnly_of hc.1.1.1.1.1, h4, h3, hc.1.1.1.1.2, hc.1.1.1.2,
    hc.1.1.2, h5, hc.1.2, hc.2⟩

/-! ### Where dominance is not safe -/

/-- All the descendants of a node satisfy a check (when the fuel suffices). -/
def allBelow (inst : Instance) (f : Node → Bool) : Nat → Node → Bool
  | 0, _ => false
  | fuel + 1, n => f n && (insertions inst n).all fun ins => allBelow inst f fuel (n.child inst ins)

theorem allBelow_ok {f : Node → Bool} {fuel : Nat} {n m : Node}
    (h : allBelow inst f fuel n = true) (hd : Descends inst n m) :
    ∃ k, allBelow inst f k m = true := by
  induction hd with
  | refl => exact ⟨fuel, h⟩
  | step m ins _ hi ih =>
    obtain ⟨k, hk⟩ := ih
    cases k with
    | zero => cases hk
    | succ k =>
      simp only [allBelow, Bool.and_eq_true, List.all_eq_true] at hk
      exact ⟨k, hk.2 ins hi⟩

theorem allBelow_check {f : Node → Bool} {fuel : Nat} {n m : Node}
    (h : allBelow inst f fuel n = true) (hd : Descends inst n m) : f m = true := by
  obtain ⟨k, hk⟩ := allBelow_ok h hd
  cases k with
  | zero => cases hk
  | succ k =>
    simp only [allBelow, Bool.and_eq_true] at hk
    exact hk.1

/-- An instance built by `calls` on which a node with the same items as `n2` dominates it,
although a descendant of `n2` is better than every descendant of the dominating node. -/
def DominanceUnsafe (o : Objective) (calls : List Op) : Prop :=
  ∃ inst n1 n2 m, runOps o calls = .ok inst ∧ Sound inst ∧ TreeNode inst n1 ∧ TreeNode inst n2
    ∧ comparable n1 n2 = true ∧ dominates n1 n2 = true ∧ Descends inst n2 m
    ∧ ∀ m1, Descends inst n1 m1 → better inst m m1 = .ok true

theorem dominanceUnsafe_of {o : Objective} {calls : List Op} (l1 l2 l3 : List Insertion)
    (h : threeAnd o calls l2 l1 l3 (fun inst n2 n1 m => comparable n1 n2 && dominates n1 n2
      && allBelow inst (fun m1 => decide (better inst m m1 = .ok true)) 5 n1) = true) :
    DominanceUnsafe o calls := by
  obtain ⟨inst, n2, n1, m, h1, h2, h3, h4, h5, hc⟩ := threeAnd_ok h
  simp only [Bool.and_eq_true] at hc
  exact ⟨inst, n1, n2, m, h1, h2, h4, h3, hc.1.1, hc.1.2, h5, fun m1 hm1 =>
    of_decide_eq_true (allBelow_check hc.2 hm1)⟩

/-- Two bins of length 10; items 0 and 1 of length 4, item 2 of length 6, items 3 and 4 of
length 3. -/
def fiveItems : List Op :=
  [.addBinType 10, .setBinTypeCopies 0 2, .addItemType 4, .addItemType 4, .addItemType 6,
   .addItemType 3, .addItemType 3]

/-- **C30** fails with weight limits: dominance ignores the weight in the last bin. -/
theorem dominance_unsafe_weight : DominanceUnsafe .binPacking (fiveItems ++
    [.setBinTypeMaximumWeight 0 (.fin 10), .setItemTypeWeight 0 8, .setItemTypeWeight 3 1,
     .setItemTypeWeight 4 5]) :=
  dominanceUnsafe_of [⟨1, some 0⟩, ⟨2, none⟩, ⟨0, some 1⟩, ⟨3, none⟩]
    [⟨0, some 0⟩, ⟨2, none⟩, ⟨1, some 1⟩, ⟨3, none⟩] [⟨4, none⟩] (by decide +kernel)

/-- **C30** fails with stackability limits. -/
theorem dominance_unsafe_stackability : DominanceUnsafe .binPacking (fiveItems ++
    [.setItemTypeMaximumStackability 0 2]) :=
  dominanceUnsafe_of [⟨1, some 0⟩, ⟨2, none⟩, ⟨0, some 1⟩, ⟨3, none⟩]
    [⟨0, some 0⟩, ⟨2, none⟩, ⟨1, some 1⟩, ⟨3, none⟩] [⟨4, none⟩] (by decide +kernel)

/-- **C30** fails with limits on the weight after an item. -/
theorem dominance_unsafe_weight_after : DominanceUnsafe .binPacking (fiveItems ++
    [.setItemTypeMaximumWeightAfter 0 (.fin 1), .setItemTypeWeight 3 1, .setItemTypeWeight 4 1]) :=
  dominanceUnsafe_of [⟨1, some 0⟩, ⟨2, none⟩, ⟨0, some 1⟩, ⟨3, none⟩]
    [⟨0, some 0⟩, ⟨2, none⟩, ⟨1, some 1⟩, ⟨3, none⟩] [⟨4, none⟩] (by decide +kernel)

/-- **C30** fails with penalized resources: a node that has not paid a penalty yet dominates a
node that has, and pays it later. -/
theorem dominance_unsafe_penalty : DominanceUnsafe .knapsack (fiveItems ++
    [.addBinTypeResource 0 1 true 10, .addResourceConsumption 0 0 0 0 2,
     .addResourceConsumption 0 0 4 0 2, .setItemTypeProfit 4 5]) :=
  dominanceUnsafe_of [⟨0, some 0⟩, ⟨2, none⟩, ⟨1, some 1⟩, ⟨3, none⟩]
    [⟨1, some 0⟩, ⟨2, none⟩, ⟨0, some 1⟩, ⟨3, none⟩] [⟨4, none⟩] (by decide +kernel)

/-- **C30** fails when the consumption of an item type depends on the number of copies already
in the bin. -/
theorem dominance_unsafe_rate : DominanceUnsafe .binPacking
    [.addBinType 10, .setBinTypeCopies 0 2, .addBinTypeResource 0 2 false 0, .addItemType 4,
     .setItemTypeCopies 0 2, .addResourceConsumption 0 0 0 0 2, .addResourceConsumption 0 0 0 1 0,
     .addItemType 4, .addResourceConsumption 0 0 1 0 1, .addItemType 6, .addItemType 2] :=
  dominanceUnsafe_of [⟨0, some 0⟩, ⟨2, none⟩, ⟨1, some 1⟩, ⟨3, none⟩]
    [⟨1, some 0⟩, ⟨2, none⟩, ⟨0, some 1⟩, ⟨3, none⟩] [⟨0, none⟩] (by decide +kernel)

end PackingSolver.OneDim
