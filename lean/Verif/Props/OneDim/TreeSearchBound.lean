import Verif.Lemmas.OneDim.Bound
import Verif.Lemmas.OneDim.Checks

/-!
# Property theorems: pruning in the one-dimensional tree search (C29)

`bound inst n1 n2` prunes `n1` when the best node found so far is `n2`.  It is safe when no
descendant of `n1` is better than `n2`.
-/

namespace PackingSolver.OneDim

open OneDim.Spec InstanceBuilder TreeSearchLemmas Checks Scheme TreeBound

variable {inst : Instance} {n1 n2 m : Node}

/-- **C29**, bin packing, variable-sized bin packing and bin packing with leftovers, when items
do not nest: a pruned node has no descendant better than the best known node. -/
theorem bound_safe_packing_partial
    (ho : inst.objective = .binPacking ∨ inst.objective = .variableSizedBinPacking
      ∨ inst.objective = .binPackingWithLeftovers)
    (hS : Sound inst) (hN : NoNesting inst) (h1 : TreeNode inst n1)
    (hb : bound inst n1 n2 = .ok true) (hd : Descends inst n1 m) :
    better inst m n2 = .ok false := by
  have hi := treeNode_inv hS h1
  obtain ⟨pm, hm⟩ := inv_descends hS hi hd
  have hw := waste_descends hN hS hi hd
  have key : (inst.objective = .binPacking ∨ inst.objective = .variableSizedBinPacking) →
      better inst m n2 = .ok false := by
    intro ho
    have hB : bound inst n1 n2 = if !n2.leaf inst then .ok false
        else match binsToReach inst ((schemeBins inst).take inst.numberOfBins)
          (inst.itemLength + n1.waste) with
        | none => .ok true
        | some k => .ok (decide (k ≥ n2.numberOfBins)) := by
      rcases ho with ho | ho <;> simp only [bound, ho] <;> rfl
    have hR : better inst m n2 = if !m.leaf inst then .ok false
        else if !n2.leaf inst then .ok true
        else .ok (decide (n2.numberOfBins > m.numberOfBins)) := by
      rcases ho with ho | ho <;> simp only [better, ho]
    rw [hB] at hb
    rw [hR]
    cases hl2 : n2.leaf inst with
    | false => rw [hl2] at hb; simp at hb
    | true =>
      rw [hl2] at hb
      cases hlm : m.leaf inst with
      | false => simp
      | true =>
        have h3 := itemLength_of_leaf hS hm hlm
        have h4 := hm.waste
        have h5 := current_le hm
        obtain ⟨j, hj, hjm⟩ := binsToReach_le (inst := inst)
          ((schemeBins inst).take inst.numberOfBins) (inst.itemLength + n1.waste) m.numberOfBins
          (by rw [List.length_take, ← schemeBins_length hS.agg.binTypeIds, min_self]; exact hm.le)
          (by
            rw [← schemeBins_length hS.agg.binTypeIds, List.take_length]
            change _ ≤ firstBins inst m.numberOfBins
            omega)
        rw [hj] at hb
        simp only [Bool.not_true, Bool.false_eq_true, if_false, Except.ok.injEq,
          decide_eq_true_eq] at hb
        simp only [Bool.not_true, Bool.false_eq_true, if_false, Except.ok.injEq,
          decide_eq_false_iff_not]
        omega
  rcases ho with ho | ho | ho
  · exact key (.inl ho)
  · exact key (.inr ho)
  · simp only [bound, ho] at hb
    simp only [better, ho]
    cases hl2 : n2.leaf inst with
    | false => rw [hl2] at hb; simp at hb
    | true =>
      rw [hl2] at hb
      cases hlm : m.leaf inst with
      | false => simp
      | true =>
        simp only [Bool.not_true, Bool.false_eq_true, if_false, Except.ok.injEq,
          decide_eq_true_eq] at hb
        simp only [Bool.not_true, Bool.false_eq_true, if_false, Except.ok.injEq,
          decide_eq_false_iff_not]
        omega

/-- **C29**, knapsack: no node is pruned. -/
theorem bound_safe_knapsack (ho : inst.objective = .knapsack) : bound inst n1 n2 = .ok false := by
  simp only [bound, ho]

/-- **C29**, feasibility, with non-negative profits and no penalized resource. -/
theorem bound_safe_feasibility_partial (ho : inst.objective = .feasibility)
    (hS : Sound inst) (hpr : ProfitsNonneg inst) (hP : NoPenalties inst)
    (h1 : TreeNode inst n1) (h2 : TreeNode inst n2)
    (hb : bound inst n1 n2 = .ok true) (hd : Descends inst n1 m) :
    better inst m n2 = .ok false := by
  simp only [bound, ho, Except.ok.injEq] at hb
  obtain ⟨pm, hm⟩ := inv_descends hS (treeNode_inv hS h1) hd
  have h3 := profit_leaf hP hS (treeNode_inv hS h2) hb
  have hP' : PenaltiesNonneg inst := fun b hb r hr h => by rw [hP b hb r hr] at h; cases h
  have h4 := profit_le_total hP' hpr hS hm
  simp only [better, ho, Except.ok.injEq, decide_eq_false_iff_not]
  linarith

/-- **C29**, default objective, with positive item lengths, non-negative profits and penalties
and items that do not nest: a pruned node has no descendant with a larger profit, and no better
descendant when the best known node packs all the items. -/
theorem bound_safe_default_partial (ho : inst.objective = .default)
    (hS : Sound inst) (hN : NoNesting inst) (hpr : ProfitsNonneg inst)
    (hP : PenaltiesNonneg inst)
    (hlen : ∀ i, i < inst.numberOfItemTypes → 0 < (inst.itemType i).length)
    (h1 : TreeNode inst n1) (hb : bound inst n1 n2 = .ok true) (hd : Descends inst n1 m) :
    m.profit ≤ n2.profit ∧ (n2.leaf inst = true → better inst m n2 = .ok false) := by
  have hi := treeNode_inv hS h1
  have hu := ubkp_valid hN hP hpr hlen hS hi hd
  have hw := waste_descends hN hS hi hd
  simp only [bound, ho] at hb
  simp only [better, ho]
  cases hl2 : n2.leaf inst with
  | false =>
    rw [hl2] at hb
    simp only [Bool.not_false, if_true, Except.ok.injEq, decide_eq_true_eq] at hb
    exact ⟨hu.trans hb, by simp⟩
  | true =>
    rw [hl2] at hb
    simp only [Bool.not_true, Bool.false_eq_true, if_false] at hb
    by_cases he : ubkp inst n1 ≠ n2.profit
    · rw [if_pos he] at hb
      simp only [Except.ok.injEq, decide_eq_true_eq] at hb
      have : m.profit < n2.profit := hu.trans_lt (lt_of_le_of_ne hb he)
      exact ⟨this.le, fun _ => by rw [if_pos this]⟩
    · rw [if_neg he] at hb
      push Not at he
      simp only [Except.ok.injEq, decide_eq_true_eq] at hb
      refine ⟨hu.trans he.le, fun _ => ?_⟩
      split_ifs with ha hc
      · rfl
      · linarith
      · simp only [Except.ok.injEq, decide_eq_false_iff_not]
        omega

/-! ### Concrete cases -/

/-- Three bins of length 10, two items of length 6 and two of length 4. -/
def pruneCalls : List Op :=
  [.addBinType 10, .setBinTypeCopies 0 3, .addItemType 6, .setItemTypeCopies 0 2,
   .addItemType 4, .setItemTypeCopies 1 2]

/-- Checks `NoNesting`, `ProfitsNonneg`, `NoPenalties` and positive item lengths. -/
def plainB (inst : Instance) : Bool :=
  (inst.itemTypes.all fun i => decide (i.nestingLength ≤ 0) && decide (0 ≤ i.profit)
    && decide (0 < i.length))
  && inst.binTypes.all fun b => decide (0 ≤ b.length) && b.resources.all fun r => !r.penalize

theorem plain_of (h : plainB inst = true) : NoNesting inst ∧ ProfitsNonneg inst
    ∧ NoPenalties inst ∧ ∀ i, i < inst.numberOfItemTypes → 0 < (inst.itemType i).length := by
  simp only [plainB, Bool.and_eq_true, List.all_eq_true, decide_eq_true_eq,
    Bool.not_eq_true'] at h
  have hit : ∀ i, i < inst.numberOfItemTypes → inst.itemType i ∈ inst.itemTypes := fun i hi => by
    unfold Instance.itemType
    rw [List.getD_eq_getElem _ _ hi]; exact List.getElem_mem _
  exact ⟨⟨fun i hi => (h.1 _ (hit i hi)).1.1, fun t ht => (h.2 _ (binType_mem inst ht)).1⟩,
    fun i hi => (h.1 _ (hit i hi)).1.2, fun b hb r hr => (h.2 b hb).2 r hr,
    fun i hi => (h.1 _ (hit i hi)).2⟩

/-- Two paths of the search, the first extended by a third one, that satisfy a check. -/
def threeAnd (o : Objective) (calls : List Op) (l1 l2 l3 : List Insertion)
    (f : Instance → Node → Node → Node → Bool) : Bool :=
  okAnd (runOps o calls) fun inst => soundB inst
    && walkAnd inst (Node.root inst) l1 fun n1 => walkAnd inst (Node.root inst) l2 fun n2 =>
      walkAnd inst n1 l3 fun m => f inst n1 n2 m

theorem threeAnd_ok {o : Objective} {calls : List Op} {l1 l2 l3 : List Insertion}
    {f : Instance → Node → Node → Node → Bool} (h : threeAnd o calls l1 l2 l3 f = true) :
    ∃ inst n1 n2 m, runOps o calls = .ok inst ∧ Sound inst ∧ TreeNode inst n1
      ∧ TreeNode inst n2 ∧ Descends inst n1 m ∧ f inst n1 n2 m = true := by
  obtain ⟨inst, hr, hc⟩ := okAnd_ok h
  rw [Bool.and_eq_true] at hc
  obtain ⟨n1, h1, hc1⟩ := walkAnd_ok hc.2
  obtain ⟨n2, h2, hc2⟩ := walkAnd_ok hc1
  obtain ⟨m, h3, hc3⟩ := walkAnd_ok hc2
  exact ⟨inst, n1, n2, m, hr, sound_of hr hc.1, h1, h2, h3, hc3⟩

/-- A pruned node whose descendant is a worse complete packing (3 bins instead of 2). -/
example : ∃ inst n1 n2 m, runOps .binPacking pruneCalls = .ok inst ∧ Sound inst
    ∧ TreeNode inst n1 ∧ TreeNode inst n2 ∧ Descends inst n1 m ∧ NoNesting inst
    ∧ bound inst n1 n2 = .ok true ∧ n2.numberOfBins = 2 ∧ m.leaf inst = true
    ∧ m.numberOfBins = 3 := by
  obtain ⟨inst, n1, n2, m, h1, h2, h3, h4, h5, hc⟩ := threeAnd_ok (o := .binPacking)
    (calls := pruneCalls) (l1 := [⟨1, some 0⟩, ⟨1, none⟩, ⟨0, some 1⟩])
    (l2 := [⟨0, some 0⟩, ⟨1, none⟩, ⟨0, some 1⟩, ⟨1, none⟩]) (l3 := [⟨0, some 2⟩])
    (f := fun inst n1 n2 m => plainB inst && decide (bound inst n1 n2 = .ok true)
      && decide (n2.numberOfBins = 2) && m.leaf inst && decide (m.numberOfBins = 3))
    (by decide +kernel)
  simp only [Bool.and_eq_true, decide_eq_true_eq] at hc
  exact ⟨inst, n1, n2, m, h1, h2, h3, h4, h5, (plain_of hc.1.1.1.1).1, hc.1.1.1.2, hc.1.1.2,
    hc.1.2, hc.2⟩

/-- The same instance with the feasibility objective: the root is pruned by a complete node. -/
example : ∃ inst n1 n2 m, runOps .feasibility pruneCalls = .ok inst ∧ Sound inst
    ∧ TreeNode inst n1 ∧ TreeNode inst n2 ∧ Descends inst n1 m ∧ ProfitsNonneg inst
    ∧ NoPenalties inst ∧ bound inst n1 n2 = .ok true := by
  obtain ⟨inst, n1, n2, m, h1, h2, h3, h4, h5, hc⟩ := threeAnd_ok (o := .feasibility)
    (calls := pruneCalls) (l1 := []) (l2 := [⟨0, some 0⟩, ⟨1, none⟩, ⟨0, some 1⟩, ⟨1, none⟩])
    (l3 := [⟨0, some 0⟩])
    (f := fun inst n1 n2 _ => plainB inst && decide (bound inst n1 n2 = .ok true))
    (by decide +kernel)
  simp only [Bool.and_eq_true, decide_eq_true_eq] at hc
  exact ⟨inst, n1, n2, m, h1, h2, h3, h4, h5, (plain_of hc.1).2.1, (plain_of hc.1).2.2.1, hc.2⟩

/-- One bin of length 10; items of length 6 and profit 1, length 8 and profit 8, length 2 and
profit 2. -/
def defaultCalls : List Op :=
  [.addBinType 10, .addItemType 6, .setItemTypeProfit 0 1, .addItemType 8, .setItemTypeProfit 1 8,
   .addItemType 2, .setItemTypeProfit 2 2]

/-- Starting with the poor item is pruned once the two good ones are packed. -/
example : ∃ inst n1 n2 m, runOps .default defaultCalls = .ok inst ∧ Sound inst
    ∧ TreeNode inst n1 ∧ TreeNode inst n2 ∧ Descends inst n1 m ∧ NoNesting inst
    ∧ ProfitsNonneg inst ∧ NoPenalties inst
    ∧ (∀ i, i < inst.numberOfItemTypes → 0 < (inst.itemType i).length)
    ∧ bound inst n1 n2 = .ok true ∧ n2.profit = 10 ∧ m.profit = 3 := by
  obtain ⟨inst, n1, n2, m, h1, h2, h3, h4, h5, hc⟩ := threeAnd_ok (o := .default)
    (calls := defaultCalls) (l1 := [⟨0, some 0⟩]) (l2 := [⟨1, some 0⟩, ⟨2, none⟩])
    (l3 := [⟨2, none⟩])
    (f := fun inst n1 n2 m => plainB inst && decide (bound inst n1 n2 = .ok true)
      && decide (n2.profit = 10) && decide (m.profit = 3))
    (by decide +kernel)
  simp only [Bool.and_eq_true, decide_eq_true_eq] at hc
  obtain ⟨a, b, c, d⟩ := plain_of hc.1.1.1
  exact ⟨inst, n1, n2, m, h1, h2, h3, h4, h5, a, b, c, d, hc.1.1.2, hc.1.2, hc.2⟩

/-! ### Where pruning is not safe -/

/-- Two items of length 6 that nest by 3 and two of length 6 that do not. -/
def nestingCalls : List Op :=
  [.addBinType 10, .setBinTypeCopies 0 4, .addItemType 6, .setItemTypeCopies 0 2,
   .setItemTypeNestingLength 0 3, .addItemType 6, .setItemTypeCopies 1 2]

/-- **C29** fails when items nest: the waste can decrease, and a node with a descendant using 2
bins is pruned although the best known packing uses 3. -/
theorem bound_unsafe_nesting : ∃ inst n1 n2 m, runOps .binPacking nestingCalls = .ok inst
    ∧ Sound inst ∧ TreeNode inst n1 ∧ TreeNode inst n2 ∧ Descends inst n1 m
    ∧ bound inst n1 n2 = .ok true ∧ better inst m n2 = .ok true
    ∧ m.leaf inst = true ∧ m.numberOfBins = 2 ∧ n2.numberOfBins = 3 := by
  obtain ⟨inst, n1, n2, m, h1, h2, h3, h4, h5, hc⟩ := threeAnd_ok (o := .binPacking)
    (calls := nestingCalls) (l1 := [])
    (l2 := [⟨0, some 0⟩, ⟨0, none⟩, ⟨1, some 1⟩, ⟨1, some 2⟩])
    (l3 := [⟨1, some 0⟩, ⟨0, none⟩, ⟨1, some 1⟩, ⟨0, none⟩])
    (f := fun inst n1 n2 m => decide (bound inst n1 n2 = .ok true)
      && decide (better inst m n2 = .ok true) && m.leaf inst && decide (m.numberOfBins = 2)
      && decide (n2.numberOfBins = 3))
    (by decide +kernel)
  simp only [Bool.and_eq_true, decide_eq_true_eq] at hc
  exact ⟨inst, n1, n2, m, h1, h2, h3, h4, h5, hc.1.1.1.1, hc.1.1.1.2, hc.1.1.2, hc.1.2, hc.2⟩

/-- Four items of length 2 and profit 4, one of length 7 and profit 8 that must be preceded by a
gap of 1, one of length 4 without profit. -/
def defaultTieCalls : List Op :=
  [.addBinType 10, .addItemType 2, .setItemTypeCopies 0 4, .setItemTypeProfit 0 4,
   .addItemType 7, .setItemTypeProfit 1 8, .setItemTypeNestingLength 1 (-1),
   .addItemType 4, .setItemTypeProfit 2 0]

/-- **C29** fails for the default objective when the best known node does not pack all the
items: a node with a descendant of the same profit and less waste is pruned. -/
theorem bound_unsafe_default : ∃ inst n1 n2 m, runOps .default defaultTieCalls = .ok inst
    ∧ Sound inst ∧ TreeNode inst n1 ∧ TreeNode inst n2 ∧ Descends inst n1 m
    ∧ NoNesting inst ∧ ProfitsNonneg inst ∧ NoPenalties inst
    ∧ bound inst n1 n2 = .ok true ∧ better inst m n2 = .ok true := by
  obtain ⟨inst, n1, n2, m, h1, h2, h3, h4, h5, hc⟩ := threeAnd_ok (o := .default)
    (calls := defaultTieCalls) (l1 := [⟨2, some 0⟩]) (l2 := [⟨0, some 0⟩, ⟨1, none⟩])
    (l3 := [⟨0, none⟩, ⟨0, none⟩, ⟨0, none⟩])
    (f := fun inst n1 n2 m => plainB inst && decide (bound inst n1 n2 = .ok true)
      && decide (better inst m n2 = .ok true))
    (by decide +kernel)
  simp only [Bool.and_eq_true, decide_eq_true_eq] at hc
  obtain ⟨a, b, c, -⟩ := plain_of hc.1.1
  exact ⟨inst, n1, n2, m, h1, h2, h3, h4, h5, a, b, c, hc.1.2, hc.2⟩

/-- An item of profit -5 and one of profit 3. -/
def negativeCalls : List Op :=
  [.addBinType 10, .addItemType 4, .setItemTypeProfit 0 (-5), .addItemType 3,
   .setItemTypeProfit 1 3]

/-- **C29** fails for the default objective with a negative profit: the root is pruned by
itself although packing one item is better. -/
theorem bound_unsafe_negative_profit : ∃ inst n1 n2 m, runOps .default negativeCalls = .ok inst
    ∧ Sound inst ∧ TreeNode inst n1 ∧ TreeNode inst n2 ∧ Descends inst n1 m
    ∧ bound inst n1 n2 = .ok true ∧ n2.profit < m.profit := by
  obtain ⟨inst, n1, n2, m, h1, h2, h3, h4, h5, hc⟩ := threeAnd_ok (o := .default)
    (calls := negativeCalls) (l1 := []) (l2 := []) (l3 := [⟨1, some 0⟩])
    (f := fun inst n1 n2 m => decide (bound inst n1 n2 = .ok true)
      && decide (n2.profit < m.profit))
    (by decide +kernel)
  simp only [Bool.and_eq_true, decide_eq_true_eq] at hc
  exact ⟨inst, n1, n2, m, h1, h2, h3, h4, h5, hc.1, hc.2⟩

/-- Two bins with a penalized resource of capacity 1, two items consuming 1 and two consuming
nothing. -/
def penaltyCalls : List Op :=
  [.addBinType 10, .setBinTypeCopies 0 2, .addBinTypeResource 0 1 true 3,
   .addItemType 5, .setItemTypeCopies 0 2, .addResourceConsumption 0 0 0 0 1,
   .addResourceConsumption 0 0 0 1 1, .addItemType 5, .setItemTypeCopies 1 2]

/-- **C29** fails for the feasibility objective with a penalized resource: once a complete
packing is known, nodes leading to a complete packing of larger profit are pruned. -/
theorem bound_unsafe_feasibility : ∃ inst n1 n2 m, runOps .feasibility penaltyCalls = .ok inst
    ∧ Sound inst ∧ TreeNode inst n1 ∧ TreeNode inst n2 ∧ Descends inst n1 m
    ∧ bound inst n1 n2 = .ok true ∧ better inst m n2 = .ok true
    ∧ m.leaf inst = true ∧ n2.leaf inst = true := by
  obtain ⟨inst, n1, n2, m, h1, h2, h3, h4, h5, hc⟩ := threeAnd_ok (o := .feasibility)
    (calls := penaltyCalls) (l1 := [])
    (l2 := [⟨0, some 0⟩, ⟨0, none⟩, ⟨1, some 1⟩, ⟨1, none⟩])
    (l3 := [⟨0, some 0⟩, ⟨1, none⟩, ⟨0, some 1⟩, ⟨1, none⟩])
    (f := fun inst n1 n2 m => decide (bound inst n1 n2 = .ok true)
      && decide (better inst m n2 = .ok true) && m.leaf inst && n2.leaf inst)
    (by decide +kernel)
  simp only [Bool.and_eq_true, decide_eq_true_eq] at hc
  exact ⟨inst, n1, n2, m, h1, h2, h3, h4, h5, hc.1.1.1, hc.1.1.2, hc.1.2, hc.2⟩

end PackingSolver.OneDim
