import Verif.Model.OneDim.Solution
import Verif.Spec.OneDim
import Mathlib.Tactic.Linarith
import Mathlib.Data.List.GetD
import Mathlib.Algebra.BigOperators.Fin
import Mathlib.Tactic.Ring
import Mathlib.Algebra.Order.BigOperators.Group.Finset

/-! Helper lemmas: closed forms for the item loop of `update_indicators`. -/

namespace PackingSolver.OneDim

open Spec

/-! ### Vector helpers -/

theorem addAtQ_length (l : List ℚ) (i : Nat) (d : ℚ) : (addAtQ l i d).length = l.length := by
  simp [addAtQ]

theorem addAtQ_getD (l : List ℚ) (i j : Nat) (d : ℚ) (hj : j < l.length) :
    (addAtQ l i d).getD j 0 = l.getD j 0 + if i = j then d else 0 := by
  simp only [addAtQ, List.getD_eq_getElem?_getD, List.getElem?_modify]
  rw [List.getElem?_eq_getElem hj]
  by_cases h : i = j <;> simp [h]

theorem addAt_length (l : List Int) (i : Nat) (d : Int) : (addAt l i d).length = l.length := by
  simp [addAt]

theorem addAt_getD (l : List Int) (i j : Nat) (d : Int) (hj : j < l.length) :
    (addAt l i d).getD j 0 = l.getD j 0 + if i = j then d else 0 := by
  simp only [addAt, List.getD_eq_getElem?_getD, List.getElem?_modify]
  rw [List.getElem?_eq_getElem hj]
  by_cases h : i = j <;> simp [h]

theorem modifyNat_getD (l : List Nat) (i j : Nat) (hj : j < l.length) :
    (l.modify i (· + 1)).getD j 0 = l.getD j 0 + if i = j then 1 else 0 := by
  simp only [List.getD_eq_getElem?_getD, List.getElem?_modify]
  rw [List.getElem?_eq_getElem hj]
  by_cases h : i = j <;> simp [h]

/-! ### Resource loop -/

/-- The resource `r` of a bin type. -/
abbrev resAt (bt : BinType) (r : Nat) : Resource := bt.resources.getD r {}

theorem resourceStep_consumption (bt : BinType) (i c : Nat) (s : ResourceLoop) (r : Nat) :
    (resourceStep bt i c s r).consumption
      = addAtQ s.consumption r ((resAt bt r).itemConsumption i c) := by
  unfold resourceStep
  dsimp only
  split_ifs <;> rfl

theorem resourceFold_length (bt : BinType) (i c : Nat) (ids : List Nat) (s : ResourceLoop) :
    (ids.foldl (resourceStep bt i c) s).consumption.length = s.consumption.length := by
  induction ids generalizing s with
  | nil => rfl
  | cons r ids ih => simp [ih, resourceStep_consumption, addAtQ_length]

theorem resourceFold_consumption (bt : BinType) (i c : Nat) (ids : List Nat) (hnd : ids.Nodup)
    (s : ResourceLoop) (j : Nat) (hj : j < s.consumption.length) :
    (ids.foldl (resourceStep bt i c) s).consumption.getD j 0
      = s.consumption.getD j 0 + if j ∈ ids then (resAt bt j).itemConsumption i c else 0 := by
  induction ids generalizing s with
  | nil => simp
  | cons r ids ih =>
    rw [List.nodup_cons] at hnd
    rw [List.foldl_cons, ih hnd.2 _ (by simpa [resourceStep_consumption, addAtQ_length] using hj),
      resourceStep_consumption, addAtQ_getD _ _ _ _ hj]
    by_cases h : r = j
    · subst h; simp [hnd.1]
    · have h' : j ≠ r := fun e => h e.symm
      simp [h, h']

theorem resourceStep_feasible (bt : BinType) (i c : Nat) (s : ResourceLoop) (r : Nat)
    (hr : r < s.consumption.length) :
    (resourceStep bt i c s r).resourceFeasible = true ↔ s.resourceFeasible = true ∧
      ((resAt bt r).penalize = false →
        s.consumption.getD r 0 + (resAt bt r).itemConsumption i c ≤ (resAt bt r).capacity) := by
  unfold resourceStep
  simp only [addAtQ_getD _ _ _ _ hr, if_true]
  split_ifs with h1 h2 h3 <;> simp_all

theorem resourceFold_feasible (bt : BinType) (i c : Nat) (ids : List Nat) (hnd : ids.Nodup)
    (s : ResourceLoop) (hr : ∀ r ∈ ids, r < s.consumption.length) :
    (ids.foldl (resourceStep bt i c) s).resourceFeasible = true ↔ s.resourceFeasible = true ∧
      ∀ r ∈ ids, (resAt bt r).penalize = false →
        s.consumption.getD r 0 + (resAt bt r).itemConsumption i c ≤ (resAt bt r).capacity := by
  induction ids generalizing s with
  | nil => simp
  | cons r ids ih =>
    rw [List.nodup_cons] at hnd
    have hr0 := hr r (by simp)
    rw [List.foldl_cons, ih hnd.2 _ (by
      intro q hq
      simpa [resourceStep_consumption, addAtQ_length] using hr q (by simp [hq])),
      resourceStep_feasible _ _ _ _ _ hr0]
    have key : ∀ q ∈ ids, (resourceStep bt i c s r).consumption.getD q 0
        = s.consumption.getD q 0 := by
      intro q hq
      rw [resourceStep_consumption, addAtQ_getD _ _ _ _ (hr q (by simp [hq]))]
      have : r ≠ q := fun e => hnd.1 (e ▸ hq)
      simp [this]
    constructor
    · rintro ⟨⟨h1, h2⟩, h3⟩
      refine ⟨h1, ?_⟩
      intro q hq
      rcases List.mem_cons.mp hq with rfl | hq
      · exact h2
      · have := h3 q hq; rwa [key q hq] at this
    · rintro ⟨h1, h2⟩
      refine ⟨⟨h1, h2 r (by simp)⟩, ?_⟩
      intro q hq
      rw [key q hq]; exact h2 q (by simp [hq])

/-- Penalty charged for resource `r` when the consumption goes from `old` by `d`. -/
def crossing (res : Resource) (old d : ℚ) : ℚ :=
  if res.penalize = true ∧ old + d > res.capacity ∧ old ≤ res.capacity then res.penalty else 0

theorem resourceStep_profit (bt : BinType) (i c : Nat) (s : ResourceLoop) (r : Nat)
    (hr : r < s.consumption.length) :
    (resourceStep bt i c s r).itemProfit = s.itemProfit
      - crossing (resAt bt r) (s.consumption.getD r 0) ((resAt bt r).itemConsumption i c) := by
  unfold resourceStep crossing
  simp only [addAtQ_getD _ _ _ _ hr, if_true]
  by_cases h1 : s.consumption.getD r 0 + (resAt bt r).itemConsumption i c > (resAt bt r).capacity
  · by_cases h2 : (resAt bt r).penalize = true
    · by_cases h3 : s.consumption.getD r 0 ≤ (resAt bt r).capacity
      · rw [if_pos h1, if_pos h2, if_pos h3, if_pos ⟨h2, h1, h3⟩]
      · rw [if_pos h1, if_pos h2, if_neg h3, if_neg (fun h => h3 h.2.2), sub_zero]
    · rw [if_pos h1, if_neg h2, if_neg (fun h => h2 h.1), sub_zero]
  · rw [if_neg h1, if_neg (fun h => h1 h.2.1), sub_zero]

theorem resourceFold_profit (bt : BinType) (i c : Nat) (ids : List Nat) (hnd : ids.Nodup)
    (s : ResourceLoop) (hr : ∀ r ∈ ids, r < s.consumption.length) :
    (ids.foldl (resourceStep bt i c) s).itemProfit = s.itemProfit
      - (ids.map fun r => crossing (resAt bt r) (s.consumption.getD r 0)
          ((resAt bt r).itemConsumption i c)).sum := by
  induction ids generalizing s with
  | nil => simp
  | cons r ids ih =>
    rw [List.nodup_cons] at hnd
    have hr0 := hr r (by simp)
    rw [List.foldl_cons, ih hnd.2 _ (by
      intro q hq
      simpa [resourceStep_consumption, addAtQ_length] using hr q (by simp [hq])),
      resourceStep_profit _ _ _ _ _ hr0]
    have key : ∀ q ∈ ids, (resourceStep bt i c s r).consumption.getD q 0
        = s.consumption.getD q 0 := by
      intro q hq
      rw [resourceStep_consumption, addAtQ_getD _ _ _ _ (hr q (by simp [hq]))]
      have : r ≠ q := fun e => hnd.1 (e ▸ hq)
      simp [this]
    have : (ids.map fun q => crossing (resAt bt q) ((resourceStep bt i c s r).consumption.getD q 0)
          ((resAt bt q).itemConsumption i c))
        = ids.map fun q => crossing (resAt bt q) (s.consumption.getD q 0)
          ((resAt bt q).itemConsumption i c) :=
      List.map_congr_left fun q hq => by rw [key q hq]
    rw [this, List.map_cons, List.sum_cons]
    ring

/-! ### Consumption specification -/

theorem consumption_nil (inst : Instance) (r : Resource) : consumption inst r [] = 0 := by
  simp [consumption]

theorem consumption_snoc (inst : Instance) (r : Resource) (l : List Nat) (i : Nat)
    (hi : i < inst.numberOfItemTypes) :
    consumption inst r (l ++ [i]) = consumption inst r l + r.itemConsumption i (l.count i) := by
  unfold consumption
  have hmem : i ∈ Finset.range inst.numberOfItemTypes := Finset.mem_range.mpr hi
  rw [← Finset.add_sum_erase _ _ hmem,
    ← Finset.add_sum_erase _ (fun j => ∑ c ∈ Finset.range (l.count j), r.itemConsumption j c) hmem]
  have h1 : ∑ j ∈ (Finset.range inst.numberOfItemTypes).erase i,
        ∑ c ∈ Finset.range ((l ++ [i]).count j), r.itemConsumption j c
      = ∑ j ∈ (Finset.range inst.numberOfItemTypes).erase i,
        ∑ c ∈ Finset.range (l.count j), r.itemConsumption j c := by
    refine Finset.sum_congr rfl fun j hj => ?_
    have hne : i ≠ j := fun e => (Finset.mem_erase.mp hj).1 e.symm
    simp [List.count_append, hne]
  rw [h1]
  have h2 : (l ++ [i]).count i = l.count i + 1 := by simp [List.count_append]
  rw [h2, Finset.sum_range_succ]
  ring

theorem consumption_perm (inst : Instance) (r : Resource) {l l' : List Nat} (h : l.Perm l') :
    consumption inst r l = consumption inst r l' := by
  unfold consumption
  refine Finset.sum_congr rfl fun i _ => ?_
  rw [h.count_eq]

theorem itemConsumption_of_empty (r : Resource) (i c : Nat)
    (h : r.itemConsumptions.getD i [] = []) : r.itemConsumption i c = 0 := by
  unfold Resource.itemConsumption
  dsimp only
  split_ifs with h1 h2 h3
  · rfl
  · rfl
  · rw [h] at h2; simp at h2
  · rw [h] at h2; simp at h2

theorem itemConsumption_nonneg (r : Resource)
    (h : ∀ s ∈ r.itemConsumptions, ∀ q ∈ s, 0 ≤ q) (i c : Nat) :
    0 ≤ r.itemConsumption i c := by
  unfold Resource.itemConsumption
  dsimp only
  split_ifs with h1 h2 h3
  · exact le_refl _
  · exact le_refl _
  · push Not at h1
    have hm : r.itemConsumptions.getD i [] ∈ r.itemConsumptions := by
      rw [List.getD_eq_getElem _ _ h1]; exact List.getElem_mem h1
    rw [List.getD_eq_getElem _ _ h3]
    exact h _ hm _ (List.getElem_mem h3)
  · push Not at h1
    have hm : r.itemConsumptions.getD i [] ∈ r.itemConsumptions := by
      rw [List.getD_eq_getElem _ _ h1]; exact List.getElem_mem h1
    have hne : r.itemConsumptions.getD i [] ≠ [] := by
      intro e; rw [e] at h2; simp at h2
    rw [List.getLastD_eq_getLast?, List.getLast?_eq_some_getLast hne]
    exact h _ hm _ (List.getLast_mem hne)

/-! ### Item loop -/

/-- The item loop. -/
abbrev runItems (inst : Instance) (b : Nat) (c : Int) (st : ItemLoop) (l : List SolutionItem) :
    ItemLoop := l.foldl (itemStep inst b c) st

/-- Item type ids of a sequence. -/
abbrev ids (l : List SolutionItem) : List Nat := l.map (·.itemTypeId)

/-- A fresh loop state for a bin without previous content. -/
structure Fresh (inst : Instance) (b : Nat) (st : ItemLoop) : Prop where
  endPos : st.endPos = 0
  weight : st.weight = 0
  number : st.numberOfItemsInBin = 0
  copies : st.itemTypeCopiesInBin = List.replicate inst.numberOfItemTypes 0
  resources : st.resourceConsumption = List.replicate (inst.binType b).resources.length 0
  done : st.itemsDone = []

variable {inst : Instance} {b : Nat} {c : Int} {st : ItemLoop}

theorem runItems_number (h : Fresh inst b st) (l : List SolutionItem) :
    (runItems inst b c st l).numberOfItemsInBin = l.length := by
  induction l using List.reverseRecOn with
  | nil => simpa using h.number
  | append_singleton l a ih => simp [List.foldl_append, itemStep, ih]

theorem runItems_endPos (h : Fresh inst b st) (l : List SolutionItem) :
    (runItems inst b c st l).endPos = binEnd inst (ids l) := by
  induction l using List.reverseRecOn with
  | nil => simpa [binEnd] using h.endPos
  | append_singleton l a ih =>
    have hn := runItems_number (c := c) h l
    simp only [runItems, List.foldl_append, List.foldl_cons, List.foldl_nil, itemStep] at ih hn ⊢
    rw [ih, hn]
    cases l with
    | nil => simp [binEnd]
    | cons x l =>
      have : ((x :: l).length : Int) > 0 := by simp
      simp only [this, if_true]
      simp [binEnd, ids]
      ring

theorem runItems_weight (h : Fresh inst b st) (l : List SolutionItem) :
    (runItems inst b c st l).weight = weight inst (ids l) := by
  induction l using List.reverseRecOn with
  | nil => simpa [weight] using h.weight
  | append_singleton l a ih =>
    simp only [runItems, List.foldl_append, List.foldl_cons, List.foldl_nil, itemStep] at ih ⊢
    rw [ih]
    simp [weight]

theorem runItems_copies_length (h : Fresh inst b st) (l : List SolutionItem) :
    (runItems inst b c st l).itemTypeCopiesInBin.length = inst.numberOfItemTypes := by
  induction l using List.reverseRecOn with
  | nil => simp [h.copies]
  | append_singleton l a ih =>
    simp only [runItems, List.foldl_append, List.foldl_cons, List.foldl_nil, itemStep] at ih ⊢
    simpa using ih

theorem runItems_copies (h : Fresh inst b st) (l : List SolutionItem) (i : Nat)
    (hi : i < inst.numberOfItemTypes) :
    (runItems inst b c st l).itemTypeCopiesInBin.getD i 0 = (ids l).count i := by
  induction l using List.reverseRecOn with
  | nil => simp [h.copies, List.getD_eq_getElem?_getD, hi]
  | append_singleton l a ih =>
    have hl := runItems_copies_length (c := c) h l
    simp only [runItems, List.foldl_append, List.foldl_cons, List.foldl_nil, itemStep] at ih hl ⊢
    rw [modifyNat_getD _ _ _ (by omega), ih]
    simp [ids, List.count_append, List.count_cons]

theorem runItems_cons_length (h : Fresh inst b st) (l : List SolutionItem) :
    (runItems inst b c st l).resourceConsumption.length = (inst.binType b).resources.length := by
  induction l using List.reverseRecOn with
  | nil => simp [h.resources]
  | append_singleton l a ih =>
    simp only [runItems, List.foldl_append, List.foldl_cons, List.foldl_nil, itemStep] at ih ⊢
    rw [resourceFold_length]
    exact ih

/-- All item types of the sequence exist. -/
abbrev InTypes (inst : Instance) (l : List Nat) : Prop := ∀ i ∈ l, i < inst.numberOfItemTypes

theorem runItems_cons (h : Fresh inst b st) (hb : b < inst.numberOfBinTypes)
    (hR : ResourceIdsOk inst) (l : List SolutionItem) (hl : InTypes inst (ids l)) (r : Nat)
    (hr : r < (inst.binType b).resources.length) :
    (runItems inst b c st l).resourceConsumption.getD r 0
      = consumption inst (resAt (inst.binType b) r) (ids l) := by
  induction l using List.reverseRecOn with
  | nil => simp [h.resources, consumption_nil, List.getD_eq_getElem?_getD, hr]
  | append_singleton l a ih =>
    have ha : a.itemTypeId < inst.numberOfItemTypes := hl _ (by simp [ids])
    have hl' : InTypes inst (ids l) := fun i hi => hl i (by rw [ids, List.map_append]; exact List.mem_append_left _ hi)
    have hlen := runItems_cons_length (c := c) h l
    have hc := runItems_copies (c := c) h l a.itemTypeId ha
    have hids := hR a.itemTypeId ha b hb
    specialize ih hl'
    simp only [runItems, List.foldl_append, List.foldl_cons, List.foldl_nil, itemStep]
      at ih hlen hc ⊢
    rw [resourceFold_consumption _ _ _ _ hids.1 _ _ (by simpa [hlen] using hr)]
    simp only [ids, List.map_append, List.map_cons, List.map_nil] at ih hc ⊢
    rw [consumption_snoc _ _ _ _ ha, ih, hc]
    congr 1
    by_cases hm : r ∈ (inst.itemType a.itemTypeId).resourceIds.getD b []
    · rw [if_pos hm]
    · rw [if_neg hm]
      have := mt (hids.2 r).mpr hm
      have he : (resAt (inst.binType b) r).itemConsumptions.getD a.itemTypeId [] = [] := by
        by_contra hne; exact this ⟨hr, hne⟩
      rw [itemConsumption_of_empty _ _ _ he]

/-- Prefixes of `l ++ [a]`. -/
theorem prefix_snoc {α : Type} {p l : List α} {a : α} :
    p <+: l ++ [a] ↔ p <+: l ∨ p = l ++ [a] := by
  constructor
  · rintro ⟨t, ht⟩
    rcases List.eq_nil_or_concat t with rfl | ⟨t', z, rfl⟩
    · right; simpa using ht
    · left
      rw [List.concat_eq_append, ← List.append_assoc] at ht
      exact ⟨t', (List.append_inj' ht rfl).1⟩
  · rintro (⟨t, rfl⟩ | rfl)
    · exact ⟨t ++ [a], by simp⟩
    · exact List.prefix_refl _

theorem runItems_capacity (h : Fresh inst b st) (l : List SolutionItem) :
    (runItems inst b c st l).sol.capacityFeasible = true ↔
      st.sol.capacityFeasible = true ∧ Fits inst b (ids l) := by
  induction l using List.reverseRecOn with
  | nil => simp [Fits]
  | append_singleton l a ih =>
    have he := runItems_endPos (c := c) h (l ++ [a])
    simp only [runItems, List.foldl_append, List.foldl_cons, List.foldl_nil, itemStep] at ih he ⊢
    rw [he, Bool.and_eq_true, ih, and_assoc]
    refine and_congr_right fun _ => ?_
    simp only [ids, List.map_append, List.map_cons, List.map_nil, Fits, prefix_snoc,
      Bool.not_eq_true', decide_eq_false_iff_not, not_lt, gt_iff_lt]
    constructor
    · rintro ⟨h1, h2⟩ p (hp | rfl) hne
      · exact h1 p hp hne
      · exact h2
    · intro h1
      exact ⟨fun p hp => h1 p (.inl hp), h1 _ (.inr rfl) (by simp)⟩

theorem gtBy_false (q : ℚ) (e : ExtQ) : ExtQ.gtBy q e = false ↔ e.Ge q := by
  cases e <;> simp [ExtQ.gtBy, ExtQ.Ge]

theorem runItems_weightOk (h : Fresh inst b st) (l : List SolutionItem) :
    (runItems inst b c st l).sol.weightFeasible = true ↔
      st.sol.weightFeasible = true ∧ WeightOk inst b (ids l) := by
  induction l using List.reverseRecOn with
  | nil => simp [WeightOk]
  | append_singleton l a ih =>
    have he := runItems_weight (c := c) h (l ++ [a])
    simp only [runItems, List.foldl_append, List.foldl_cons, List.foldl_nil, itemStep] at ih he ⊢
    rw [he, Bool.and_eq_true, ih, and_assoc]
    refine and_congr_right fun _ => ?_
    simp only [ids, List.map_append, List.map_cons, List.map_nil, WeightOk, prefix_snoc,
      Bool.not_eq_true', gtBy_false]
    constructor
    · rintro ⟨h1, h2⟩ p (hp | rfl) hne
      · exact h1 p hp hne
      · exact h2
    · intro h1
      exact ⟨fun p hp => h1 p (.inl hp), h1 _ (.inr rfl) (by simp)⟩

theorem eligible_iff (i b : Nat) :
    eligible (inst.itemType i) (inst.binType b) = true ↔ EligibleIn inst i b := by
  unfold eligible EligibleIn
  by_cases h1 : (inst.itemType i).eligibilityId = -1 <;>
  by_cases h2 : (inst.itemType i).eligibilityId ∈ (inst.binType b).eligibilityIds <;>
    simp [h1, h2]

theorem runItems_eligible (l : List SolutionItem) :
    (runItems inst b c st l).sol.eligibilityFeasible = true ↔
      st.sol.eligibilityFeasible = true ∧ EligibleAll inst b (ids l) := by
  induction l using List.reverseRecOn with
  | nil => simp [EligibleAll]
  | append_singleton l a ih =>
    simp only [runItems, List.foldl_append, List.foldl_cons, List.foldl_nil, itemStep] at ih ⊢
    rw [Bool.and_eq_true, ih, and_assoc, eligible_iff]
    refine and_congr_right fun _ => ?_
    simp [EligibleAll, ids, or_imp, forall_and]

/-! Stackability -/

theorem runItems_maxItems (h : Fresh inst b st) (l : List SolutionItem) (hne : l ≠ []) (n : Int) :
    n ≤ (runItems inst b c st l).maximumNumberOfItems ↔
      ∀ i ∈ ids l, n ≤ (inst.itemType i).maximumStackability := by
  induction l using List.reverseRecOn with
  | nil => exact absurd rfl hne
  | append_singleton l a ih =>
    have hn := runItems_number (c := c) h l
    simp only [runItems, List.foldl_append, List.foldl_cons, List.foldl_nil, itemStep] at ih hn ⊢
    rw [hn]
    cases l with
    | nil => simp [ids]
    | cons x l =>
      have : ¬ ((x :: l).length : Int) + 1 = 1 := by simp; omega
      simp only [this, if_false, le_min_iff]
      rw [ih (by simp)]
      simp [ids, or_imp, forall_and]
      tauto

theorem runItems_stack (h : Fresh inst b st) (l : List SolutionItem) :
    (runItems inst b c st l).sol.stackabilityFeasible = true ↔
      st.sol.stackabilityFeasible = true ∧ StackOk inst (ids l) := by
  induction l using List.reverseRecOn with
  | nil => simp [StackOk]
  | append_singleton l a ih =>
    have hn := runItems_number (c := c) h (l ++ [a])
    have hm := runItems_maxItems (c := c) h (l ++ [a]) (by simp)
    simp only [runItems, List.foldl_append, List.foldl_cons, List.foldl_nil, itemStep] at ih hn hm ⊢
    rw [Bool.and_eq_true, ih, and_assoc]
    refine and_congr_right fun _ => ?_
    simp only [Bool.not_eq_true', decide_eq_false_iff_not, not_lt, gt_iff_lt]
    rw [hm, hn]
    simp only [StackOk, ids, List.map_append, List.map_cons, List.map_nil, List.mem_append,
      List.mem_singleton, List.length_append, List.length_map, List.length_singleton]
    constructor
    · rintro ⟨_, h2⟩; simpa using h2
    · intro h1
      refine ⟨fun i hi => ?_, by simpa using h1⟩
      have := h1 i (.inl hi)
      push_cast at this; omega

/-! Weight after -/

theorem extQ_min_ge (e f : ExtQ) (q : ℚ) : (ExtQ.min e f).Ge q ↔ e.Ge q ∧ f.Ge q := by
  cases e <;> cases f <;> simp [ExtQ.min, ExtQ.Ge]

theorem extQ_sub_ge (e : ExtQ) (w q : ℚ) : (e.subQ w).Ge q ↔ e.Ge (q + w) := by
  cases e
  · simp [ExtQ.subQ, ExtQ.Ge, le_sub_iff_add_le]
  · simp [ExtQ.subQ, ExtQ.Ge]

theorem extQ_neg_false (e : ExtQ) : e.neg = false ↔ e.Ge 0 := by
  cases e <;> simp [ExtQ.neg, ExtQ.Ge]

/-- Decompositions of `l ++ [a]` around an item. -/
theorem snoc_eq_append_cons {α : Type} {l p q : List α} {a i : α} :
    l ++ [a] = p ++ i :: q ↔ (p = l ∧ i = a ∧ q = []) ∨ ∃ q', q = q' ++ [a] ∧ l = p ++ i :: q' := by
  constructor
  · intro h
    rcases List.eq_nil_or_concat q with rfl | ⟨q', z, rfl⟩
    · have := List.append_inj' h rfl
      left; simp_all
    · right
      rw [List.concat_eq_append] at h ⊢
      have h' : l ++ [a] = (p ++ i :: q') ++ [z] := by simpa using h
      have := List.append_inj' h' rfl
      exact ⟨q', by simp_all, this.1⟩
  · rintro (⟨rfl, rfl, rfl⟩ | ⟨q', rfl, rfl⟩) <;> simp

theorem runItems_remaining (h : Fresh inst b st) (l : List SolutionItem) (hne : l ≠ []) (n : ℚ) :
    (runItems inst b c st l).remainingWeight.Ge n ↔
      ∀ p i q, ids l = p ++ i :: q →
        (inst.itemType i).maximumWeightAfter.Ge (n + weight inst q) := by
  induction l using List.reverseRecOn generalizing n with
  | nil => exact absurd rfl hne
  | append_singleton l a ih =>
    have hn := runItems_number (c := c) h l
    simp only [runItems, List.foldl_append, List.foldl_cons, List.foldl_nil, itemStep] at ih hn ⊢
    rw [hn]
    cases l with
    | nil =>
      simp only [List.length_nil, List.foldl_nil]
      constructor
      · intro h1 p i q hpq
        have : [a.itemTypeId] = p ++ i :: q := by simpa using hpq
        have h2 := (snoc_eq_append_cons (l := []) (a := a.itemTypeId)).mp this
        rcases h2 with ⟨rfl, rfl, rfl⟩ | ⟨q', rfl, h3⟩
        · simpa [weight] using h1
        · simp at h3
      · intro h1
        have := h1 [] a.itemTypeId [] (by simp)
        simpa [weight] using this
    | cons x l =>
      have : ¬ ((x :: l).length : Int) + 1 = 1 := by simp; omega
      simp only [this, if_false]
      rw [extQ_min_ge, extQ_sub_ge, ih (by simp)]
      have hi : ids (x :: l ++ [a]) = ids (x :: l) ++ [a.itemTypeId] := by simp [ids]
      rw [hi]
      simp only [snoc_eq_append_cons]
      constructor
      · rintro ⟨h1, h2⟩ p i q (⟨rfl, rfl, rfl⟩ | ⟨q', rfl, h3⟩)
        · simpa [weight] using h2
        · have := h1 p i q' h3
          simp only [weight, List.map_append, List.map_cons, List.map_nil, List.sum_append,
            List.sum_cons, List.sum_nil] at this ⊢
          convert this using 1; ring
      · intro h1
        refine ⟨fun p i q h3 => ?_, ?_⟩
        · have := h1 p i (q ++ [a.itemTypeId]) (.inr ⟨q, rfl, h3⟩)
          simp only [weight, List.map_append, List.map_cons, List.map_nil, List.sum_append,
            List.sum_cons, List.sum_nil] at this ⊢
          convert this using 1; ring
        · have := h1 _ a.itemTypeId [] (.inl ⟨rfl, rfl, rfl⟩)
          simpa [weight] using this

theorem runItems_weightAfter (h : Fresh inst b st) (l : List SolutionItem) :
    (runItems inst b c st l).sol.maximumWeightAfterFeasible = true ↔
      st.sol.maximumWeightAfterFeasible = true ∧ WeightAfterOk inst (ids l) := by
  induction l using List.reverseRecOn with
  | nil => simp [WeightAfterOk]
  | append_singleton l a ih =>
    have hm := runItems_remaining (c := c) h (l ++ [a]) (by simp) 0
    simp only [runItems, List.foldl_append, List.foldl_cons, List.foldl_nil, itemStep] at ih hm ⊢
    rw [Bool.and_eq_true, ih, and_assoc]
    refine and_congr_right fun _ => ?_
    rw [Bool.not_eq_true', extQ_neg_false, hm]
    simp only [WeightAfterOk, ids, List.map_append, List.map_cons, List.map_nil, prefix_snoc,
      zero_add]
    constructor
    · rintro ⟨h1, h2⟩ p i q (hp | hp)
      · exact h1 p i q hp
      · exact h2 p i q hp.symm
    · intro h1
      exact ⟨fun p i q hp => h1 p i q (.inl hp), fun p i q hp => h1 p i q (.inr hp.symm)⟩

/-! Resources -/

theorem runItems_resources (h : Fresh inst b st) (hb : b < inst.numberOfBinTypes)
    (hR : ResourceIdsOk inst)
    (hcap : ∀ r ∈ (inst.binType b).resources, 0 ≤ r.capacity)
    (l : List SolutionItem) (hl : InTypes inst (ids l)) :
    (runItems inst b c st l).sol.resourceFeasible = true ↔
      st.sol.resourceFeasible = true ∧ ResourcesOk inst b (ids l) := by
  induction l using List.reverseRecOn with
  | nil =>
    simp only [runItems, List.foldl_nil, ResourcesOk, ids, List.map_nil, List.prefix_nil]
    refine ⟨fun h => ⟨h, ?_⟩, fun h => h.1⟩
    rintro r hr _ p rfl
    rw [consumption_nil]; exact hcap r hr
  | append_singleton l a ih =>
    have ha : a.itemTypeId < inst.numberOfItemTypes := hl _ (by simp [ids])
    have hl' : InTypes inst (ids l) := fun i hi => hl i (by rw [ids, List.map_append]; exact List.mem_append_left _ hi)
    have hlen := runItems_cons_length (c := c) h l
    have hc := runItems_copies (c := c) h l a.itemTypeId ha
    have hcons := runItems_cons (c := c) h hb hR l hl'
    have hids := hR a.itemTypeId ha b hb
    specialize ih hl'
    simp only [runItems, List.foldl_append, List.foldl_cons, List.foldl_nil, itemStep]
      at ih hlen hc hcons ⊢
    rw [resourceFold_feasible _ _ _ _ hids.1 _ (by
      intro r hr; rw [hlen]; exact ((hids.2 r).mp hr).1), ih, and_assoc]
    refine and_congr_right fun _ => ?_
    simp only [ids, List.map_append, List.map_cons, List.map_nil] at hcons hc ⊢
    constructor
    · rintro ⟨h1, h2⟩ r hr hpen p hp
      rcases prefix_snoc.mp hp with hp | rfl
      · exact h1 r hr hpen p hp
      · obtain ⟨k, hk, rfl⟩ := List.getElem_of_mem hr
        have hkD : resAt (inst.binType b) k = (inst.binType b).resources[k] :=
          List.getD_eq_getElem _ _ hk
        rw [consumption_snoc _ _ _ _ ha]
        by_cases hm : k ∈ (inst.itemType a.itemTypeId).resourceIds.getD b []
        · have := h2 k hm (by rw [hkD]; exact hpen)
          rw [hcons k hk, hc, hkD] at this
          exact this
        · have hnm := mt (hids.2 k).mpr hm
          have he : (resAt (inst.binType b) k).itemConsumptions.getD a.itemTypeId [] = [] := by
            by_contra hne; exact hnm ⟨hk, hne⟩
          rw [hkD] at he
          rw [itemConsumption_of_empty _ _ _ he, add_zero]
          exact h1 _ hr hpen _ (List.prefix_refl _)
    · intro h1
      refine ⟨fun r hr hpen p hp => h1 r hr hpen p (prefix_snoc.mpr (.inl hp)), ?_⟩
      intro k hm hpen
      have hk := ((hids.2 k).mp hm).1
      have hkD : resAt (inst.binType b) k = (inst.binType b).resources[k] :=
          List.getD_eq_getElem _ _ hk
      rw [hcons k hk, hc, ← consumption_snoc _ _ _ _ ha]
      rw [hkD] at hpen ⊢
      exact h1 _ (List.getElem_mem hk) hpen _ (List.prefix_refl _)

/-! Profit -/

theorem sum_map_resources (bt : BinType) (f : Resource → ℚ) :
    (bt.resources.map f).sum = ∑ r ∈ Finset.range bt.resources.length, f (resAt bt r) := by
  rw [Finset.sum_range]
  rw [← List.sum_ofFn]
  congr 1
  apply List.ext_getElem
  · simp
  · intro n h1 h2
    simp only [List.getElem_map, List.getElem_ofFn]
    congr 1
    rw [List.length_map] at h1
    exact (List.getD_eq_getElem _ _ h1).symm

theorem penalties_snoc (hb : b < inst.numberOfBinTypes) (hR : ResourceIdsOk inst)
    (hnn : ∀ r ∈ (inst.binType b).resources, ∀ s ∈ r.itemConsumptions, ∀ q ∈ s, 0 ≤ q)
    (l : List Nat) (i : Nat) (hi : i < inst.numberOfItemTypes) :
    penalties inst b (l ++ [i]) = penalties inst b l
      + (((inst.itemType i).resourceIds.getD b []).map fun r =>
          crossing (resAt (inst.binType b) r) (consumption inst (resAt (inst.binType b) r) l)
            ((resAt (inst.binType b) r).itemConsumption i (l.count i))).sum := by
  have hids := hR i hi b hb
  set idl := (inst.itemType i).resourceIds.getD b [] with hidl
  unfold penalties
  rw [sum_map_resources, sum_map_resources]
  have hsum : (idl.map fun r =>
          crossing (resAt (inst.binType b) r) (consumption inst (resAt (inst.binType b) r) l)
            ((resAt (inst.binType b) r).itemConsumption i (l.count i))).sum
      = ∑ r ∈ Finset.range (inst.binType b).resources.length,
          crossing (resAt (inst.binType b) r) (consumption inst (resAt (inst.binType b) r) l)
            ((resAt (inst.binType b) r).itemConsumption i (l.count i)) := by
    rw [← List.sum_toFinset _ hids.1]
    apply Finset.sum_subset
    · intro r hr
      exact Finset.mem_range.mpr ((hids.2 r).mp (List.mem_toFinset.mp hr)).1
    · intro r hr hnm
      have hk := Finset.mem_range.mp hr
      have hnm' := mt (hids.2 r).mpr (fun h => hnm (List.mem_toFinset.mpr h))
      have he : (resAt (inst.binType b) r).itemConsumptions.getD i [] = [] := by
        by_contra hne; exact hnm' ⟨hk, hne⟩
      rw [itemConsumption_of_empty _ _ _ he]
      unfold crossing
      rw [if_neg]
      rintro ⟨_, h1, h2⟩
      linarith
  rw [hsum, ← Finset.sum_add_distrib]
  refine Finset.sum_congr rfl fun r hr => ?_
  have hk := Finset.mem_range.mp hr
  have hmem : resAt (inst.binType b) r ∈ (inst.binType b).resources := by
    rw [resAt, List.getD_eq_getElem _ _ hk]; exact List.getElem_mem hk
  have hpos := itemConsumption_nonneg _ (hnn _ hmem) i (l.count i)
  rw [consumption_snoc _ _ _ _ hi]
  unfold crossing
  by_cases hp : (resAt (inst.binType b) r).penalize = true
  · by_cases h1 : consumption inst (resAt (inst.binType b) r) l
        > (resAt (inst.binType b) r).capacity
    · have h2 : consumption inst (resAt (inst.binType b) r) l
          + (resAt (inst.binType b) r).itemConsumption i (l.count i)
          > (resAt (inst.binType b) r).capacity := by linarith
      simp only [hp, h1, h2, and_true, if_true, not_le.mpr h1, and_false, if_false,
        add_zero]
    · have h1' := not_lt.mp h1
      by_cases h2 : consumption inst (resAt (inst.binType b) r) l
          + (resAt (inst.binType b) r).itemConsumption i (l.count i)
          > (resAt (inst.binType b) r).capacity
      · rw [if_pos ⟨hp, h2⟩, if_neg (fun h => h1 h.2), if_pos ⟨hp, h2, h1'⟩, zero_add]
      · rw [if_neg (fun h => h2 h.2), if_neg (fun h => h1 h.2), if_neg (fun h => h2 h.2.1),
          zero_add]
  · rw [if_neg (fun h => hp h.1), if_neg (fun h => hp h.1), if_neg (fun h => hp h.1), zero_add]

theorem penalties_nil (hcap : ∀ r ∈ (inst.binType b).resources, 0 ≤ r.capacity) :
    penalties inst b [] = 0 := by
  unfold penalties
  apply List.sum_eq_zero
  intro x hx
  obtain ⟨r, hr, rfl⟩ := List.mem_map.mp hx
  rw [consumption_nil, if_neg]
  rintro ⟨_, h⟩
  have := hcap r hr
  linarith

theorem runItems_profit (h : Fresh inst b st) (hb : b < inst.numberOfBinTypes)
    (hR : ResourceIdsOk inst)
    (hcap : ∀ r ∈ (inst.binType b).resources, 0 ≤ r.capacity)
    (hnn : ∀ r ∈ (inst.binType b).resources, ∀ s ∈ r.itemConsumptions, ∀ q ∈ s, 0 ≤ q)
    (l : List SolutionItem) (hl : InTypes inst (ids l)) :
    (runItems inst b c st l).sol.itemProfit
      = st.sol.itemProfit + (c : ℚ) * itemsProfit inst (ids l) - penalties inst b (ids l) := by
  induction l using List.reverseRecOn with
  | nil => simp [itemsProfit, penalties_nil hcap]
  | append_singleton l a ih =>
    have ha : a.itemTypeId < inst.numberOfItemTypes := hl _ (by simp [ids])
    have hl' : InTypes inst (ids l) := fun i hi => hl i (by rw [ids, List.map_append]; exact List.mem_append_left _ hi)
    have hlen := runItems_cons_length (c := c) h l
    have hc := runItems_copies (c := c) h l a.itemTypeId ha
    have hcons := runItems_cons (c := c) h hb hR l hl'
    have hids := hR a.itemTypeId ha b hb
    specialize ih hl'
    have hpen := penalties_snoc hb hR hnn (ids l) a.itemTypeId ha
    have hi : ids (l ++ [a]) = ids l ++ [a.itemTypeId] := by simp [ids]
    rw [hi, hpen]
    simp only [runItems, List.foldl_append, List.foldl_cons, List.foldl_nil, itemStep]
      at ih hlen hc hcons ⊢
    rw [resourceFold_profit _ _ _ _ hids.1 _ (by
      intro r hr; rw [hlen]; exact ((hids.2 r).mp hr).1), ih, hc]
    have : (List.map (fun r =>
          crossing (resAt (inst.binType b) r)
            ((l.foldl (itemStep inst b c) st).resourceConsumption.getD r 0)
            ((resAt (inst.binType b) r).itemConsumption a.itemTypeId ((ids l).count a.itemTypeId)))
          ((inst.itemType a.itemTypeId).resourceIds.getD b []))
        = List.map (fun r =>
          crossing (resAt (inst.binType b) r) (consumption inst (resAt (inst.binType b) r) (ids l))
            ((resAt (inst.binType b) r).itemConsumption a.itemTypeId ((ids l).count a.itemTypeId)))
          ((inst.itemType a.itemTypeId).resourceIds.getD b []) :=
      List.map_congr_left fun r hr => by rw [hcons r ((hids.2 r).mp hr).1]
    rw [this]
    simp only [itemsProfit, List.map_append, List.map_cons, List.map_nil, List.sum_append,
      List.sum_cons, List.sum_nil]
    ring

/-- Profit without any assumption on consumptions, when no resource of the bin
type is penalized. -/
theorem runItems_profit_noPenalty (h : Fresh inst b st)
    (hb : b < inst.numberOfBinTypes) (hR : ResourceIdsOk inst)
    (hp : ∀ r ∈ (inst.binType b).resources, r.penalize = false)
    (l : List SolutionItem) (hl : InTypes inst (ids l)) :
    (runItems inst b c st l).sol.itemProfit
      = st.sol.itemProfit + (c : ℚ) * itemsProfit inst (ids l) := by
  induction l using List.reverseRecOn with
  | nil => simp [itemsProfit]
  | append_singleton l a ih =>
    have ha : a.itemTypeId < inst.numberOfItemTypes := hl _ (by simp [ids])
    have hl' : InTypes inst (ids l) := fun i hi => hl i (by rw [ids, List.map_append]; exact List.mem_append_left _ hi)
    have hlen := runItems_cons_length (c := c) h l
    have hids := hR a.itemTypeId ha b hb
    specialize ih hl'
    simp only [runItems, List.foldl_append, List.foldl_cons, List.foldl_nil, itemStep]
      at ih hlen ⊢
    rw [resourceFold_profit _ _ _ _ hids.1 _ (by
      intro r hr; rw [hlen]; exact ((hids.2 r).mp hr).1), ih]
    rw [List.sum_eq_zero]
    · simp only [itemsProfit, ids, List.map_append, List.map_cons, List.map_nil, List.sum_append,
        List.sum_cons, List.sum_nil]
      ring
    · intro x hx
      obtain ⟨r, hr, rfl⟩ := List.mem_map.mp hx
      have hk := ((hids.2 r).mp hr).1
      have : (resAt (inst.binType b) r).penalize = false := by
        apply hp
        rw [resAt, List.getD_eq_getElem _ _ hk]; exact List.getElem_mem hk
      unfold crossing
      rw [this]
      simp

/-! Totals -/

theorem runItems_numberOfItems (l : List SolutionItem) :
    (runItems inst b c st l).sol.numberOfItems = st.sol.numberOfItems + c * (ids l).length := by
  induction l using List.reverseRecOn with
  | nil => simp
  | append_singleton l a ih =>
    simp only [runItems, List.foldl_append, List.foldl_cons, List.foldl_nil, itemStep] at ih ⊢
    rw [ih]; simp [ids]; ring

theorem runItems_itemLength (l : List SolutionItem) :
    (runItems inst b c st l).sol.itemLength = st.sol.itemLength
      + c * ((ids l).map fun i => (inst.itemType i).length).sum := by
  induction l using List.reverseRecOn with
  | nil => simp
  | append_singleton l a ih =>
    simp only [runItems, List.foldl_append, List.foldl_cons, List.foldl_nil, itemStep] at ih ⊢
    rw [ih]; simp [ids]; ring

theorem runItems_itemCopies_length (l : List SolutionItem) :
    (runItems inst b c st l).sol.itemCopies.length = st.sol.itemCopies.length := by
  induction l using List.reverseRecOn with
  | nil => simp
  | append_singleton l a ih =>
    simp only [runItems, List.foldl_append, List.foldl_cons, List.foldl_nil, itemStep] at ih ⊢
    simpa [addAt_length] using ih

theorem runItems_itemCopies (l : List SolutionItem) (i : Nat) (hi : i < st.sol.itemCopies.length) :
    (runItems inst b c st l).sol.itemCopies.getD i 0
      = st.sol.itemCopies.getD i 0 + c * ((ids l).count i : Int) := by
  induction l using List.reverseRecOn with
  | nil => simp
  | append_singleton l a ih =>
    have hlen := runItems_itemCopies_length (inst := inst) (b := b) (c := c) (st := st) l
    simp only [runItems, List.foldl_append, List.foldl_cons, List.foldl_nil, itemStep] at ih hlen ⊢
    rw [addAt_getD _ _ _ _ (by omega), ih]
    by_cases h : a.itemTypeId = i
    · simp [ids, List.count_append, h]; ring
    · simp [ids, List.count_append, h]

theorem runItems_itemCopiesFeasible (hc : 0 ≤ c) (l : List SolutionItem)
    (hl : ∀ i ∈ ids l, i < st.sol.itemCopies.length) :
    (runItems inst b c st l).sol.itemCopiesFeasible = true ↔
      st.sol.itemCopiesFeasible = true ∧ ∀ i ∈ ids l,
        st.sol.itemCopies.getD i 0 + c * ((ids l).count i : Int) ≤ (inst.itemType i).copies := by
  induction l using List.reverseRecOn with
  | nil => simp
  | append_singleton l a ih =>
    have hl' : ∀ i ∈ ids l, i < st.sol.itemCopies.length :=
      fun i hi => hl i (by rw [ids, List.map_append]; exact List.mem_append_left _ hi)
    have ha : a.itemTypeId < st.sol.itemCopies.length := hl _ (by simp [ids])
    have hic := runItems_itemCopies (inst := inst) (b := b) (c := c) (l ++ [a]) a.itemTypeId ha
    specialize ih hl'
    simp only [runItems, List.foldl_append, List.foldl_cons, List.foldl_nil, itemStep] at ih hic ⊢
    rw [Bool.and_eq_true, ih, and_assoc]
    refine and_congr_right fun _ => ?_
    rw [hic]
    simp only [Bool.not_eq_true', decide_eq_false_iff_not, not_lt, gt_iff_lt]
    have hi : ids (l ++ [a]) = ids l ++ [a.itemTypeId] := by simp [ids]
    rw [hi]
    constructor
    · rintro ⟨h1, h2⟩ i hmem
      by_cases hia : i = a.itemTypeId
      · subst hia; exact h2
      · have hm : i ∈ ids l := by
          rcases List.mem_append.mp hmem with h | h
          · exact h
          · exact absurd (List.mem_singleton.mp h) hia
        have hcount : (ids l ++ [a.itemTypeId]).count i = (ids l).count i := by
          have : a.itemTypeId ≠ i := fun e => hia e.symm
          simp [List.count_append, this]
        rw [hcount]; exact h1 i hm
    · intro h1
      refine ⟨fun i hm => ?_, h1 _ (by simp)⟩
      have h2 := h1 i (by simp [List.mem_append, hm])
      have hle : ((ids l).count i : Int) ≤ ((ids l ++ [a.itemTypeId]).count i : Int) := by
        rw [List.count_append]; push_cast; omega
      nlinarith

theorem runItems_done (h : Fresh inst b st) (l : List SolutionItem) :
    ids (runItems inst b c st l).itemsDone = ids l := by
  induction l using List.reverseRecOn with
  | nil => simp [h.done]
  | append_singleton l a ih =>
    simp only [runItems, List.foldl_append, List.foldl_cons, List.foldl_nil, itemStep, ids,
      List.map_append, List.map_cons, List.map_nil] at ih ⊢
    rw [ih]

/-- Start positions: the `k`-th item starts where the first `k + 1` items end,
minus its own length. -/
theorem runItems_starts (h : Fresh inst b st) (l : List SolutionItem) :
    (runItems inst b c st l).itemsDone.map (·.start)
      = (List.range l.length).map fun k =>
          binEnd inst ((ids l).take (k + 1)) - (inst.itemType ((ids l).getD k 0)).length := by
  induction l using List.reverseRecOn with
  | nil => simp [h.done]
  | append_singleton l a ih =>
    have he := runItems_endPos (c := c) h (l ++ [a])
    have hi : ids (l ++ [a]) = ids l ++ [a.itemTypeId] := by simp [ids]
    rw [hi] at he ⊢
    simp only [runItems, List.foldl_append, List.foldl_cons, List.foldl_nil, itemStep,
      List.map_append, List.map_cons, List.map_nil] at ih he ⊢
    rw [List.length_append, List.length_singleton, List.range_succ, List.map_append, ih]
    congr 1
    · refine List.map_congr_left fun k hk => ?_
      have hk' : k < (ids l).length := by simpa [ids] using hk
      rw [List.take_append_of_le_length (by omega), List.getD_append _ _ _ _ hk']
    · simp only [List.map_cons, List.map_nil]
      have hll : l.length = (ids l).length := by simp [ids]
      rw [hll, List.take_of_length_le (by simp), List.getD_append_right _ _ _ _ (le_refl _)]
      simp only [Nat.sub_self, List.getD_cons_zero]
      rw [← he]; simp

/-- Fields the item loop does not touch. -/
theorem runItems_frame (l : List SolutionItem) :
    let s := (runItems inst b c st l).sol
    s.bins = st.sol.bins ∧ s.numberOfBins = st.sol.numberOfBins ∧ s.length = st.sol.length
      ∧ s.binLength = st.sol.binLength ∧ s.binCost = st.sol.binCost
      ∧ s.binCopies = st.sol.binCopies
      ∧ s.binTypeOrderFeasible = st.sol.binTypeOrderFeasible := by
  induction l using List.reverseRecOn with
  | nil => simp
  | append_singleton l a ih =>
    simp only [runItems, List.foldl_append, List.foldl_cons, List.foldl_nil, itemStep] at ih ⊢
    exact ih

end PackingSolver.OneDim
