import Verif.Spec.BoxSolution
import Verif.Lemmas.OneDim.ItemLoop

/-! Helper lemmas: closed forms for the item loop of the box `update_indicators`. -/

namespace PackingSolver.Box

open Spec
open PackingSolver.OneDim (itemConsumption_of_empty itemConsumption_nonneg prefix_snoc)

/-! ### Vector helpers -/

theorem addAtQ_length (l : List ℚ) (i : Nat) (d : ℚ) : (addAtQ l i d).length = l.length := by
  simp [addAtQ]

theorem addAtQ_getD (l : List ℚ) (i j : Nat) (d : ℚ) (hj : j < l.length) :
    (addAtQ l i d).getD j 0 = l.getD j 0 + if i = j then d else 0 := by
  simp only [addAtQ, List.getD_eq_getElem?_getD, List.getElem?_modify]
  rw [List.getElem?_eq_getElem hj]
  by_cases h : i = j <;> simp [h]

theorem addAt_length (l : List Int) (i : Nat) (d : Int) : (addAt l i d).length = l.length := by
  simp [addAt]

theorem addAt_getD (l : List Int) (i j : Nat) (d : Int) (hj : j < l.length) :
    (addAt l i d).getD j 0 = l.getD j 0 + if i = j then d else 0 := by
  simp only [addAt, List.getD_eq_getElem?_getD, List.getElem?_modify]
  rw [List.getElem?_eq_getElem hj]
  by_cases h : i = j <;> simp [h]

theorem modifyNat_getD (l : List Nat) (i j : Nat) (hj : j < l.length) :
    (l.modify i (· + 1)).getD j 0 = l.getD j 0 + if i = j then 1 else 0 := by
  simp only [List.getD_eq_getElem?_getD, List.getElem?_modify]
  rw [List.getElem?_eq_getElem hj]
  by_cases h : i = j <;> simp [h]

/-! ### Resource loop -/

/-- The resource `r` of a bin type. -/
abbrev resAt (bt : BinType) (r : Nat) : Resource := bt.resources.getD r {}

theorem resourceStep_consumption (bt : BinType) (i c : Nat) (s : ResourceLoop) (r : Nat) :
    (resourceStep bt i c s r).consumption
      = addAtQ s.consumption r ((resAt bt r).itemConsumption i c) := by
  unfold resourceStep
  dsimp only
  split_ifs <;> rfl

theorem resourceFold_length (bt : BinType) (i c : Nat) (ids : List Nat) (s : ResourceLoop) :
    (ids.foldl (resourceStep bt i c) s).consumption.length = s.consumption.length := by
  induction ids generalizing s with
  | nil => rfl
  | cons r ids ih => simp [ih, resourceStep_consumption, addAtQ_length]

theorem resourceFold_consumption (bt : BinType) (i c : Nat) (ids : List Nat) (hnd : ids.Nodup)
    (s : ResourceLoop) (j : Nat) (hj : j < s.consumption.length) :
    (ids.foldl (resourceStep bt i c) s).consumption.getD j 0
      = s.consumption.getD j 0 + if j ∈ ids then (resAt bt j).itemConsumption i c else 0 := by
  induction ids generalizing s with
  | nil => simp
  | cons r ids ih =>
    rw [List.nodup_cons] at hnd
    rw [List.foldl_cons, ih hnd.2 _ (by simpa [resourceStep_consumption, addAtQ_length] using hj),
      resourceStep_consumption, addAtQ_getD _ _ _ _ hj]
    by_cases h : r = j
    · subst h; simp [hnd.1]
    · have h' : j ≠ r := fun e => h e.symm
      simp [h, h']

theorem resourceStep_feasible (bt : BinType) (i c : Nat) (s : ResourceLoop) (r : Nat)
    (hr : r < s.consumption.length) :
    (resourceStep bt i c s r).resourceFeasible = true ↔ s.resourceFeasible = true ∧
      ((resAt bt r).penalize = false →
        s.consumption.getD r 0 + (resAt bt r).itemConsumption i c ≤ (resAt bt r).capacity) := by
  unfold resourceStep
  simp only [addAtQ_getD _ _ _ _ hr, if_true]
  split_ifs with h1 h2 h3 <;> simp_all

theorem resourceFold_feasible (bt : BinType) (i c : Nat) (ids : List Nat) (hnd : ids.Nodup)
    (s : ResourceLoop) (hr : ∀ r ∈ ids, r < s.consumption.length) :
    (ids.foldl (resourceStep bt i c) s).resourceFeasible = true ↔ s.resourceFeasible = true ∧
      ∀ r ∈ ids, (resAt bt r).penalize = false →
        s.consumption.getD r 0 + (resAt bt r).itemConsumption i c ≤ (resAt bt r).capacity := by
  induction ids generalizing s with
  | nil => simp
  | cons r ids ih =>
    rw [List.nodup_cons] at hnd
    have hr0 := hr r (by simp)
    rw [List.foldl_cons, ih hnd.2 _ (by
      intro q hq
      simpa [resourceStep_consumption, addAtQ_length] using hr q (by simp [hq])),
      resourceStep_feasible _ _ _ _ _ hr0]
    have key : ∀ q ∈ ids, (resourceStep bt i c s r).consumption.getD q 0
        = s.consumption.getD q 0 := by
      intro q hq
      rw [resourceStep_consumption, addAtQ_getD _ _ _ _ (hr q (by simp [hq]))]
      have : r ≠ q := fun e => hnd.1 (e ▸ hq)
      simp [this]
    constructor
    · rintro ⟨⟨h1, h2⟩, h3⟩
      refine ⟨h1, ?_⟩
      intro q hq
      rcases List.mem_cons.mp hq with rfl | hq
      · exact h2
      · have := h3 q hq; rwa [key q hq] at this
    · rintro ⟨h1, h2⟩
      refine ⟨⟨h1, h2 r (by simp)⟩, ?_⟩
      intro q hq
      rw [key q hq]; exact h2 q (by simp [hq])

/-- Penalty charged for resource `r` when the consumption goes from `old` by `d`. -/
def crossing (res : Resource) (old d : ℚ) : ℚ :=
  if res.penalize = true ∧ old + d > res.capacity ∧ old ≤ res.capacity then res.penalty else 0

theorem resourceStep_profit (bt : BinType) (i c : Nat) (s : ResourceLoop) (r : Nat)
    (hr : r < s.consumption.length) :
    (resourceStep bt i c s r).itemProfit = s.itemProfit
      - crossing (resAt bt r) (s.consumption.getD r 0) ((resAt bt r).itemConsumption i c) := by
  unfold resourceStep crossing
  simp only [addAtQ_getD _ _ _ _ hr, if_true]
  by_cases h1 : s.consumption.getD r 0 + (resAt bt r).itemConsumption i c > (resAt bt r).capacity
  · by_cases h2 : (resAt bt r).penalize = true
    · by_cases h3 : s.consumption.getD r 0 ≤ (resAt bt r).capacity
      · rw [if_pos h1, if_pos h2, if_pos h3, if_pos ⟨h2, h1, h3⟩]
      · rw [if_pos h1, if_pos h2, if_neg h3, if_neg (fun h => h3 h.2.2), sub_zero]
    · rw [if_pos h1, if_neg h2, if_neg (fun h => h2 h.1), sub_zero]
  · rw [if_neg h1, if_neg (fun h => h1 h.2.1), sub_zero]

theorem resourceFold_profit (bt : BinType) (i c : Nat) (ids : List Nat) (hnd : ids.Nodup)
    (s : ResourceLoop) (hr : ∀ r ∈ ids, r < s.consumption.length) :
    (ids.foldl (resourceStep bt i c) s).itemProfit = s.itemProfit
      - (ids.map fun r => crossing (resAt bt r) (s.consumption.getD r 0)
          ((resAt bt r).itemConsumption i c)).sum := by
  induction ids generalizing s with
  | nil => simp
  | cons r ids ih =>
    rw [List.nodup_cons] at hnd
    have hr0 := hr r (by simp)
    rw [List.foldl_cons, ih hnd.2 _ (by
      intro q hq
      simpa [resourceStep_consumption, addAtQ_length] using hr q (by simp [hq])),
      resourceStep_profit _ _ _ _ _ hr0]
    have key : ∀ q ∈ ids, (resourceStep bt i c s r).consumption.getD q 0
        = s.consumption.getD q 0 := by
      intro q hq
      rw [resourceStep_consumption, addAtQ_getD _ _ _ _ (hr q (by simp [hq]))]
      have : r ≠ q := fun e => hnd.1 (e ▸ hq)
      simp [this]
    have : (ids.map fun q => crossing (resAt bt q) ((resourceStep bt i c s r).consumption.getD q 0)
          ((resAt bt q).itemConsumption i c))
        = ids.map fun q => crossing (resAt bt q) (s.consumption.getD q 0)
          ((resAt bt q).itemConsumption i c) :=
      List.map_congr_left fun q hq => by rw [key q hq]
    rw [this, List.map_cons, List.sum_cons]
    ring

/-! ### Consumption specification -/

theorem count_nil (i : Nat) : count [] i = 0 := by simp [count]

theorem count_snoc (l : List PlacedItem) (a : PlacedItem) (i : Nat) :
    count (l ++ [a]) i = count l i + if a.itemTypeId = i then 1 else 0 := by
  unfold count
  rw [List.countP_append, List.countP_singleton]
  by_cases h : a.itemTypeId = i <;> simp [h]

theorem count_nonneg (l : List PlacedItem) (i : Nat) : 0 ≤ count l i := by unfold count; omega

theorem consumption_finset (inst : Instance) (r : Resource) (l : List PlacedItem) :
    consumption inst r l = ∑ i ∈ Finset.range inst.numberOfItemTypes,
      ∑ c ∈ Finset.range (count l i).toNat, r.itemConsumption i c := by
  unfold consumption
  rw [Finset.sum_range, ← List.sum_ofFn]
  congr 1
  apply List.ext_getElem
  · simp
  · intro n h1 h2
    simp only [List.getElem_map, List.getElem_range, List.getElem_ofFn]
    rw [Finset.sum_range, ← List.sum_ofFn]
    congr 1
    apply List.ext_getElem
    · simp
    · intro m h3 h4
      simp

theorem consumption_nil (inst : Instance) (r : Resource) : consumption inst r [] = 0 := by
  rw [consumption_finset]; simp [count]

theorem consumption_snoc (inst : Instance) (r : Resource) (l : List PlacedItem) (a : PlacedItem)
    (hi : a.itemTypeId < inst.numberOfItemTypes) :
    consumption inst r (l ++ [a])
      = consumption inst r l + r.itemConsumption a.itemTypeId (count l a.itemTypeId).toNat := by
  rw [consumption_finset, consumption_finset]
  have hmem : a.itemTypeId ∈ Finset.range inst.numberOfItemTypes := Finset.mem_range.mpr hi
  rw [← Finset.add_sum_erase _ _ hmem,
    ← Finset.add_sum_erase _
      (fun j => ∑ c ∈ Finset.range (count l j).toNat, r.itemConsumption j c) hmem]
  have h1 : ∑ j ∈ (Finset.range inst.numberOfItemTypes).erase a.itemTypeId,
        ∑ c ∈ Finset.range (count (l ++ [a]) j).toNat, r.itemConsumption j c
      = ∑ j ∈ (Finset.range inst.numberOfItemTypes).erase a.itemTypeId,
        ∑ c ∈ Finset.range (count l j).toNat, r.itemConsumption j c := by
    refine Finset.sum_congr rfl fun j hj => ?_
    have hne : a.itemTypeId ≠ j := fun e => (Finset.mem_erase.mp hj).1 e.symm
    rw [count_snoc, if_neg hne, add_zero]
  rw [h1]
  have h2 : (count (l ++ [a]) a.itemTypeId).toNat = (count l a.itemTypeId).toNat + 1 := by
    have := count_nonneg l a.itemTypeId
    rw [count_snoc, if_pos rfl]; omega
  rw [h2, Finset.sum_range_succ]
  ring

/-! ### Item loop -/

/-- The item loop. -/
abbrev runItems (inst : Instance) (b : Nat) (c : Int) (last : Bool) (st : ItemLoop)
    (l : List PlacedItem) : ItemLoop := l.foldl (itemStep inst b c last) st

/-- A fresh loop state. -/
structure LoopFresh (inst : Instance) (b : Nat) (st : ItemLoop) : Prop where
  copies : st.itemTypeCopiesInBin = List.replicate inst.numberOfItemTypes 0
  resources : st.resourceConsumption = List.replicate (inst.binType b).resources.length 0

variable {inst : Instance} {b : Nat} {c : Int} {last : Bool} {st : ItemLoop}

theorem extentStep_frame (bt : BinType) (last : Bool) (xe ye ze : Int)
    (s : Solution) : ∃ xm ym zm vo lv, extentStep bt last xe ye ze s
      = { s with xMax := xm, yMax := ym, zMax := zm, volume := vo, leftoverValue := lv } := by
  unfold extentStep
  by_cases h : last = true
  · rw [if_pos h]; exact ⟨_, _, _, _, _, rfl⟩
  · rw [if_neg h]; exact ⟨s.xMax, s.yMax, s.zMax, s.volume, s.leftoverValue, rfl⟩

theorem runItems_snoc (l : List PlacedItem) (a : PlacedItem) :
    runItems inst b c last st (l ++ [a]) = itemStep inst b c last (runItems inst b c last st l) a := by
  simp [runItems, List.foldl_append]

theorem runItems_copies_length (h : LoopFresh inst b st) (l : List PlacedItem) :
    (runItems inst b c last st l).itemTypeCopiesInBin.length = inst.numberOfItemTypes := by
  induction l using List.reverseRecOn with
  | nil => simp [h.copies]
  | append_singleton l a ih => rw [runItems_snoc]; simpa [itemStep] using ih

theorem runItems_copies (h : LoopFresh inst b st) (l : List PlacedItem) (i : Nat)
    (hi : i < inst.numberOfItemTypes) :
    (runItems inst b c last st l).itemTypeCopiesInBin.getD i 0 = (count l i).toNat := by
  induction l using List.reverseRecOn with
  | nil => simp [h.copies, List.getD_eq_getElem?_getD, hi, count]
  | append_singleton l a ih =>
    have hl := runItems_copies_length (c := c) (last := last) h l
    rw [runItems_snoc]
    simp only [itemStep]
    rw [modifyNat_getD _ _ _ (by omega), ih, count_snoc]
    have := count_nonneg l i
    split_ifs <;> omega

theorem runItems_cons_length (h : LoopFresh inst b st) (l : List PlacedItem) :
    (runItems inst b c last st l).resourceConsumption.length
      = (inst.binType b).resources.length := by
  induction l using List.reverseRecOn with
  | nil => simp [h.resources]
  | append_singleton l a ih =>
    rw [runItems_snoc]
    simp only [itemStep]
    rw [resourceFold_length]
    exact ih

/-- All item types of the sequence exist. -/
abbrev InTypes (inst : Instance) (l : List PlacedItem) : Prop :=
  ∀ i ∈ l, i.itemTypeId < inst.numberOfItemTypes

theorem runItems_cons (h : LoopFresh inst b st) (hb : b < inst.numberOfBinTypes)
    (hR : ResourceIdsOk inst) (l : List PlacedItem) (hl : InTypes inst l) (r : Nat)
    (hr : r < (inst.binType b).resources.length) :
    (runItems inst b c last st l).resourceConsumption.getD r 0
      = consumption inst (resAt (inst.binType b) r) l := by
  induction l using List.reverseRecOn with
  | nil => simp [h.resources, consumption_nil, List.getD_eq_getElem?_getD, hr]
  | append_singleton l a ih =>
    have ha : a.itemTypeId < inst.numberOfItemTypes := hl _ (by simp)
    have hl' : InTypes inst l := fun i hi => hl i (by simp [hi])
    have hlen := runItems_cons_length (c := c) (last := last) h l
    have hc := runItems_copies (c := c) (last := last) h l a.itemTypeId ha
    have hids := hR a.itemTypeId ha b hb
    specialize ih hl'
    rw [runItems_snoc]
    simp only [itemStep]
    rw [resourceFold_consumption _ _ _ _ hids.1 _ _ (by simpa [hlen] using hr)]
    rw [consumption_snoc _ _ _ _ ha, ih, hc]
    congr 1
    by_cases hm : r ∈ (inst.itemType a.itemTypeId).resourceIds.getD b []
    · rw [if_pos hm]
    · rw [if_neg hm]
      have := mt (hids.2 r).mpr hm
      have he : (resAt (inst.binType b) r).itemConsumptions.getD a.itemTypeId [] = [] := by
        by_contra hne; exact this ⟨hr, hne⟩
      rw [itemConsumption_of_empty _ _ _ he]

/-! Resources -/

theorem itemStep_resourceFeasible (st : ItemLoop) (a : PlacedItem) :
    (itemStep inst b c last st a).sol.resourceFeasible
      = (((inst.itemType a.itemTypeId).resourceIds.getD b []).foldl
          (resourceStep (inst.binType b) a.itemTypeId
            (st.itemTypeCopiesInBin.getD a.itemTypeId 0))
          { consumption := st.resourceConsumption
            itemProfit := st.sol.itemProfit + (c : ℚ) * (inst.itemType a.itemTypeId).profit
            resourceFeasible := st.sol.resourceFeasible }).resourceFeasible := by
  unfold itemStep
  dsimp only
  obtain ⟨_, _, _, _, _, e⟩ := extentStep_frame (inst.binType b) last
    (a.x + ((inst.itemType a.itemTypeId).box.rotate a.rotation).x)
    (a.y + ((inst.itemType a.itemTypeId).box.rotate a.rotation).y)
    (a.z + ((inst.itemType a.itemTypeId).box.rotate a.rotation).z) _
  rw [e]

theorem itemStep_itemProfit (st : ItemLoop) (a : PlacedItem) :
    (itemStep inst b c last st a).sol.itemProfit
      = (((inst.itemType a.itemTypeId).resourceIds.getD b []).foldl
          (resourceStep (inst.binType b) a.itemTypeId
            (st.itemTypeCopiesInBin.getD a.itemTypeId 0))
          { consumption := st.resourceConsumption
            itemProfit := st.sol.itemProfit + (c : ℚ) * (inst.itemType a.itemTypeId).profit
            resourceFeasible := st.sol.resourceFeasible }).itemProfit := by
  unfold itemStep
  dsimp only
  obtain ⟨_, _, _, _, _, e⟩ := extentStep_frame (inst.binType b) last
    (a.x + ((inst.itemType a.itemTypeId).box.rotate a.rotation).x)
    (a.y + ((inst.itemType a.itemTypeId).box.rotate a.rotation).y)
    (a.z + ((inst.itemType a.itemTypeId).box.rotate a.rotation).z) _
  rw [e]

theorem runItems_resources (h : LoopFresh inst b st) (hb : b < inst.numberOfBinTypes)
    (hR : ResourceIdsOk inst)
    (hcap : ∀ r ∈ (inst.binType b).resources, 0 ≤ r.capacity)
    (l : List PlacedItem) (hl : InTypes inst l) :
    (runItems inst b c last st l).sol.resourceFeasible = true ↔
      st.sol.resourceFeasible = true ∧ ResourcesOk inst b l := by
  induction l using List.reverseRecOn with
  | nil =>
    simp only [runItems, List.foldl_nil, ResourcesOk, List.prefix_nil]
    refine ⟨fun h => ⟨h, ?_⟩, fun h => h.1⟩
    rintro r hr _ p rfl
    rw [consumption_nil]; exact hcap r hr
  | append_singleton l a ih =>
    have ha : a.itemTypeId < inst.numberOfItemTypes := hl _ (by simp)
    have hl' : InTypes inst l := fun i hi => hl i (by simp [hi])
    have hlen := runItems_cons_length (c := c) (last := last) h l
    have hc := runItems_copies (c := c) (last := last) h l a.itemTypeId ha
    have hcons := runItems_cons (c := c) (last := last) h hb hR l hl'
    have hids := hR a.itemTypeId ha b hb
    specialize ih hl'
    rw [runItems_snoc, itemStep_resourceFeasible]
    rw [resourceFold_feasible _ _ _ _ hids.1 _ (by
      intro r hr; rw [hlen]; exact ((hids.2 r).mp hr).1), ih, and_assoc]
    refine and_congr_right fun _ => ?_
    constructor
    · rintro ⟨h1, h2⟩ r hr hpen p hp
      rcases prefix_snoc.mp hp with hp | rfl
      · exact h1 r hr hpen p hp
      · obtain ⟨k, hk, rfl⟩ := List.getElem_of_mem hr
        have hkD : resAt (inst.binType b) k = (inst.binType b).resources[k] :=
          List.getD_eq_getElem _ _ hk
        rw [consumption_snoc _ _ _ _ ha]
        by_cases hm : k ∈ (inst.itemType a.itemTypeId).resourceIds.getD b []
        · have := h2 k hm (by rw [hkD]; exact hpen)
          rw [hcons k hk, hc, hkD] at this
          exact this
        · have hnm := mt (hids.2 k).mpr hm
          have he : (resAt (inst.binType b) k).itemConsumptions.getD a.itemTypeId [] = [] := by
            by_contra hne; exact hnm ⟨hk, hne⟩
          rw [hkD] at he
          rw [itemConsumption_of_empty _ _ _ he, add_zero]
          exact h1 _ hr hpen _ (List.prefix_refl _)
    · intro h1
      refine ⟨fun r hr hpen p hp => h1 r hr hpen p (prefix_snoc.mpr (.inl hp)), ?_⟩
      intro k hm hpen
      have hk := ((hids.2 k).mp hm).1
      have hkD : resAt (inst.binType b) k = (inst.binType b).resources[k] :=
          List.getD_eq_getElem _ _ hk
      rw [hcons k hk, hc, ← consumption_snoc _ _ _ _ ha]
      rw [hkD] at hpen ⊢
      exact h1 _ (List.getElem_mem hk) hpen _ (List.prefix_refl _)

/-! Profit -/

theorem sum_map_resources (bt : BinType) (f : Resource → ℚ) :
    (bt.resources.map f).sum = ∑ r ∈ Finset.range bt.resources.length, f (resAt bt r) := by
  rw [Finset.sum_range]
  rw [← List.sum_ofFn]
  congr 1
  apply List.ext_getElem
  · simp
  · intro n h1 h2
    simp only [List.getElem_map, List.getElem_ofFn]
    congr 1
    rw [List.length_map] at h1
    exact (List.getD_eq_getElem _ _ h1).symm

theorem penalties_snoc (hb : b < inst.numberOfBinTypes) (hR : ResourceIdsOk inst)
    (hnn : ∀ r ∈ (inst.binType b).resources, ∀ s ∈ r.itemConsumptions, ∀ q ∈ s, 0 ≤ q)
    (l : List PlacedItem) (a : PlacedItem) (hi : a.itemTypeId < inst.numberOfItemTypes) :
    penalties inst b (l ++ [a]) = penalties inst b l
      + (((inst.itemType a.itemTypeId).resourceIds.getD b []).map fun r =>
          crossing (resAt (inst.binType b) r) (consumption inst (resAt (inst.binType b) r) l)
            ((resAt (inst.binType b) r).itemConsumption a.itemTypeId (count l a.itemTypeId).toNat)).sum := by
  have hids := hR a.itemTypeId hi b hb
  set idl := (inst.itemType a.itemTypeId).resourceIds.getD b [] with hidl
  unfold penalties
  rw [sum_map_resources, sum_map_resources]
  have hsum : (idl.map fun r =>
          crossing (resAt (inst.binType b) r) (consumption inst (resAt (inst.binType b) r) l)
            ((resAt (inst.binType b) r).itemConsumption a.itemTypeId (count l a.itemTypeId).toNat)).sum
      = ∑ r ∈ Finset.range (inst.binType b).resources.length,
          crossing (resAt (inst.binType b) r) (consumption inst (resAt (inst.binType b) r) l)
            ((resAt (inst.binType b) r).itemConsumption a.itemTypeId (count l a.itemTypeId).toNat) := by
    rw [← List.sum_toFinset _ hids.1]
    apply Finset.sum_subset
    · intro r hr
      exact Finset.mem_range.mpr ((hids.2 r).mp (List.mem_toFinset.mp hr)).1
    · intro r hr hnm
      have hk := Finset.mem_range.mp hr
      have hnm' := mt (hids.2 r).mpr (fun h => hnm (List.mem_toFinset.mpr h))
      have he : (resAt (inst.binType b) r).itemConsumptions.getD a.itemTypeId [] = [] := by
        by_contra hne; exact hnm' ⟨hk, hne⟩
      rw [itemConsumption_of_empty _ _ _ he]
      unfold crossing
      rw [if_neg]
      rintro ⟨_, h1, h2⟩
      linarith
  rw [hsum, ← Finset.sum_add_distrib]
  refine Finset.sum_congr rfl fun r hr => ?_
  have hk := Finset.mem_range.mp hr
  have hmem : resAt (inst.binType b) r ∈ (inst.binType b).resources := by
    rw [resAt, List.getD_eq_getElem _ _ hk]; exact List.getElem_mem hk
  have hpos := itemConsumption_nonneg _ (hnn _ hmem) a.itemTypeId (count l a.itemTypeId).toNat
  rw [consumption_snoc _ _ _ _ hi]
  unfold crossing
  by_cases hp : (resAt (inst.binType b) r).penalize = true
  · by_cases h1 : consumption inst (resAt (inst.binType b) r) l
        > (resAt (inst.binType b) r).capacity
    · have h2 : consumption inst (resAt (inst.binType b) r) l
          + (resAt (inst.binType b) r).itemConsumption a.itemTypeId (count l a.itemTypeId).toNat
          > (resAt (inst.binType b) r).capacity := by linarith
      simp only [hp, h1, h2, and_true, if_true, not_le.mpr h1, and_false, if_false,
        add_zero]
    · have h1' := not_lt.mp h1
      by_cases h2 : consumption inst (resAt (inst.binType b) r) l
          + (resAt (inst.binType b) r).itemConsumption a.itemTypeId (count l a.itemTypeId).toNat
          > (resAt (inst.binType b) r).capacity
      · rw [if_pos ⟨hp, h2⟩, if_neg (fun h => h1 h.2), if_pos ⟨hp, h2, h1'⟩, zero_add]
      · rw [if_neg (fun h => h2 h.2), if_neg (fun h => h1 h.2), if_neg (fun h => h2 h.2.1),
          zero_add]
  · rw [if_neg (fun h => hp h.1), if_neg (fun h => hp h.1), if_neg (fun h => hp h.1), zero_add]

theorem penalties_nil (hcap : ∀ r ∈ (inst.binType b).resources, 0 ≤ r.capacity) :
    penalties inst b [] = 0 := by
  unfold penalties
  apply List.sum_eq_zero
  intro x hx
  obtain ⟨r, hr, rfl⟩ := List.mem_map.mp hx
  rw [consumption_nil, if_neg]
  rintro ⟨_, h⟩
  have := hcap r hr
  linarith

theorem runItems_profit (h : LoopFresh inst b st) (hb : b < inst.numberOfBinTypes)
    (hR : ResourceIdsOk inst)
    (hcap : ∀ r ∈ (inst.binType b).resources, 0 ≤ r.capacity)
    (hnn : ∀ r ∈ (inst.binType b).resources, ∀ s ∈ r.itemConsumptions, ∀ q ∈ s, 0 ≤ q)
    (l : List PlacedItem) (hl : InTypes inst l) :
    (runItems inst b c last st l).sol.itemProfit
      = st.sol.itemProfit + (c : ℚ) * itemsProfit inst l - penalties inst b l := by
  induction l using List.reverseRecOn with
  | nil => simp [itemsProfit, penalties_nil hcap]
  | append_singleton l a ih =>
    have ha : a.itemTypeId < inst.numberOfItemTypes := hl _ (by simp)
    have hl' : InTypes inst l := fun i hi => hl i (by simp [hi])
    have hlen := runItems_cons_length (c := c) (last := last) h l
    have hc := runItems_copies (c := c) (last := last) h l a.itemTypeId ha
    have hcons := runItems_cons (c := c) (last := last) h hb hR l hl'
    have hids := hR a.itemTypeId ha b hb
    specialize ih hl'
    have hpen := penalties_snoc hb hR hnn l a ha
    rw [hpen, runItems_snoc, itemStep_itemProfit]
    rw [resourceFold_profit _ _ _ _ hids.1 _ (by
      intro r hr; rw [hlen]; exact ((hids.2 r).mp hr).1), ih, hc]
    have : (List.map (fun r =>
          crossing (resAt (inst.binType b) r)
            ((runItems inst b c last st l).resourceConsumption.getD r 0)
            ((resAt (inst.binType b) r).itemConsumption a.itemTypeId
              (count l a.itemTypeId).toNat))
          ((inst.itemType a.itemTypeId).resourceIds.getD b []))
        = List.map (fun r =>
          crossing (resAt (inst.binType b) r) (consumption inst (resAt (inst.binType b) r) l)
            ((resAt (inst.binType b) r).itemConsumption a.itemTypeId
              (count l a.itemTypeId).toNat))
          ((inst.itemType a.itemTypeId).resourceIds.getD b []) :=
      List.map_congr_left fun r hr => by rw [hcons r ((hids.2 r).mp hr).1]
    rw [this]
    simp only [itemsProfit, List.map_append, List.map_cons, List.map_nil, List.sum_append,
      List.sum_cons, List.sum_nil]
    ring

/-! Totals -/

/-- The solution fields one item changes by a fixed amount, and those it does not change. -/
theorem itemStep_fields (st : ItemLoop) (a : PlacedItem) :
    let s := (itemStep inst b c last st a).sol
    s.numberOfItems = st.sol.numberOfItems + c
    ∧ s.itemVolume = st.sol.itemVolume + c * (inst.itemType a.itemTypeId).box.volume
    ∧ s.itemWeight = st.sol.itemWeight + (c : ℚ) * (inst.itemType a.itemTypeId).weight
    ∧ s.itemCopies = addAt st.sol.itemCopies a.itemTypeId c
    ∧ s.bins = st.sol.bins ∧ s.numberOfBins = st.sol.numberOfBins
    ∧ s.binArea = st.sol.binArea ∧ s.binCost = st.sol.binCost
    ∧ s.binCopies = st.sol.binCopies ∧ s.binVolume = st.sol.binVolume
    ∧ s.numberOfStacks = st.sol.numberOfStacks ∧ s.stackArea = st.sol.stackArea := by
  unfold itemStep
  dsimp only
  obtain ⟨_, _, _, _, _, e⟩ := extentStep_frame (inst.binType b) last
    (a.x + ((inst.itemType a.itemTypeId).box.rotate a.rotation).x)
    (a.y + ((inst.itemType a.itemTypeId).box.rotate a.rotation).y)
    (a.z + ((inst.itemType a.itemTypeId).box.rotate a.rotation).z) _
  rw [e]
  exact ⟨rfl, rfl, rfl, rfl, rfl, rfl, rfl, rfl, rfl, rfl, rfl, rfl⟩

theorem runItems_numberOfItems (l : List PlacedItem) :
    (runItems inst b c last st l).sol.numberOfItems = st.sol.numberOfItems + c * l.length := by
  induction l using List.reverseRecOn with
  | nil => simp
  | append_singleton l a ih =>
    rw [runItems_snoc, (itemStep_fields _ _).1, ih]; simp; ring

theorem runItems_itemVolume (l : List PlacedItem) :
    (runItems inst b c last st l).sol.itemVolume = st.sol.itemVolume
      + c * (l.map fun i => (inst.itemType i.itemTypeId).box.volume).sum := by
  induction l using List.reverseRecOn with
  | nil => simp
  | append_singleton l a ih =>
    rw [runItems_snoc, (itemStep_fields _ _).2.1, ih]; simp; ring

theorem runItems_itemWeight (l : List PlacedItem) :
    (runItems inst b c last st l).sol.itemWeight = st.sol.itemWeight
      + (c : ℚ) * binWeight inst l := by
  unfold binWeight
  induction l using List.reverseRecOn with
  | nil => simp
  | append_singleton l a ih =>
    rw [runItems_snoc, (itemStep_fields _ _).2.2.1, ih]; simp; ring

theorem runItems_itemCopies_length (l : List PlacedItem) :
    (runItems inst b c last st l).sol.itemCopies.length = st.sol.itemCopies.length := by
  induction l using List.reverseRecOn with
  | nil => simp
  | append_singleton l a ih =>
    rw [runItems_snoc, (itemStep_fields _ _).2.2.2.1, addAt_length, ih]

theorem runItems_itemCopies (l : List PlacedItem) (i : Nat) (hi : i < st.sol.itemCopies.length) :
    (runItems inst b c last st l).sol.itemCopies.getD i 0
      = st.sol.itemCopies.getD i 0 + c * count l i := by
  induction l using List.reverseRecOn with
  | nil => simp [count]
  | append_singleton l a ih =>
    have hlen := runItems_itemCopies_length (inst := inst) (b := b) (c := c) (last := last)
      (st := st) l
    rw [runItems_snoc, (itemStep_fields _ _).2.2.2.1, addAt_getD _ _ _ _ (by omega), ih,
      count_snoc]
    split_ifs <;> ring

/-- Fields the item loop does not touch. -/
theorem runItems_frame (l : List PlacedItem) :
    let s := (runItems inst b c last st l).sol
    s.bins = st.sol.bins ∧ s.numberOfBins = st.sol.numberOfBins
      ∧ s.binArea = st.sol.binArea ∧ s.binCost = st.sol.binCost
      ∧ s.binCopies = st.sol.binCopies ∧ s.binVolume = st.sol.binVolume
      ∧ s.numberOfStacks = st.sol.numberOfStacks ∧ s.stackArea = st.sol.stackArea := by
  induction l using List.reverseRecOn with
  | nil => simp
  | append_singleton l a ih =>
    dsimp only at ih ⊢
    rw [runItems_snoc]
    have := itemStep_fields (inst := inst) (b := b) (c := c) (last := last)
      (runItems inst b c last st l) a
    obtain ⟨-, -, -, -, h1, h2, h3, h4, h5, h6, h7, h8⟩ := this
    rw [h1, h2, h3, h4, h5, h6, h7, h8]
    exact ih

/-! Extents of the last bin -/

theorem rotate_eq (d : Dims) (r : Rotation) : d.rotate r = rotated d r := by cases r <;> rfl

theorem itemStep_extents (st : ItemLoop) (a : PlacedItem) :
    let s := (itemStep inst b c last st a).sol
    (last = false → s.xMax = st.sol.xMax ∧ s.yMax = st.sol.yMax ∧ s.zMax = st.sol.zMax
      ∧ s.volume = st.sol.volume ∧ s.leftoverValue = st.sol.leftoverValue)
    ∧ (last = true → s.xMax = max st.sol.xMax (rightEnd inst a)
      ∧ s.yMax = max st.sol.yMax (rearEnd inst a)
      ∧ s.zMax = max st.sol.zMax (topEnd inst a)
      ∧ s.volume = st.sol.binVolume - (inst.binType b).volume + s.xMax * s.yMax * s.zMax
      ∧ s.leftoverValue = st.sol.binVolume - s.volume) := by
  unfold itemStep extentStep rightEnd rearEnd topEnd occupies
  dsimp only
  rw [rotate_eq]
  constructor
  · intro hl
    subst hl
    exact ⟨rfl, rfl, rfl, rfl, rfl⟩
  · intro hl
    subst hl
    rw [if_pos rfl]
    dsimp only
    refine ⟨?_, ?_, ?_, rfl, rfl⟩
    · split_ifs <;> omega
    · split_ifs <;> omega
    · split_ifs <;> omega

theorem runItems_xMax (h0 : st.sol.xMax = 0) (l : List PlacedItem) :
    OneDim.Spec.IsMaxWithZero ((if last then l else []).map (rightEnd inst))
      (runItems inst b c last st l).sol.xMax := by
  induction l using List.reverseRecOn with
  | nil => simp [OneDim.Spec.IsMaxWithZero, h0]
  | append_singleton l a ih =>
    rw [runItems_snoc]
    have hs := itemStep_extents (inst := inst) (b := b) (c := c) (last := last)
      (runItems inst b c last st l) a
    cases last with
    | false =>
      simp only [Bool.false_eq_true, if_false] at ih ⊢
      rw [(hs.1 rfl).1]; exact ih
    | true =>
      simp only [if_true] at ih ⊢
      rw [(hs.2 rfl).1]
      obtain ⟨h1, h2, h3⟩ := ih
      refine ⟨?_, le_max_of_le_left h2, ?_⟩
      · simp only [List.map_append, List.map_cons, List.map_nil, List.mem_append,
          List.mem_singleton]
        rintro x (hx | rfl)
        · exact le_max_of_le_left (h1 x hx)
        · exact le_max_right _ _
      · rcases max_choice (runItems inst b c true st l).sol.xMax (rightEnd inst a) with e | e
        · rw [e]
          rcases h3 with h3 | h3
          · exact Or.inl h3
          · right; simp only [List.map_append, List.mem_append]; exact Or.inl h3
        · rw [e]; right; simp

theorem runItems_yMax (h0 : st.sol.yMax = 0) (l : List PlacedItem) :
    OneDim.Spec.IsMaxWithZero ((if last then l else []).map (rearEnd inst))
      (runItems inst b c last st l).sol.yMax := by
  induction l using List.reverseRecOn with
  | nil => simp [OneDim.Spec.IsMaxWithZero, h0]
  | append_singleton l a ih =>
    rw [runItems_snoc]
    have hs := itemStep_extents (inst := inst) (b := b) (c := c) (last := last)
      (runItems inst b c last st l) a
    cases last with
    | false =>
      simp only [Bool.false_eq_true, if_false] at ih ⊢
      rw [(hs.1 rfl).2.1]; exact ih
    | true =>
      simp only [if_true] at ih ⊢
      rw [(hs.2 rfl).2.1]
      obtain ⟨h1, h2, h3⟩ := ih
      refine ⟨?_, le_max_of_le_left h2, ?_⟩
      · simp only [List.map_append, List.map_cons, List.map_nil, List.mem_append,
          List.mem_singleton]
        rintro x (hx | rfl)
        · exact le_max_of_le_left (h1 x hx)
        · exact le_max_right _ _
      · rcases max_choice (runItems inst b c true st l).sol.yMax (rearEnd inst a) with e | e
        · rw [e]
          rcases h3 with h3 | h3
          · exact Or.inl h3
          · right; simp only [List.map_append, List.mem_append]; exact Or.inl h3
        · rw [e]; right; simp

theorem runItems_zMax_frame (l : List PlacedItem) (hl : last = false) :
    (runItems inst b c last st l).sol.zMax = st.sol.zMax := by
  induction l using List.reverseRecOn with
  | nil => rfl
  | append_singleton l a ih =>
    rw [runItems_snoc]
    have hs := itemStep_extents (inst := inst) (b := b) (c := c) (last := last)
      (runItems inst b c last st l) a
    rw [(hs.1 hl).2.2.1]; exact ih

/-- `z_max_` is not reset: it is the largest of its old value and the tops of the items. -/
theorem runItems_zMax (l : List PlacedItem) :
    (∀ i ∈ l, topEnd inst i ≤ (runItems inst b c true st l).sol.zMax)
    ∧ st.sol.zMax ≤ (runItems inst b c true st l).sol.zMax
    ∧ ((runItems inst b c true st l).sol.zMax = st.sol.zMax
      ∨ ∃ i ∈ l, (runItems inst b c true st l).sol.zMax = topEnd inst i) := by
  induction l using List.reverseRecOn with
  | nil => simp
  | append_singleton l a ih =>
    rw [runItems_snoc]
    have hs := itemStep_extents (inst := inst) (b := b) (c := c) (last := true)
      (runItems inst b c true st l) a
    rw [(hs.2 rfl).2.2.1]
    obtain ⟨h1, h2, h3⟩ := ih
    refine ⟨?_, le_max_of_le_left h2, ?_⟩
    · intro i hi
      rcases List.mem_append.mp hi with hi | hi
      · exact le_max_of_le_left (h1 i hi)
      · rw [List.mem_singleton.mp hi]; exact le_max_right _ _
    · rcases max_choice (runItems inst b c true st l).sol.zMax (topEnd inst a) with e | e
      · rw [e]
        rcases h3 with h3 | ⟨i, hi, h3⟩
        · exact Or.inl h3
        · exact Or.inr ⟨i, List.mem_append_left _ hi, h3⟩
      · rw [e]; exact Or.inr ⟨a, by simp, rfl⟩

theorem runItems_volume (l : List PlacedItem) (hne : l ≠ []) :
    let s := (runItems inst b c true st l).sol
    s.volume = st.sol.binVolume - (inst.binType b).volume + s.xMax * s.yMax * s.zMax
    ∧ s.leftoverValue = st.sol.binVolume - s.volume := by
  induction l using List.reverseRecOn with
  | nil => exact absurd rfl hne
  | append_singleton l a _ =>
    dsimp only
    rw [runItems_snoc]
    have hs := (itemStep_extents (inst := inst) (b := b) (c := c) (last := true)
      (runItems inst b c true st l) a).2 rfl
    have hf := (runItems_frame (inst := inst) (b := b) (c := c) (last := true)
      (st := st) l).2.2.2.2.2.1
    rw [← hf]
    exact ⟨hs.2.2.2.1, hs.2.2.2.2⟩

/-! Weight and profit of the bin -/

theorem runItems_weight (l : List PlacedItem) :
    (runItems inst b c last st l).weight = st.weight + binWeight inst l
    ∧ (runItems inst b c last st l).profit = st.profit + itemsProfit inst l := by
  unfold binWeight itemsProfit
  induction l using List.reverseRecOn with
  | nil => simp
  | append_singleton l a ih =>
    rw [runItems_snoc]
    simp only [itemStep, ih.1, ih.2, List.map_append, List.map_cons, List.map_nil,
      List.sum_append, List.sum_cons, List.sum_nil]
    constructor <;> ring

end PackingSolver.Box
