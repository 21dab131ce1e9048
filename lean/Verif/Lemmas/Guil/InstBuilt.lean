import Verif.Lemmas.Guil.InstBuild
import Verif.Spec.GuillotineStages

/-! Helper lemmas: the guillotine instance returned by `build`, compared to the one under
construction. -/

namespace PackingSolver.Guil

open InstanceBuilder
open Guil.Spec hiding IsMaxWithZero
open PackingSolver.OneDim (getD_mem)
open PackingSolver.OneDim.Spec (IsMaxWithZero)

variable {b : InstanceBuilder} {inst : Instance}

theorem area_trimmed (t : BinType) : t.area = trimmedArea t := by
  unfold BinType.area trimmedArea
  ring

/-- The instance returned by `build`, in terms of the one returned by `build_stacks`. -/
structure Built (i0 inst : Instance) : Prop where
  objective : inst.objective = i0.objective
  parameters : inst.parameters = i0.parameters
  callback : inst.callback = i0.callback
  itemTypeIds : inst.itemTypeIds = i0.itemTypeIds
  stackOffsets : inst.stackOffsets = i0.stackOffsets
  items : ∃ F, inst.itemTypes = withRes inst.binTypes.length
    (i0.itemTypes.map (resolveItem i0.objective)) F
      ∧ ∀ j t, F j t = wantedIds (inst.binType t).resources (inst.binType t).resources.length j
  bins : inst.binTypes = i0.binTypes.map (resolveBin inst.numberOfItems)
  numberOfItems : inst.numberOfItems = (i0.itemTypes.map (·.copies)).sum
  itemArea : inst.itemArea = (i0.itemTypes.map fun t => t.copies * t.area).sum
  itemProfit : inst.itemProfit = (i0.itemTypes.map fun t => (t.copies : ℚ) * t.profit).sum
  largestItemProfit : IsMaxWithZero (i0.itemTypes.map (·.profit)) inst.largestItemProfit
  largestItemCopies : IsMaxWithZero (i0.itemTypes.map (·.copies)) inst.largestItemCopies
  largestEfficiency : (i0.itemTypes.length = 0 → inst.largestEfficiencyItemTypeId = -1)
    ∧ (0 < i0.itemTypes.length → ∃ i, i < i0.itemTypes.length
      ∧ inst.largestEfficiencyItemTypeId = (i : Int)
      ∧ ∀ j, j < i0.itemTypes.length →
          (i0.itemType j).profit / ((i0.itemType j).area : ℚ)
          ≤ (i0.itemType i).profit / ((i0.itemType i).area : ℚ))
  copiesMin : ∀ t ∈ i0.itemTypes, (resolveItem i0.objective t).copiesMin ≤ t.copies
  areaNe : ∀ t ∈ i0.itemTypes, t.area ≠ 0
  allInfinite : inst.allItemTypesInfiniteCopies = true ↔
    ∀ t ∈ i0.itemTypes, (binTypesAreaMax i0 - 1).tdiv t.area + 1 ≤ t.copies
  allOriented : inst.allItemTypesOriented = true ↔ ∀ t ∈ i0.itemTypes, t.oriented = true
  binArea : inst.binArea = (inst.binTypes.map fun t => t.copies * t.area).sum
  binTypeIds : inst.binTypeIds = binPositions inst.binTypes
  previousBinsArea : inst.previousBinsArea = offsets 0 inst.binTypes
  largestBinCost : IsMaxWithZero (inst.binTypes.map (·.cost)) inst.largestBinCost
  numberOfDefects : inst.numberOfDefects = (inst.binTypes.map fun t => t.defects.length).sum
  openDimension : checkOpenDimension inst = .ok ()

theorem instance_built (hF : BFresh b.inst) (h : b.build = .ok inst) :
    ∃ i0, checkParameters b.inst.parameters = .ok () ∧ buildStacks b.inst = .ok i0
      ∧ BFresh i0 ∧ Built i0 inst := by
  obtain ⟨i0, i1, st, hp, h0, hF0, hI, hB, hod, hinst⟩ := build_pieces hF h
  refine ⟨i0, hp, h0, hF0, ?_⟩
  obtain ⟨_, _, _, _, _, _, est⟩ := hB.rest
  have e1 : inst.numberOfItems = i1.numberOfItems := by
    rw [hinst]; change st.1.numberOfItems = _; rw [est]
  have e2 : inst.binTypes = st.1.binTypes := by rw [hinst]
  have hbins : st.1.binTypes = i0.binTypes.map (resolveBin i1.numberOfItems) := by
    rw [hB.binTypes, hI.binTypes]; simp
  have hbins' : (i1.binTypes.take i1.binTypes.length).map (resolveBin i1.numberOfItems)
      = inst.binTypes := by
    rw [e2, hbins, hI.binTypes]; simp
  have hitems : st.1.itemTypes = i0.itemTypes.map (resolveItem i0.objective) := by
    have e : st.1.itemTypes = i1.itemTypes := by rw [est]
    rw [e, hI.itemTypes]; simp
  have hI' := hI
  rw [← List.take_length (l := i0.itemTypes)] at hI'
  refine {
    objective := by rw [hinst]; change st.1.objective = _; rw [est]; exact hI.objective
    parameters := by rw [hinst]; change st.1.parameters = _; rw [est]; exact hI.parameters
    callback := by rw [hinst]; change st.1.callback = _; rw [est]; exact hI.callback
    itemTypeIds := by rw [hinst]; change st.1.itemTypeIds = _; rw [est]; exact hI.itemTypeIds
    stackOffsets := by rw [hinst]; change st.1.stackOffsets = _; rw [est]; exact hI.stackOffsets
    items := ⟨fun j t => wantedIds (st.1.binType t).resources
              (st.1.binType t).resources.length j, by rw [← hitems, hinst], fun j t => by
                unfold Instance.binType; rw [e2]⟩
    bins := by rw [e2, hbins, e1]
    numberOfItems := by rw [e1, hI.numberOfItems, List.take_length]
    itemArea := by
      rw [hinst]; change st.1.itemArea = _; rw [est]
      exact hI.itemArea.trans (by rw [List.take_length])
    itemProfit := by
      rw [hinst]; change st.1.itemProfit = _; rw [est]
      exact hI.itemProfit.trans (by rw [List.take_length])
    largestItemProfit := by
      have h2 := hI.largestItemProfit
      rw [List.take_length] at h2
      rw [hinst]; change IsMaxWithZero _ st.1.largestItemProfit; rw [est]; exact h2
    largestItemCopies := by
      have h2 := hI.largestItemCopies
      rw [List.take_length] at h2
      rw [hinst]; change IsMaxWithZero _ st.1.largestItemCopies; rw [est]; exact h2
    largestEfficiency := by
      have h2 := hI.largestEfficiency
      rw [hinst]
      change (_ → st.1.largestEfficiencyItemTypeId = _)
        ∧ (_ → ∃ i, _ ∧ st.1.largestEfficiencyItemTypeId = _ ∧ _)
      rw [est]; exact h2
    copiesMin := by
      have h2 := hI.copiesMin
      rw [List.take_length] at h2
      exact h2
    areaNe := by
      have h2 := hI.areaNe
      rw [List.take_length] at h2
      exact h2
    allInfinite := by
      have h2 := hI.allInfinite
      rw [List.take_length] at h2
      rw [hinst]; change st.1.allItemTypesInfiniteCopies = true ↔ _; rw [est]; exact h2
    allOriented := by
      have h2 := hI.allOriented
      rw [List.take_length] at h2
      rw [hinst]; change st.1.allItemTypesOriented = true ↔ _; rw [est]; exact h2
    binArea := by
      have h2 := hB.binArea
      rw [hbins'] at h2
      rw [← h2, hinst]
    binTypeIds := by
      have h2 := hB.binTypeIds
      rw [hbins'] at h2
      rw [← h2, hinst]
    previousBinsArea := by
      have h2 := hB.previousBinsArea
      rw [hbins'] at h2
      rw [← h2, hinst]
    largestBinCost := by
      have h2 := hB.largestBinCost
      rw [hbins'] at h2
      have : inst.largestBinCost = st.1.largestBinCost := by rw [hinst]
      rw [this]; exact h2
    numberOfDefects := by
      have h2 := hB.numberOfDefects
      have : inst.numberOfDefects = st.1.numberOfDefects := by rw [hinst]
      rw [this, h2, e2, hbins, List.take_length, hI.binTypes, List.map_map]
      congr 1
      apply List.map_congr_left
      intro t _
      exact ((resolveBin_fields _ _).2.2.2.2.2.2.2.symm ▸ rfl)
    openDimension := hod }

variable {i0 : Instance}

theorem Built.map_items (hB : Built i0 inst) {β : Type}
    (g : ItemType → β) (hg : ∀ t x, g { t with resourceIds := x } = g t)
    (hr : ∀ o t, g (resolveItem o t) = g t) :
    inst.itemTypes.map g = i0.itemTypes.map g := by
  obtain ⟨F, h, -⟩ := hB.items
  rw [h, map_withRes _ _ _ _ hg, List.map_map]
  apply List.map_congr_left
  intro t _
  exact hr _ _

theorem Built.items_length (hB : Built i0 inst) : inst.itemTypes.length = i0.itemTypes.length := by
  have := congrArg List.length (hB.map_items (fun t => t.w) (by intros; rfl)
    (fun o t => (resolve_fields o t).2.1))
  simpa using this

theorem Built.item (hB : Built i0 inst) {β : Type}
    (g : ItemType → β) (hg : ∀ t x, g { t with resourceIds := x } = g t)
    (hr : ∀ o t, g (resolveItem o t) = g t) (i : Nat) :
    g (inst.itemType i) = g (i0.itemType i) := by
  have h1 := congrArg (fun l => l[i]?) (hB.map_items g hg hr)
  simp only [List.getElem?_map] at h1
  unfold Instance.itemType
  rw [List.getD_eq_getElem?_getD, List.getD_eq_getElem?_getD]
  cases h2 : inst.itemTypes[i]? <;> cases h3 : i0.itemTypes[i]? <;> rw [h2, h3] at h1 <;>
    simp_all

theorem mem_binPositions {l : List BinType} {t : Nat} (h : t ∈ binPositions l) : t < l.length := by
  unfold binPositions at h
  obtain ⟨p, hp, h4⟩ := List.mem_flatMap.mp h
  have h5 := List.eq_of_mem_replicate h4
  have h6 := List.snd_lt_of_mem_zipIdx hp
  omega

theorem Built.resource_row (hB : Built i0 inst) {i : Nat} (hi : i < inst.itemTypes.length) :
    (inst.itemType i).resourceIds = (List.range inst.binTypes.length).map fun t =>
      wantedIds (inst.binType t).resources (inst.binType t).resources.length i := by
  obtain ⟨F, h, hF⟩ := hB.items
  have hi' : i < i0.itemTypes.length := by rw [← hB.items_length]; exact hi
  have hg : inst.itemType i = { (i0.itemTypes.map (resolveItem i0.objective))[i]'(by simpa) with
      resourceIds := (List.range inst.binTypes.length).map (F i) } := by
    unfold Instance.itemType
    rw [h, List.getD_eq_getElem _ _ (by simpa [withRes] using hi')]
    simp [withRes]
  rw [hg]
  dsimp only
  apply List.map_congr_left
  intro t _
  exact hF i t

theorem foldl_max_spec (l : List BinType) (m : Int) :
    m ≤ l.foldl (fun m t => max m t.area) m
    ∧ (∀ t ∈ l, t.area ≤ l.foldl (fun m t => max m t.area) m)
    ∧ (l.foldl (fun m t => max m t.area) m = m
      ∨ ∃ t ∈ l, l.foldl (fun m t => max m t.area) m = t.area) := by
  induction l generalizing m with
  | nil => simp
  | cons a l ih =>
    obtain ⟨h1, h2, h3⟩ := ih (max m a.area)
    rw [List.foldl_cons]
    refine ⟨by omega, fun t ht => ?_, ?_⟩
    · rcases List.mem_cons.mp ht with rfl | ht
      · omega
      · exact h2 t ht
    · rcases h3 with h3 | ⟨t, ht, h3⟩
      · rcases le_total m a.area with h | h
        · right; exact ⟨a, by simp, by omega⟩
        · left; omega
      · right; exact ⟨t, by simp [ht], h3⟩

theorem ceil_le_iff {m a c : Int} (hm : 1 ≤ m) (ha : 0 < a) :
    (m - 1).tdiv a + 1 ≤ c ↔ m ≤ c * a := by
  rw [Int.tdiv_eq_ediv_of_nonneg (by omega)]
  have h : (m - 1) / a < c ↔ m - 1 < c * a := Int.ediv_lt_iff_lt_mul ha
  omega

theorem Built.sizes (hF0 : BFresh i0) (hB : Built i0 inst) : Sizes inst := by
  refine ⟨fun t ht => ?_, fun t ht => ?_, fun t ht => ?_, fun ho => ?_⟩
  · obtain ⟨F, h, -⟩ := hB.items
    have h1 : (t.copies, t.copiesMin, t.w, t.h) ∈ inst.itemTypes.map
        (fun t => (t.copies, t.copiesMin, t.w, t.h)) := List.mem_map.mpr ⟨t, ht, rfl⟩
    rw [h, map_withRes _ _ _ _ (by intros; rfl), List.map_map] at h1
    obtain ⟨u, hu, h2⟩ := List.mem_map.mp h1
    simp only [Function.comp, (resolve_fields _ _).1, (resolve_fields _ _).2.1,
      (resolve_fields _ _).2.2.1, Prod.mk.injEq] at h2
    obtain ⟨hc, hm, hx, hy⟩ := h2
    have hne := hB.areaNe u hu
    have hu' := hF0.items u hu
    unfold ItemType.area at hne
    have hx0 : u.w ≠ 0 := by intro h0; rw [h0] at hne; simp at hne
    have hy0 : u.h ≠ 0 := by intro h0; rw [h0] at hne; simp at hne
    have := hu'.w
    have := hu'.h
    have := hB.copiesMin u hu
    refine ⟨by omega, by omega, by omega⟩
  · rw [hB.bins] at ht
    obtain ⟨u, hu, rfl⟩ := List.mem_map.mp ht
    have hu' := hF0.bins u hu
    refine ⟨by rw [(resolveBin_fields _ _).2.2.2.2.1]; exact hu'.copiesMin, ?_⟩
    unfold resolveBin
    by_cases h3 : u.copies = -1
    · rw [if_pos h3]; exact Or.inr rfl
    · rw [if_neg h3]
      rcases hu'.copies with h4 | h4
      · exact absurd h4 h3
      · exact Or.inl h4
  · rw [hB.bins] at ht
    obtain ⟨u, hu, rfl⟩ := List.mem_map.mp ht
    rw [(resolveBin_fields _ _).2.2.2.2.2.2.1]
    exact (hF0.bins u hu).fixedItems
  · have hod := hB.openDimension
    unfold checkOpenDimension at hod
    by_contra hne
    by_cases hx : inst.objective = .openDimensionX
    · rw [if_pos ⟨hx, hne⟩] at hod; cases hod
    · rw [if_neg (by tauto), if_pos ⟨by tauto, hne⟩] at hod; cases hod

theorem Built.aggregates (hF0 : BFresh i0) (hB : Built i0 inst) : Aggregates inst := by
  have hmap := fun {β : Type} (g : ItemType → β) => hB.map_items g
  have hC : inst.itemTypes.map (·.copies) = i0.itemTypes.map (·.copies) :=
    hmap _ (by intros; rfl) (fun oo t => (resolve_fields oo t).1)
  have hP : inst.itemTypes.map (·.profit) = i0.itemTypes.map (·.profit) :=
    hmap _ (by intros; rfl) (fun oo t => (resolve_fields oo t).2.2.2.1)
  have hCA : inst.itemTypes.map (fun t => t.copies * (t.w * t.h))
      = i0.itemTypes.map (fun t => t.copies * (t.w * t.h)) :=
    hmap _ (by intros; rfl) (fun oo t => by
      rw [(resolve_fields oo t).1, (resolve_fields oo t).2.1, (resolve_fields oo t).2.2.1])
  have hCP : inst.itemTypes.map (fun t => (t.copies : ℚ) * t.profit)
      = i0.itemTypes.map (fun t => (t.copies : ℚ) * t.profit) :=
    hmap _ (by intros; rfl)
      (fun oo t => by rw [(resolve_fields oo t).1, (resolve_fields oo t).2.2.2.1])
  have hO : inst.itemTypes.map (·.oriented) = i0.itemTypes.map (·.oriented) :=
    hmap _ (by intros; rfl) (fun oo t => (resolve_fields oo t).2.2.2.2.2.2.1)
  have hCC : inst.itemTypes.map (fun t => (t.copies, t.area))
      = i0.itemTypes.map (fun t => (t.copies, t.area)) :=
    hmap _ (by intros; rfl) (fun oo t => by
      rw [(resolve_fields oo t).1, (resolve_fields oo t).2.2.2.2.2.2.2.2.2])
  have hS := hB.sizes hF0
  refine ⟨by rw [hB.numberOfItems, hC], by rw [hB.itemArea, hCA]; rfl,
    by rw [hB.itemProfit, hCP], by rw [hP]; exact hB.largestItemProfit,
    by rw [hC]; exact hB.largestItemCopies, ?_, ?_, ?_, ?_, hB.binTypeIds, ?_,
    hB.largestBinCost, hB.numberOfDefects, ?_⟩
  · refine ⟨fun he => hB.largestEfficiency.1 ?_, fun hne => ?_⟩
    · rw [← hB.items_length, he]; rfl
    · obtain ⟨i, hi, h1, h2⟩ := hB.largestEfficiency.2
        (by rw [← hB.items_length]; exact List.length_pos_of_ne_nil hne)
      have hl := hB.item (fun t => t.w * t.h) (by intros; rfl)
        (fun oo t => by rw [(resolve_fields oo t).2.1, (resolve_fields oo t).2.2.1])
      have hp := hB.item (·.profit) (by intros; rfl) (fun oo t => (resolve_fields oo t).2.2.2.1)
      refine ⟨i, by unfold Instance.numberOfItemTypes; rw [hB.items_length]; exact hi, h1,
        fun j hj => ?_⟩
      unfold Instance.numberOfItemTypes at hj
      rw [hB.items_length] at hj
      rw [hl j, hp j, hl i, hp i]
      exact h2 j hj
  · rw [hB.allOriented]
    have : ∀ l : List ItemType, (∀ t ∈ l, t.oriented = true) ↔ ∀ x ∈ l.map (·.oriented), x = true :=
      fun l => by simp
    rw [this, ← hO, ← this]
  · rintro ⟨b0, hb0, hpos⟩
    rw [hB.allInfinite]
    have hareas : inst.binTypes.map (·.area) = i0.binTypes.map (·.area) := by
      rw [hB.bins, List.map_map]
      apply List.map_congr_left
      intro t _
      exact (resolveBin_fields _ _).2.2.1
    have hmax : binTypesAreaMax i0 = inst.binTypes.foldl (fun m t => max m t.area) 0 := by
      unfold binTypesAreaMax
      have : ∀ l : List BinType, l.foldl (fun m t => max m t.area) 0
          = (l.map (·.area)).foldl (fun m a => max m a) 0 := fun l => by rw [List.foldl_map]
      rw [this, this, hareas]
    obtain ⟨m1, m2, m3⟩ := foldl_max_spec inst.binTypes 0
    rw [← hmax] at m1 m2 m3
    have hm : 1 ≤ binTypesAreaMax i0 := by
      have := m2 b0 hb0
      rw [area_trimmed] at this
      omega
    have e1 : (∀ t ∈ i0.itemTypes, (binTypesAreaMax i0 - 1).tdiv t.area + 1 ≤ t.copies)
        ↔ ∀ t ∈ inst.itemTypes, (binTypesAreaMax i0 - 1).tdiv t.area + 1 ≤ t.copies := by
      have : ∀ l : List ItemType,
          (∀ t ∈ l, (binTypesAreaMax i0 - 1).tdiv t.area + 1 ≤ t.copies)
          ↔ ∀ x ∈ l.map (fun t => (t.copies, t.area)),
            (binTypesAreaMax i0 - 1).tdiv x.2 + 1 ≤ x.1 := fun l => by simp
      rw [this, this, hCC]
    rw [e1]
    constructor
    · intro h t ht bt hbt
      have ha : 0 < t.w * t.h := Int.mul_pos (hS.items t ht).1 (hS.items t ht).2.1
      have := (ceil_le_iff hm ha).mp (h t ht)
      have h2 := m2 bt hbt
      rw [area_trimmed] at h2
      omega
    · intro h t ht
      have ha : 0 < t.w * t.h := Int.mul_pos (hS.items t ht).1 (hS.items t ht).2.1
      refine (ceil_le_iff hm ha).mpr ?_
      rcases m3 with m3 | ⟨bt, hbt, m3⟩
      · omega
      · rw [m3, area_trimmed]; exact h t ht bt hbt
  · rw [hB.binArea]
    congr 1
    apply List.map_congr_left
    intro t _
    rw [area_trimmed]
  · have hoff := offsets_spec 0 inst.binTypes 0 (fun b => (inst.binType b).area)
      (by intro i _; simp [Instance.binType])
    rw [hB.previousBinsArea, hB.binTypeIds]
    refine ⟨hoff.1, fun k hk => ?_⟩
    rw [hoff.2 k (by rw [hoff.1]; exact hk), zero_add]
    congr 1
    apply List.map_congr_left
    intro t _
    rw [area_trimmed]
  · intro i hi t ht
    rw [hB.resource_row hi, List.getD_eq_getElem _ _ (by rw [List.length_map, List.length_range]; exact ht)]
    simp only [List.getElem_map, List.getElem_range]
    unfold wantedIds
    refine ⟨List.nodup_range.filter _, fun r => ?_⟩
    rw [List.mem_filter, List.mem_range, decide_eq_true_eq]

end PackingSolver.Guil
