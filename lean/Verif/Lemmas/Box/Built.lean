import Verif.Lemmas.Box.Build

/-! Helper lemmas: the box instance returned by `build`, compared to the one under
construction. -/

namespace PackingSolver.Box

open InstanceBuilder Spec
open PackingSolver.OneDim (getD_mem)
open PackingSolver.OneDim.Spec (IsMaxWithZero)

variable {b : InstanceBuilder} {inst : Instance}

/-- The instance returned by `build`, in terms of the one whose item types all have a rotation. -/
structure Built (i0 inst : Instance) : Prop where
  objective : inst.objective = i0.objective
  callback : inst.callback = i0.callback
  items : ∃ F, inst.itemTypes = withRes inst.binTypes.length
    (i0.itemTypes.map (resolveItem i0.objective)) F
      ∧ ∀ j t, F j t = wantedIds (inst.binType t).resources (inst.binType t).resources.length j
  bins : inst.binTypes = i0.binTypes.map (resolveBin inst.numberOfItems)
  numberOfItems : inst.numberOfItems = (i0.itemTypes.map (·.copies)).sum
  itemVolume : inst.itemVolume = (i0.itemTypes.map fun t => t.copies * t.volume).sum
  itemWeight : inst.itemWeight = (i0.itemTypes.map fun t => (t.copies : ℚ) * t.weight).sum
  itemProfit : inst.itemProfit = (i0.itemTypes.map fun t => (t.copies : ℚ) * t.profit).sum
  largestItemProfit : IsMaxWithZero (i0.itemTypes.map (·.profit)) inst.largestItemProfit
  largestItemCopies : IsMaxWithZero (i0.itemTypes.map (·.copies)) inst.largestItemCopies
  largestEfficiency : (i0.itemTypes.length = 0 → inst.largestEfficiencyItemTypeId = -1)
    ∧ (0 < i0.itemTypes.length → ∃ i, i < i0.itemTypes.length
      ∧ inst.largestEfficiencyItemTypeId = (i : Int)
      ∧ ∀ j, j < i0.itemTypes.length →
          (i0.itemType j).profit / ((i0.itemType j).volume : ℚ)
          ≤ (i0.itemType i).profit / ((i0.itemType i).volume : ℚ))
  copiesMin : ∀ t ∈ i0.itemTypes, (resolveItem i0.objective t).copiesMin ≤ t.copies
  volumeNe : ∀ t ∈ i0.itemTypes, t.volume ≠ 0
  allInfinite : inst.allItemTypesInfiniteCopies = true ↔
    ∀ t ∈ i0.itemTypes, (binTypesVolumeMax i0 - 1).tdiv t.volume + 1 ≤ t.copies
  smallestItemX : IsSmallest i0.itemTypes (·.x) inst.smallestItemX
  smallestItemY : IsSmallest i0.itemTypes (·.y) inst.smallestItemY
  smallestItemZ : IsSmallest i0.itemTypes (·.z) inst.smallestItemZ
  binArea : inst.binArea = (inst.binTypes.map fun t => t.copies * t.area).sum
  binVolume : inst.binVolume = (inst.binTypes.map fun t => t.copies * t.volume).sum
  binTypeIds : inst.binTypeIds = binPositions inst.binTypes
  previousBinsVolume : inst.previousBinsVolume = offsets 0 inst.binTypes
  largestBinCost : IsMaxWithZero (inst.binTypes.map (·.cost)) inst.largestBinCost
  openDimension : checkOpenDimension inst = .ok ()

theorem instance_built (hF : BFresh b.inst) (h : b.build = .ok inst) :
    BFresh (withRotations b.inst) ∧ Built (withRotations b.inst) inst := by
  obtain ⟨i1, st, hI, hB, hod, hinst⟩ := build_pieces hF h
  have hF0 := fresh_withRotations hF
  refine ⟨hF0, ?_⟩
  generalize hi0 : withRotations b.inst = i0 at hI hF0
  obtain ⟨sx, sy, sz, es⟩ := noSmallest_eq i1
  obtain ⟨_, _, _, _, _, _, est⟩ := hB.rest
  have e1 : inst.numberOfItems = i1.numberOfItems := by
    rw [hinst]; change st.1.numberOfItems = _; rw [est, es]
  have en : (noSmallest i1).numberOfItems = i1.numberOfItems := by rw [es]
  have eb : (noSmallest i1).binTypes = i0.binTypes := by rw [es]; exact hI.binTypes
  have e2 : inst.binTypes = st.1.binTypes := by rw [hinst]
  have hbins : st.1.binTypes = i0.binTypes.map (resolveBin i1.numberOfItems) := by
    rw [hB.binTypes, en, eb]; simp
  have hbins' : ((noSmallest i1).binTypes.take (noSmallest i1).binTypes.length).map
      (resolveBin (noSmallest i1).numberOfItems) = inst.binTypes := by
    rw [e2, hbins, en, eb]; simp
  have hitems : st.1.itemTypes = i0.itemTypes.map (resolveItem i0.objective) := by
    have e : st.1.itemTypes = i1.itemTypes := by rw [est, es]
    rw [e, hI.itemTypes]; simp
  have hempty : i1.itemTypes = [] ↔ i0.itemTypes = [] := by
    rw [hI.itemTypes]; simp
  refine {
    objective := by rw [hinst]; change st.1.objective = _; rw [est, es]; exact hI.objective
    callback := by rw [hinst]; change st.1.callback = _; rw [est, es]; exact hI.callback
    items := ⟨fun j t => wantedIds (st.1.binType t).resources
              (st.1.binType t).resources.length j, by rw [← hitems, hinst], fun j t => by
                unfold Instance.binType; rw [e2]⟩
    bins := by rw [e2, hbins, e1]
    numberOfItems := by rw [e1, hI.numberOfItems, List.take_length]
    itemVolume := by
      rw [hinst]; change st.1.itemVolume = _; rw [est, es]
      exact hI.itemVolume.trans (by rw [List.take_length])
    itemWeight := by
      rw [hinst]; change st.1.itemWeight = _; rw [est, es]
      exact hI.itemWeight.trans (by rw [List.take_length])
    itemProfit := by
      rw [hinst]; change st.1.itemProfit = _; rw [est, es]
      exact hI.itemProfit.trans (by rw [List.take_length])
    largestItemProfit := by
      have h2 := hI.largestItemProfit
      rw [List.take_length] at h2
      rw [hinst]; change IsMaxWithZero _ st.1.largestItemProfit; rw [est, es]; exact h2
    largestItemCopies := by
      have h2 := hI.largestItemCopies
      rw [List.take_length] at h2
      rw [hinst]; change IsMaxWithZero _ st.1.largestItemCopies; rw [est, es]; exact h2
    largestEfficiency := by
      have h2 := hI.largestEfficiency
      rw [hinst]
      change (_ → st.1.largestEfficiencyItemTypeId = _)
        ∧ (_ → ∃ i, _ ∧ st.1.largestEfficiencyItemTypeId = _ ∧ _)
      rw [est, es]; exact h2
    copiesMin := by
      have h2 := hI.copiesMin
      rw [List.take_length] at h2
      exact h2
    volumeNe := by
      have h2 := hI.volumeNe
      rw [List.take_length] at h2
      exact h2
    allInfinite := by
      have h2 := hI.allInfinite
      rw [List.take_length] at h2
      rw [hinst]; change st.1.allItemTypesInfiniteCopies = true ↔ _; rw [est, es]; exact h2
    smallestItemX := by
      have h2 := hI.smallestItemX
      rw [List.take_length] at h2
      have e : inst.smallestItemX = (noSmallest i1).smallestItemX := by
        rw [hinst]; change st.1.smallestItemX = _; rw [est]
      rw [e]
      unfold IsSmallest noSmallest
      by_cases h0 : i0.itemTypes = []
      · rw [if_pos h0, if_pos (hempty.mpr h0)]
      · rw [if_neg h0, if_neg (fun h => h0 (hempty.mp h))]; exact h2
    smallestItemY := by
      have h2 := hI.smallestItemY
      rw [List.take_length] at h2
      have e : inst.smallestItemY = (noSmallest i1).smallestItemY := by
        rw [hinst]; change st.1.smallestItemY = _; rw [est]
      rw [e]
      unfold IsSmallest noSmallest
      by_cases h0 : i0.itemTypes = []
      · rw [if_pos h0, if_pos (hempty.mpr h0)]
      · rw [if_neg h0, if_neg (fun h => h0 (hempty.mp h))]; exact h2
    smallestItemZ := by
      have h2 := hI.smallestItemZ
      rw [List.take_length] at h2
      have e : inst.smallestItemZ = (noSmallest i1).smallestItemZ := by
        rw [hinst]; change st.1.smallestItemZ = _; rw [est]
      rw [e]
      unfold IsSmallest noSmallest
      by_cases h0 : i0.itemTypes = []
      · rw [if_pos h0, if_pos (hempty.mpr h0)]
      · rw [if_neg h0, if_neg (fun h => h0 (hempty.mp h))]; exact h2
    binArea := by
      have h2 := hB.binArea
      rw [hbins'] at h2
      rw [← h2, hinst]
    binVolume := by
      have h2 := hB.binVolume
      rw [hbins'] at h2
      rw [← h2, hinst]
    binTypeIds := by
      have h2 := hB.binTypeIds
      rw [hbins'] at h2
      rw [← h2, hinst]
    previousBinsVolume := by
      have h2 := hB.previousBinsVolume
      rw [hbins'] at h2
      rw [← h2, hinst]
    largestBinCost := by
      have h2 := hB.largestBinCost
      rw [hbins'] at h2
      have : inst.largestBinCost = st.1.largestBinCost := by rw [hinst]
      rw [this]; exact h2
    openDimension := hod }

variable {i0 : Instance}

theorem Built.map_items (hB : Built i0 inst) {β : Type}
    (g : ItemType → β) (hg : ∀ t x, g { t with resourceIds := x } = g t)
    (hr : ∀ o t, g (resolveItem o t) = g t) :
    inst.itemTypes.map g = i0.itemTypes.map g := by
  obtain ⟨F, h, -⟩ := hB.items
  rw [h, map_withRes _ _ _ _ hg, List.map_map]
  apply List.map_congr_left
  intro t _
  exact hr _ _

theorem Built.items_length (hB : Built i0 inst) : inst.itemTypes.length = i0.itemTypes.length := by
  have := congrArg List.length (hB.map_items (fun t => t.box) (by intros; rfl)
    (fun o t => (resolve_fields o t).2.1))
  simpa using this

theorem Built.item (hB : Built i0 inst) {β : Type}
    (g : ItemType → β) (hg : ∀ t x, g { t with resourceIds := x } = g t)
    (hr : ∀ o t, g (resolveItem o t) = g t) (i : Nat) :
    g (inst.itemType i) = g (i0.itemType i) := by
  have h1 := congrArg (fun l => l[i]?) (hB.map_items g hg hr)
  simp only [List.getElem?_map] at h1
  unfold Instance.itemType
  rw [List.getD_eq_getElem?_getD, List.getD_eq_getElem?_getD]
  cases h2 : inst.itemTypes[i]? <;> cases h3 : i0.itemTypes[i]? <;> rw [h2, h3] at h1 <;>
    simp_all

theorem mem_binPositions {l : List BinType} {t : Nat} (h : t ∈ binPositions l) : t < l.length := by
  unfold binPositions at h
  obtain ⟨p, hp, h4⟩ := List.mem_flatMap.mp h
  have h5 := List.eq_of_mem_replicate h4
  have h6 := List.snd_lt_of_mem_zipIdx hp
  omega

theorem Built.resource_row (hB : Built i0 inst) {i : Nat} (hi : i < inst.itemTypes.length) :
    (inst.itemType i).resourceIds = (List.range inst.binTypes.length).map fun t =>
      wantedIds (inst.binType t).resources (inst.binType t).resources.length i := by
  obtain ⟨F, h, hF⟩ := hB.items
  have hi' : i < i0.itemTypes.length := by rw [← hB.items_length]; exact hi
  have hg : inst.itemType i = { (i0.itemTypes.map (resolveItem i0.objective))[i]'(by simpa) with
      resourceIds := (List.range inst.binTypes.length).map (F i) } := by
    unfold Instance.itemType
    rw [h, List.getD_eq_getElem _ _ (by simpa [withRes] using hi')]
    simp [withRes]
  rw [hg]
  dsimp only
  apply List.map_congr_left
  intro t _
  exact hF i t

theorem foldl_max_spec (l : List BinType) (m : Int) :
    m ≤ l.foldl (fun m t => max m t.volume) m
    ∧ (∀ t ∈ l, t.volume ≤ l.foldl (fun m t => max m t.volume) m)
    ∧ (l.foldl (fun m t => max m t.volume) m = m
      ∨ ∃ t ∈ l, l.foldl (fun m t => max m t.volume) m = t.volume) := by
  induction l generalizing m with
  | nil => simp
  | cons a l ih =>
    obtain ⟨h1, h2, h3⟩ := ih (max m a.volume)
    rw [List.foldl_cons]
    refine ⟨by omega, fun t ht => ?_, ?_⟩
    · rcases List.mem_cons.mp ht with rfl | ht
      · omega
      · exact h2 t ht
    · rcases h3 with h3 | ⟨t, ht, h3⟩
      · rcases le_total m a.volume with h | h
        · right; exact ⟨a, by simp, by omega⟩
        · left; omega
      · right; exact ⟨t, by simp [ht], h3⟩

theorem ceil_le_iff {m a c : Int} (hm : 1 ≤ m) (ha : 0 < a) :
    (m - 1).tdiv a + 1 ≤ c ↔ m ≤ c * a := by
  rw [Int.tdiv_eq_ediv_of_nonneg (by omega)]
  have h : (m - 1) / a < c ↔ m - 1 < c * a := Int.ediv_lt_iff_lt_mul ha
  omega

theorem Built.sizes (hF0 : BFresh i0) (hR : ∀ t ∈ i0.itemTypes, t.rotations ≠ [])
    (hB : Built i0 inst) : Sizes inst := by
  refine ⟨fun t ht => ?_, fun t ht => ?_, fun t ht => ?_, fun ho => ?_⟩
  · obtain ⟨F, h, -⟩ := hB.items
    have h1 : (t.copies, t.copiesMin, t.box, t.rotations) ∈ inst.itemTypes.map
        (fun t => (t.copies, t.copiesMin, t.box, t.rotations)) := List.mem_map.mpr ⟨t, ht, rfl⟩
    rw [h, map_withRes _ _ _ _ (by intros; rfl), List.map_map] at h1
    obtain ⟨u, hu, h2⟩ := List.mem_map.mp h1
    simp only [Function.comp, (resolve_fields _ _).1, (resolve_fields _ _).2.1,
      (resolve_fields _ _).2.2.2.2.1, Prod.mk.injEq] at h2
    obtain ⟨hc, hm, hx, hr⟩ := h2
    have hne := hB.volumeNe u hu
    have hu' := hF0.items u hu
    unfold ItemType.volume Dims.volume at hne
    have hx0 : u.box.x ≠ 0 := by intro h0; rw [h0] at hne; simp at hne
    have hy0 : u.box.y ≠ 0 := by intro h0; rw [h0] at hne; simp at hne
    have hz0 : u.box.z ≠ 0 := by intro h0; rw [h0] at hne; simp at hne
    have := hu'.x
    have := hu'.y
    have := hu'.z
    have := hB.copiesMin u hu
    rw [← hx, ← hr]
    exact ⟨by omega, by omega, by omega, by omega, hR u hu⟩
  · rw [hB.bins] at ht
    obtain ⟨u, hu, rfl⟩ := List.mem_map.mp ht
    have hu' := hF0.bins u hu
    refine ⟨by rw [(resolveBin_fields _ _).2.2.2.1]; exact hu'.copiesMin, ?_⟩
    unfold resolveBin
    by_cases h3 : u.copies = -1
    · rw [if_pos h3]; exact Or.inr rfl
    · rw [if_neg h3]
      rcases hu'.copies with h4 | h4
      · exact absurd h4 h3
      · exact Or.inl h4
  · rw [hB.bins] at ht
    obtain ⟨u, hu, rfl⟩ := List.mem_map.mp ht
    rw [(resolveBin_fields _ _).2.2.2.2.2.1]
    exact (hF0.bins u hu).fixedItems
  · have hod := hB.openDimension
    unfold checkOpenDimension at hod
    by_contra hne
    by_cases hx : inst.objective = .openDimensionX
    · rw [if_pos ⟨hx, hne⟩] at hod; cases hod
    · rw [if_neg (by tauto), if_pos ⟨by tauto, hne⟩] at hod; cases hod

theorem Built.aggregates (hF0 : BFresh i0) (hR : ∀ t ∈ i0.itemTypes, t.rotations ≠ [])
    (hB : Built i0 inst) : Aggregates inst := by
  have hmap := fun {β : Type} (g : ItemType → β) => hB.map_items g
  have hC : inst.itemTypes.map (·.copies) = i0.itemTypes.map (·.copies) :=
    hmap _ (by intros; rfl) (fun oo t => (resolve_fields oo t).1)
  have hP : inst.itemTypes.map (·.profit) = i0.itemTypes.map (·.profit) :=
    hmap _ (by intros; rfl) (fun oo t => (resolve_fields oo t).2.2.1)
  have hCA : inst.itemTypes.map (fun t => t.copies * volumeOf t.box)
      = i0.itemTypes.map (fun t => t.copies * volumeOf t.box) :=
    hmap _ (by intros; rfl) (fun oo t => by
      rw [(resolve_fields oo t).1, (resolve_fields oo t).2.1])
  have hCP : inst.itemTypes.map (fun t => (t.copies : ℚ) * t.profit)
      = i0.itemTypes.map (fun t => (t.copies : ℚ) * t.profit) :=
    hmap _ (by intros; rfl)
      (fun oo t => by rw [(resolve_fields oo t).1, (resolve_fields oo t).2.2.1])
  have hCW : inst.itemTypes.map (fun t => (t.copies : ℚ) * t.weight)
      = i0.itemTypes.map (fun t => (t.copies : ℚ) * t.weight) :=
    hmap _ (by intros; rfl)
      (fun oo t => by rw [(resolve_fields oo t).1, (resolve_fields oo t).2.2.2.2.2.1])
  have hOr : inst.itemTypes.map orientations = i0.itemTypes.map orientations :=
    hmap _ (by intros; rfl) (fun oo t => by
      unfold orientations
      rw [(resolve_fields oo t).2.1, (resolve_fields oo t).2.2.2.2.1])
  have hCC : inst.itemTypes.map (fun t => (t.copies, t.volume))
      = i0.itemTypes.map (fun t => (t.copies, t.volume)) :=
    hmap _ (by intros; rfl) (fun oo t => by
      rw [(resolve_fields oo t).1, (resolve_fields oo t).2.2.2.2.2.2])
  have hsm : ∀ f m, IsSmallest i0.itemTypes f m → IsSmallest inst.itemTypes f m := by
    intro f m h
    have he : inst.itemTypes = [] ↔ i0.itemTypes = [] := by
      rw [← List.length_eq_zero_iff, ← List.length_eq_zero_iff, hB.items_length]
    unfold IsSmallest at h ⊢
    rw [List.flatMap_def, hOr, ← List.flatMap_def]
    simp only [he]
    exact h
  have hS := hB.sizes hF0 hR
  refine ⟨by rw [hB.numberOfItems, hC], by rw [hB.itemVolume, hCA]; rfl,
    by rw [hB.itemProfit, hCP], by rw [hB.itemWeight, hCW], by rw [hP]; exact hB.largestItemProfit,
    by rw [hC]; exact hB.largestItemCopies, hsm _ _ hB.smallestItemX, hsm _ _ hB.smallestItemY,
    hsm _ _ hB.smallestItemZ, ?_, ?_, hB.binVolume, hB.binArea, hB.binTypeIds, ?_,
    hB.largestBinCost, ?_⟩
  · refine ⟨fun he => hB.largestEfficiency.1 ?_, fun hne => ?_⟩
    · rw [← hB.items_length, he]; rfl
    · obtain ⟨i, hi, h1, h2⟩ := hB.largestEfficiency.2
        (by rw [← hB.items_length]; exact List.length_pos_of_ne_nil hne)
      have hl := hB.item (fun t => volumeOf t.box) (by intros; rfl)
        (fun oo t => by rw [(resolve_fields oo t).2.1])
      have hp := hB.item (·.profit) (by intros; rfl) (fun oo t => (resolve_fields oo t).2.2.1)
      refine ⟨i, by unfold Instance.numberOfItemTypes; rw [hB.items_length]; exact hi, h1,
        fun j hj => ?_⟩
      unfold Instance.numberOfItemTypes at hj
      rw [hB.items_length] at hj
      rw [hl j, hp j, hl i, hp i]
      exact h2 j hj
  · rintro ⟨b0, hb0, hpos⟩
    rw [hB.allInfinite]
    have hvols : inst.binTypes.map (·.volume) = i0.binTypes.map (·.volume) := by
      rw [hB.bins, List.map_map]
      apply List.map_congr_left
      intro t _
      exact (resolveBin_fields _ _).2.1
    have hmax : binTypesVolumeMax i0 = inst.binTypes.foldl (fun m t => max m t.volume) 0 := by
      unfold binTypesVolumeMax
      have : ∀ l : List BinType, l.foldl (fun m t => max m t.volume) 0
          = (l.map (·.volume)).foldl (fun m a => max m a) 0 := fun l => by rw [List.foldl_map]
      rw [this, this, hvols]
    obtain ⟨m1, m2, m3⟩ := foldl_max_spec inst.binTypes 0
    rw [← hmax] at m1 m2 m3
    have hm : 1 ≤ binTypesVolumeMax i0 := by
      have := m2 b0 hb0
      change volumeOf b0.box ≤ _ at this
      omega
    have e1 : (∀ t ∈ i0.itemTypes, (binTypesVolumeMax i0 - 1).tdiv t.volume + 1 ≤ t.copies)
        ↔ ∀ t ∈ inst.itemTypes, (binTypesVolumeMax i0 - 1).tdiv t.volume + 1 ≤ t.copies := by
      have : ∀ l : List ItemType,
          (∀ t ∈ l, (binTypesVolumeMax i0 - 1).tdiv t.volume + 1 ≤ t.copies)
          ↔ ∀ x ∈ l.map (fun t => (t.copies, t.volume)),
            (binTypesVolumeMax i0 - 1).tdiv x.2 + 1 ≤ x.1 := fun l => by simp
      rw [this, this, hCC]
    rw [e1]
    constructor
    · intro h t ht bt hbt
      have ha : 0 < t.volume := Int.mul_pos (Int.mul_pos (hS.items t ht).1 (hS.items t ht).2.1)
        (hS.items t ht).2.2.1
      have := (ceil_le_iff hm ha).mp (h t ht)
      have h2 := m2 bt hbt
      change volumeOf bt.box ≤ _ at h2
      change _ ≤ t.copies * volumeOf t.box at this
      omega
    · intro h t ht
      have ha : 0 < t.volume := Int.mul_pos (Int.mul_pos (hS.items t ht).1 (hS.items t ht).2.1)
        (hS.items t ht).2.2.1
      refine (ceil_le_iff hm ha).mpr ?_
      rcases m3 with m3 | ⟨bt, hbt, m3⟩
      · omega
      · rw [m3]; exact h t ht bt hbt
  · have hoff := offsets_spec 0 inst.binTypes 0 (fun b => (inst.binType b).volume)
      (by intro i _; simp [Instance.binType])
    rw [hB.previousBinsVolume, hB.binTypeIds]
    refine ⟨hoff.1, fun k hk => ?_⟩
    rw [hoff.2 k (by rw [hoff.1]; exact hk), zero_add]
    rfl
  · intro i hi t ht
    rw [hB.resource_row hi, List.getD_eq_getElem _ _ (by rw [List.length_map, List.length_range]; exact ht)]
    simp only [List.getElem_map, List.getElem_range]
    unfold wantedIds
    refine ⟨List.nodup_range.filter _, fun r => ?_⟩
    rw [List.mem_filter, List.mem_range, decide_eq_true_eq]

end PackingSolver.Box
