import Verif.Lemmas.Rect.Build

/-! Helper lemmas: the instance returned by `build`, compared to the one under construction. -/

namespace PackingSolver.Rect

open InstanceBuilder Spec
open PackingSolver.OneDim (getD_mem)
open PackingSolver.OneDim.Spec (IsMaxWithZero)

variable {b : InstanceBuilder} {inst : Instance}

theorem built_misc (hF : BFresh b.inst) (h : b.build = .ok inst) :
    inst.objective = b.inst.objective ∧ inst.parameters = b.inst.parameters
    ∧ inst.callback = b.inst.callback := by
  obtain ⟨i1, st, hI, hB, -, hinst⟩ := build_pieces hF h
  obtain ⟨_, _, _, _, _, _, est⟩ := hB.rest
  refine ⟨?_, ?_, ?_⟩
  · rw [hinst, ← hI.objective]; change st.1.objective = _; rw [est]
  · rw [hinst, ← hI.parameters]; change st.1.parameters = _; rw [est]
  · rw [hinst, ← hI.callback]; change st.1.callback = _; rw [est]

theorem built_map_items (hF : BFresh b.inst) (h : b.build = .ok inst) {β : Type}
    (g : ItemType → β) (hg : ∀ t x, g { t with resourceIds := x } = g t)
    (hr : ∀ o t, g (resolveItem o t) = g t) :
    inst.itemTypes.map g = b.inst.itemTypes.map g := by
  obtain ⟨i1, st, hI, hB, -, hinst⟩ := build_pieces hF h
  obtain ⟨_, _, _, _, _, _, est⟩ := hB.rest
  have hitems : st.1.itemTypes = b.inst.itemTypes.map (resolveItem b.inst.objective) := by
    have e : st.1.itemTypes = i1.itemTypes := by rw [est]
    rw [e, hI.itemTypes]; simp
  rw [hinst]
  change (withRes _ _ _).map g = _
  rw [map_withRes _ _ _ _ hg, hitems, List.map_map]
  apply List.map_congr_left
  intro t _
  exact hr _ _

theorem built_items_length (hF : BFresh b.inst) (h : b.build = .ok inst) :
    inst.itemTypes.length = b.inst.itemTypes.length := by
  have := congrArg List.length (built_map_items hF h (fun t => t.x) (by intros; rfl)
    (fun o t => (resolve_fields o t).2.1))
  simpa using this

theorem built_item (hF : BFresh b.inst) (h : b.build = .ok inst) {β : Type}
    (g : ItemType → β) (hg : ∀ t x, g { t with resourceIds := x } = g t)
    (hr : ∀ o t, g (resolveItem o t) = g t) (i : Nat) :
    g (inst.itemType i) = g (b.inst.itemType i) := by
  have h1 := congrArg (fun l => l[i]?) (built_map_items hF h g hg hr)
  simp only [List.getElem?_map] at h1
  unfold Instance.itemType
  rw [List.getD_eq_getElem?_getD, List.getD_eq_getElem?_getD]
  cases h2 : inst.itemTypes[i]? <;> cases h3 : b.inst.itemTypes[i]? <;> rw [h2, h3] at h1 <;>
    simp_all

/-- Number of items counted by `build`. -/
theorem built_numberOfItems (hF : BFresh b.inst) (h : b.build = .ok inst) :
    inst.numberOfItems = (b.inst.itemTypes.map (·.copies)).sum := by
  obtain ⟨i1, st, hI, hB, -, hinst⟩ := build_pieces hF h
  obtain ⟨_, _, _, _, _, _, est⟩ := hB.rest
  have e : inst.numberOfItems = i1.numberOfItems := by
    rw [hinst]; change st.1.numberOfItems = _; rw [est]
  rw [e, hI.numberOfItems, List.take_length]

theorem built_map_bins (hF : BFresh b.inst) (h : b.build = .ok inst) {β : Type}
    (g : BinType → β) (hg : ∀ t x, g { t with itemTypeIds := x } = g t) :
    inst.binTypes.map g = b.inst.binTypes.map (fun t => g (resolveBin inst.numberOfItems t)) := by
  obtain ⟨i1, st, hI, hB, -, hinst⟩ := build_pieces hF h
  obtain ⟨_, _, _, _, _, _, est⟩ := hB.rest
  have e : inst.numberOfItems = i1.numberOfItems := by
    rw [hinst]; change st.1.numberOfItems = _; rw [est]
  have hbins : st.1.binTypes = b.inst.binTypes.map (resolveBin i1.numberOfItems) := by
    rw [hB.binTypes, hI.binTypes]; simp
  rw [e]
  have hb : inst.binTypes = (computeItemTypeIds st.1).binTypes := by rw [hinst]
  rw [hb]
  unfold computeItemTypeIds
  rw [hbins, List.map_map, List.map_map]
  apply List.map_congr_left
  intro t _
  exact hg _ _

theorem built_bins_length (hF : BFresh b.inst) (h : b.build = .ok inst) :
    inst.binTypes.length = b.inst.binTypes.length := by
  have := congrArg List.length (built_map_bins hF h (fun t => t.x) (by intros; rfl))
  simpa using this

theorem built_bin (hF : BFresh b.inst) (h : b.build = .ok inst) {β : Type}
    (g : BinType → β) (hg : ∀ t x, g { t with itemTypeIds := x } = g t) (t : Nat)
    (ht : t < inst.binTypes.length) :
    g (inst.binType t) = g (resolveBin inst.numberOfItems (b.inst.binType t)) := by
  have h1 := congrArg (fun l => l[t]?) (built_map_bins hF h g hg)
  simp only [List.getElem?_map] at h1
  unfold Instance.binType
  rw [List.getD_eq_getElem?_getD, List.getD_eq_getElem?_getD]
  have hl := built_bins_length hF h
  rw [List.getElem?_eq_getElem ht, List.getElem?_eq_getElem (hl ▸ ht)] at h1 ⊢
  simpa using h1

theorem binPositions_copies (l : List BinType) : binPositions l
    = (l.map (·.copies)).zipIdx.flatMap fun p => List.replicate p.1.toNat p.2 := by
  unfold binPositions
  rw [List.zipIdx_map, List.flatMap_map]
  rfl

theorem mem_binPositions {l : List BinType} {t : Nat} (h : t ∈ binPositions l) : t < l.length := by
  unfold binPositions at h
  obtain ⟨p, hp, h4⟩ := List.mem_flatMap.mp h
  have h5 := List.eq_of_mem_replicate h4
  have h6 := List.snd_lt_of_mem_zipIdx hp
  omega

theorem built_aggregates (hF : BFresh b.inst) (h : b.build = .ok inst) : Aggregates inst := by
  obtain ⟨i1, st, hI, hB, -, hinst⟩ := build_pieces hF h
  obtain ⟨_, _, _, _, _, _, est⟩ := hB.rest
  have hmap := fun {β : Type} (g : ItemType → β) => built_map_items hF h g
  have hni := built_items_length hF h
  have hnb := built_bins_length hF h
  have hnum : inst.numberOfItems = i1.numberOfItems := by
    rw [hinst]; change st.1.numberOfItems = _; rw [est]
  have hitems : st.1.itemTypes = b.inst.itemTypes.map (resolveItem b.inst.objective) := by
    have e : st.1.itemTypes = i1.itemTypes := by rw [est]
    rw [e, hI.itemTypes]; simp
  have hbins : st.1.binTypes = b.inst.binTypes.map (resolveBin i1.numberOfItems) := by
    rw [hB.binTypes, hI.binTypes]; simp
  have hbins' : (i1.binTypes.take i1.binTypes.length).map (resolveBin i1.numberOfItems)
      = st.1.binTypes := by
    rw [hbins, hI.binTypes]; simp
  have hmapB : ∀ {β : Type} (g : BinType → β), (∀ t x, g { t with itemTypeIds := x } = g t) →
      inst.binTypes.map g = st.1.binTypes.map g := by
    intro β g hg
    rw [built_map_bins hF h g hg, hbins, List.map_map, hnum]
    rfl
  have hgetB : ∀ {β : Type} (g : BinType → β), (∀ t x, g { t with itemTypeIds := x } = g t) →
      ∀ t, t < inst.binTypes.length → g (inst.binType t) = g (st.1.binType t) := by
    intro β g hg t ht
    have h1 := congrArg (fun l => l[t]?) (hmapB g hg)
    have hl : inst.binTypes.length = st.1.binTypes.length := by
      have := congrArg List.length (hmapB g hg); simpa using this
    simp only [List.getElem?_map] at h1
    rw [List.getElem?_eq_getElem ht, List.getElem?_eq_getElem (hl ▸ ht)] at h1
    unfold Instance.binType
    rw [List.getD_eq_getElem _ _ ht, List.getD_eq_getElem _ _ (hl ▸ ht)]
    simpa using h1
  have hnb' : inst.binTypes.length = st.1.binTypes.length := by rw [hbins, List.length_map, hnb]
  have htakeI : b.inst.itemTypes.take b.inst.itemTypes.length = b.inst.itemTypes := by simp
  have hC : inst.itemTypes.map (·.copies) = b.inst.itemTypes.map (·.copies) :=
    hmap _ (by intros; rfl) (fun oo t => (resolve_fields oo t).1)
  have hP : inst.itemTypes.map (·.profit) = b.inst.itemTypes.map (·.profit) :=
    hmap _ (by intros; rfl) (fun oo t => (resolve_fields oo t).2.2.2.1)
  have hCA : inst.itemTypes.map (fun t => t.copies * t.area)
      = b.inst.itemTypes.map (fun t => t.copies * t.area) :=
    hmap _ (by intros; rfl)
      (fun oo t => by rw [(resolve_fields oo t).1, (resolve_fields oo t).2.2.2.2.2.2.2.2.2])
  have hCX : inst.itemTypes.map (fun t => t.copies * t.x)
      = b.inst.itemTypes.map (fun t => t.copies * t.x) :=
    hmap _ (by intros; rfl)
      (fun oo t => by rw [(resolve_fields oo t).1, (resolve_fields oo t).2.1])
  have hCY : inst.itemTypes.map (fun t => t.copies * t.y)
      = b.inst.itemTypes.map (fun t => t.copies * t.y) :=
    hmap _ (by intros; rfl)
      (fun oo t => by rw [(resolve_fields oo t).1, (resolve_fields oo t).2.2.1])
  have hCP : inst.itemTypes.map (fun t => (t.copies : ℚ) * t.profit)
      = b.inst.itemTypes.map (fun t => (t.copies : ℚ) * t.profit) :=
    hmap _ (by intros; rfl)
      (fun oo t => by rw [(resolve_fields oo t).1, (resolve_fields oo t).2.2.2.1])
  have hCW : inst.itemTypes.map (fun t => (t.copies : ℚ) * t.weight)
      = b.inst.itemTypes.map (fun t => (t.copies : ℚ) * t.weight) :=
    hmap _ (by intros; rfl)
      (fun oo t => by rw [(resolve_fields oo t).1, (resolve_fields oo t).2.2.2.2.2.2.2.1])
  have hWid : inst.itemTypes.map possibleWidths = b.inst.itemTypes.map possibleWidths :=
    hmap _ (by intros; rfl) (fun oo t => by
      unfold possibleWidths
      rw [(resolve_fields oo t).2.1, (resolve_fields oo t).2.2.1,
        (resolve_fields oo t).2.2.2.2.2.2.1])
  have hHei : inst.itemTypes.map possibleHeights = b.inst.itemTypes.map possibleHeights :=
    hmap _ (by intros; rfl) (fun oo t => by
      unfold possibleHeights
      rw [(resolve_fields oo t).2.1, (resolve_fields oo t).2.2.1,
        (resolve_fields oo t).2.2.2.2.2.2.1])
  have hids : inst.binTypeIds = binPositions st.1.binTypes := by
    have : inst.binTypeIds = st.1.binTypeIds := by rw [hinst]; rfl
    rw [this, hB.binTypeIds, hbins']
  have hpos : binPositions inst.binTypes = binPositions st.1.binTypes := by
    rw [binPositions_copies, binPositions_copies, hmapB (·.copies) (by intros; rfl)]
  have hprev : inst.previousBinsArea = offsets 0 st.1.binTypes := by
    have : inst.previousBinsArea = st.1.previousBinsArea := by rw [hinst]; rfl
    rw [this, hB.previousBinsArea, hbins']
  have hoff := offsets_spec 0 st.1.binTypes 0 (fun b => (st.1.binType b).area)
    (by intro i _; simp [Instance.binType])
  refine ⟨?_, ?_, ?_, ?_, ?_, ?_, ?_, ?_, ?_, ?_, ?_, ?_, ?_, ?_, ?_, ?_, ?_, ?_, ?_⟩
  · rw [hnum, hI.numberOfItems, htakeI, hC]
  · have : inst.itemArea = i1.itemArea := by rw [hinst]; change st.1.itemArea = _; rw [est]
    rw [this, hI.itemArea, htakeI, hCA]
  · have : inst.totalItemWidth = i1.totalItemWidth := by
      rw [hinst]; change st.1.totalItemWidth = _; rw [est]
    rw [this, hI.totalItemWidth, htakeI, hCX]
  · have : inst.totalItemHeight = i1.totalItemHeight := by
      rw [hinst]; change st.1.totalItemHeight = _; rw [est]
    rw [this, hI.totalItemHeight, htakeI, hCY]
  · have : inst.itemProfit = i1.itemProfit := by rw [hinst]; change st.1.itemProfit = _; rw [est]
    rw [this, hI.itemProfit, htakeI, hCP]
  · have : inst.itemWeight = i1.itemWeight := by rw [hinst]; change st.1.itemWeight = _; rw [est]
    rw [this, hI.itemWeight, htakeI, hCW]
  · have : inst.largestItemProfit = i1.largestItemProfit := by
      rw [hinst]; change st.1.largestItemProfit = _; rw [est]
    have h2 := hI.largestItemProfit
    rw [htakeI] at h2
    rw [this, hP]
    exact h2
  · have : inst.largestItemCopies = i1.largestItemCopies := by
      rw [hinst]; change st.1.largestItemCopies = _; rw [est]
    have h2 := hI.largestItemCopies
    rw [htakeI] at h2
    rw [this, hC]
    exact h2
  · have : inst.smallestItemWidth = i1.smallestItemWidth := by
      rw [hinst]; change st.1.smallestItemWidth = _; rw [est]
    have h2 := hI.smallestItemWidth
    rw [htakeI, List.flatMap_def, ← hWid] at h2
    rw [this, List.flatMap_def]
    exact h2
  · have : inst.smallestItemHeight = i1.smallestItemHeight := by
      rw [hinst]; change st.1.smallestItemHeight = _; rw [est]
    have h2 := hI.smallestItemHeight
    rw [htakeI, List.flatMap_def, ← hHei] at h2
    rw [this, List.flatMap_def]
    exact h2
  · have : inst.largestEfficiencyItemTypeId = i1.largestEfficiencyItemTypeId := by
      rw [hinst]; change st.1.largestEfficiencyItemTypeId = _; rw [est]
    rw [this]
    refine ⟨fun he => hI.largestEfficiency.1 ?_, fun hne => ?_⟩
    · rw [← hni, he]; rfl
    · obtain ⟨i, hi, h1, h2⟩ := hI.largestEfficiency.2
        (by rw [← hni]; exact List.length_pos_of_ne_nil hne)
      have hl := built_item hF h (·.area) (by intros; rfl)
        (fun oo t => (resolve_fields oo t).2.2.2.2.2.2.2.2.2)
      have hp := built_item hF h (·.profit) (by intros; rfl)
        (fun oo t => (resolve_fields oo t).2.2.2.1)
      refine ⟨i, by unfold Instance.numberOfItemTypes; omega, h1, fun j hj => ?_⟩
      unfold Instance.numberOfItemTypes at hj
      rw [hl j, hp j, hl i, hp i]
      exact h2 j (by omega)
  · have : inst.binArea = st.1.binArea := by rw [hinst]; rfl
    rw [this, hB.binArea, hbins']
    rw [hmapB (fun t => t.copies * t.area) (by intros; rfl)]
  · rw [hids, hpos]
  · rw [hprev, hids]
    refine ⟨hoff.1, fun k hk => ?_⟩
    have hk' : k < (offsets 0 st.1.binTypes).length := by
      rw [hoff.1]; exact hk
    rw [hoff.2 k hk', zero_add]
    congr 1
    apply List.map_congr_left
    intro t ht
    have ht' : t < inst.binTypes.length := by
      rw [hnb']; exact mem_binPositions (List.mem_of_mem_take ht)
    exact (hgetB (·.area) (by intros; rfl) t ht').symm
  · have : inst.largestBinCost = st.1.largestBinCost := by rw [hinst]; rfl
    have h2 := hB.largestBinCost
    rw [hbins'] at h2
    rw [this, hmapB (·.cost) (by intros; rfl)]
    exact h2
  · have : inst.numberOfDefects = st.1.numberOfDefects := by rw [hinst]; rfl
    rw [this, hB.numberOfDefects, built_map_bins hF h (fun t => t.defects.length) (by intros; rfl),
      List.take_length, hI.binTypes]
    congr 1
    apply List.map_congr_left
    intro t _
    rw [(resolveBin_fields _ _).2.2.2.2.2.2.2.2.2.1]
  · have hg : inst.numberOfGroups
        = st.1.itemTypes.foldl (fun n t => max n (t.groupId + 1)) 0 := by rw [hinst]
    obtain ⟨-, g2, g3⟩ := groups_spec st.1.itemTypes 0
    have hgi : inst.itemTypes.map (·.groupId) = st.1.itemTypes.map (·.groupId) := by
      rw [hinst]; exact map_withRes _ _ _ _ (by intros; rfl)
    rw [hg]
    refine ⟨fun t ht => ?_, ?_⟩
    · have : t.groupId ∈ st.1.itemTypes.map (·.groupId) := by
        rw [← hgi]; exact List.mem_map.mpr ⟨t, ht, rfl⟩
      obtain ⟨u, hu, hue⟩ := List.mem_map.mp this
      rw [← hue]; exact g2 u hu
    · rcases g3 with g3 | ⟨u, hu, g3⟩
      · exact Or.inl g3
      · right
        have : u.groupId ∈ inst.itemTypes.map (·.groupId) := by
          rw [hgi]; exact List.mem_map.mpr ⟨u, hu, rfl⟩
        obtain ⟨t, ht, hte⟩ := List.mem_map.mp this
        exact ⟨t, ht, by rw [hte]; exact g3⟩
  · intro t ht
    have ht' : t < st.1.binTypes.length := by rw [← hnb']; exact ht
    have hel : ∀ i, i < inst.itemTypes.length →
        (inst.itemType i).eligibilityId = (st.1.itemType i).eligibilityId := by
      intro i hi
      have h1 := built_item hF h (·.eligibilityId) (by intros; rfl)
        (fun oo t => (resolve_fields oo t).2.2.2.2.2.1) i
      rw [h1]
      unfold Instance.itemType
      rw [hitems, List.getD_eq_getElem _ _ (by omega), List.getD_eq_getElem _ _ (by simp; omega)]
      simp [(resolve_fields _ _).2.2.2.2.2.1]
    have hti : (inst.binType t).itemTypeIds = (st.1.binType t).itemTypeIds
        ++ (List.range st.1.itemTypes.length).filter
          (fun i => eligible (st.1.itemType i) (st.1.binType t)) := by
      have hb : inst.binTypes = (computeItemTypeIds st.1).binTypes := by rw [hinst]
      unfold Instance.binType
      rw [hb, List.getD_eq_getElem _ _ (by simp [computeItemTypeIds]; omega),
        List.getD_eq_getElem _ _ ht']
      simp [computeItemTypeIds]
    have hnil : (st.1.binType t).itemTypeIds = [] := by
      have hm : st.1.binType t ∈ st.1.binTypes := getD_mem _ ht'
      rw [hbins] at hm
      obtain ⟨v, hv, hve⟩ := List.mem_map.mp hm
      rw [← hve, (resolveBin_fields _ _).2.2.2.2.2.2.2.1]
      exact (hF.bins v hv).itemTypeIds
    have hei : (inst.binType t).eligibilityIds = (st.1.binType t).eligibilityIds :=
      hgetB _ (by intros; rfl) t ht
    rw [hti, hnil, List.nil_append]
    refine ⟨List.nodup_range.filter _, fun i => ?_⟩
    rw [List.mem_filter, List.mem_range]
    have hn' : st.1.itemTypes.length = inst.itemTypes.length := by
      rw [hni, hitems, List.length_map]
    rw [hn']
    constructor
    · rintro ⟨h1, h2⟩
      refine ⟨h1, ?_⟩
      unfold EligibleIn
      rw [hel i h1, hei]
      simp only [eligible, Bool.not_eq_true', Bool.and_eq_false_iff, decide_eq_false_iff_not,
        not_not, Bool.not_eq_false', List.contains_iff_mem] at h2
      exact h2
    · rintro ⟨h1, h2⟩
      have h1' : i < inst.itemTypes.length := h1
      refine ⟨h1', ?_⟩
      unfold EligibleIn at h2
      rw [hel i h1', hei] at h2
      simp only [eligible, Bool.not_eq_true', Bool.and_eq_false_iff, decide_eq_false_iff_not,
        not_not, Bool.not_eq_false', List.contains_iff_mem]
      exact h2
  · intro i hi t ht
    have hi' : i < st.1.itemTypes.length := by
      rw [hitems, List.length_map, ← hni]; exact hi
    have ht' : t < st.1.binTypes.length := by rw [← hnb']; exact ht
    have hr : (inst.itemType i).resourceIds.getD t []
        = wantedIds (st.1.binType t).resources (st.1.binType t).resources.length i := by
      unfold Instance.itemType
      rw [hinst]
      change (((withRes _ _ _).getD i default).resourceIds).getD t [] = _
      have hg : (withRes st.1.binTypes.length st.1.itemTypes
          (fun j t => wantedIds (st.1.binType t).resources
            (st.1.binType t).resources.length j)).getD i default
          = { st.1.itemTypes[i]'hi' with resourceIds := ((List.range st.1.binTypes.length).map
                (fun t => wantedIds (st.1.binType t).resources
                  (st.1.binType t).resources.length i)) } := by
        rw [List.getD_eq_getElem _ _ (by simpa [withRes] using hi')]
        simp [withRes]
      rw [hg]
      dsimp only
      rw [List.getD_eq_getElem _ _ (by simpa using ht')]
      simp
    have hrs : (inst.binType t).resources = (st.1.binType t).resources :=
      hgetB _ (by intros; rfl) t ht
    rw [hr, hrs]
    unfold wantedIds
    refine ⟨List.nodup_range.filter _, fun r => ?_⟩
    rw [List.mem_filter, List.mem_range, decide_eq_true_eq]

theorem built_sizes (hF : BFresh b.inst) (h : b.build = .ok inst) : Sizes inst := by
  have hmisc := built_misc hF h
  have hag := built_numberOfItems hF h
  obtain ⟨i1, st, hI, hB, hod, hinst⟩ := build_pieces hF h
  obtain ⟨_, _, _, _, _, _, est⟩ := hB.rest
  refine ⟨fun t ht => ?_, fun t ht => ?_, fun t ht => ?_, fun ho => ?_⟩
  · rw [hinst] at ht
    change t ∈ withRes _ _ _ at ht
    have h1 : (t.copies, t.copiesMin, t.x, t.y) ∈ (withRes st.1.binTypes.length st.1.itemTypes
        (fun j t => wantedIds (st.1.binType t).resources
              (st.1.binType t).resources.length j)).map
        (fun t => (t.copies, t.copiesMin, t.x, t.y)) := List.mem_map.mpr ⟨t, ht, rfl⟩
    have e : st.1.itemTypes = i1.itemTypes := by rw [est]
    rw [map_withRes _ _ _ _ (by intros; rfl), e, hI.itemTypes] at h1
    simp only [List.take_length, List.drop_length, List.append_nil, List.map_map] at h1
    obtain ⟨u, hu, h2⟩ := List.mem_map.mp h1
    simp only [Function.comp, (resolve_fields _ _).1, (resolve_fields _ _).2.1,
      (resolve_fields _ _).2.2.1, Prod.mk.injEq] at h2
    obtain ⟨hc, hm, hx, hy⟩ := h2
    have hne := hI.areaNe u (by simpa using hu)
    have hu' := hF.items u hu
    unfold ItemType.area at hne
    have hx0 : u.x ≠ 0 := by intro h0; rw [h0] at hne; simp at hne
    have hy0 : u.y ≠ 0 := by intro h0; rw [h0] at hne; simp at hne
    have := hu'.x
    have := hu'.y
    have := hI.copiesMin u (by simpa using hu)
    refine ⟨by omega, by omega, by omega⟩
  · have h1 : (t.copies, t.copiesMin) ∈ inst.binTypes.map (fun t => (t.copies, t.copiesMin)) :=
      List.mem_map.mpr ⟨t, ht, rfl⟩
    rw [built_map_bins hF h _ (by intros; rfl)] at h1
    obtain ⟨u, hu, h2⟩ := List.mem_map.mp h1
    simp only [Prod.mk.injEq, (resolveBin_fields _ _).2.2.2.2.1] at h2
    have hu' := hF.bins u hu
    refine ⟨by rw [← h2.2]; exact hu'.copiesMin, ?_⟩
    rw [← h2.1]
    unfold resolveBin
    by_cases h3 : u.copies = -1
    · rw [if_pos h3]; exact Or.inr rfl
    · rw [if_neg h3]
      rcases hu'.copies with h4 | h4
      · exact absurd h4 h3
      · exact Or.inl h4
  · have h1 : t.fixedItems ∈ inst.binTypes.map (fun t => t.fixedItems) :=
      List.mem_map.mpr ⟨t, ht, rfl⟩
    rw [built_map_bins hF h _ (by intros; rfl)] at h1
    obtain ⟨u, hu, h2⟩ := List.mem_map.mp h1
    rw [← h2, (resolveBin_fields _ _).2.2.2.2.2.2.2.2.1]
    exact (hF.bins u hu).fixedItems
  · unfold checkOpenDimension at hod
    by_contra hne
    by_cases hx : inst.objective = .openDimensionX
    · rw [if_pos ⟨hx, hne⟩] at hod; cases hod
    · rw [if_neg (by tauto), if_pos ⟨by tauto, hne⟩] at hod; cases hod

end PackingSolver.Rect
