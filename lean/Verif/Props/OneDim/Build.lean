import Verif.Lemmas.OneDim.Build
import Verif.Props.OneDim.Solution
import Mathlib.Data.List.Induction

/-!
# C16, C47: built instances are consistent
-/

namespace PackingSolver.OneDim

open InstanceBuilder Spec

/-- **C16**: whatever sequence of calls was made on the builder, when `build`
returns an instance its derived data agree with its item and bin types. -/
theorem build_aggregates {o : Objective} {ops : List Op} {inst : Instance}
    (h : runOps o ops = .ok inst) : Aggregates inst := by
  unfold runOps at h
  obtain ⟨b, hb, h⟩ := bind_ok.mp h
  obtain ⟨b1, i1, st, -, hF, hI, hB, hinst⟩ := build_pieces (fresh_ops hb) h
  have hitems : st.1.itemTypes = b1.inst.itemTypes.map (resolveItem b1.inst.objective) := by
    rw [hB.itemTypes, hI.itemTypes]; simp
  have hbins : st.1.binTypes = b1.inst.binTypes.map (resolveBin i1.numberOfItems) := by
    rw [hB.binTypes, hI.binTypes]; simp
  have hbins' : (i1.binTypes.take i1.binTypes.length).map (resolveBin i1.numberOfItems)
      = st.1.binTypes := by
    rw [hbins, hI.binTypes]; simp
  -- item types of the result, projected
  have hmap : ∀ {β : Type} (g : ItemType → β), (∀ t x, g { t with resourceIds := x } = g t) →
      (∀ oo t, g (resolveItem oo t) = g t) →
      inst.itemTypes.map g = b1.inst.itemTypes.map g := by
    intro β g hg hr
    rw [hinst]
    change (withRes _ _ _).map g = _
    rw [map_withRes _ _ _ _ hg, hitems, List.map_map]
    apply List.map_congr_left
    intro t _
    exact hr _ _
  -- bin types of the result, projected
  have hbinsF : inst.binTypes = (computeItemTypeIds st.1).binTypes := by rw [hinst]
  have hmapB : ∀ {β : Type} (g : BinType → β), (∀ t x, g { t with itemTypeIds := x } = g t) →
      inst.binTypes.map g = st.1.binTypes.map g := by
    intro β g hg
    rw [hbinsF]
    unfold computeItemTypeIds
    rw [List.map_map]
    apply List.map_congr_left
    intro t _
    exact hg _ _
  have hgetB : ∀ {β : Type} (g : BinType → β), (∀ t x, g { t with itemTypeIds := x } = g t) →
      ∀ t, t < inst.binTypes.length → g (inst.binType t) = g (st.1.binType t) := by
    intro β g hg t ht
    have h1 := congrArg (fun l => l[t]?) (hmapB g hg)
    have hl : inst.binTypes.length = st.1.binTypes.length := by
      have := congrArg List.length (hmapB g hg); simpa using this
    simp only [List.getElem?_map] at h1
    rw [List.getElem?_eq_getElem ht, List.getElem?_eq_getElem (hl ▸ ht)] at h1
    unfold Instance.binType
    rw [List.getD_eq_getElem _ _ ht, List.getD_eq_getElem _ _ (hl ▸ ht)]
    simpa using h1
  have hnb : inst.binTypes.length = st.1.binTypes.length := by
    have := congrArg List.length (hmapB (fun t => t.length) (by intros; rfl)); simpa using this
  have hni : inst.itemTypes.length = b1.inst.itemTypes.length := by
    have := congrArg List.length (hmap (fun t => t.length) (by intros; rfl)
      (fun oo t => (resolve_fields oo t).2.1))
    simpa using this
  have hgetI : ∀ {β : Type} (g : ItemType → β), (∀ t x, g { t with resourceIds := x } = g t) →
      (∀ oo t, g (resolveItem oo t) = g t) →
      ∀ t, t < inst.itemTypes.length → g (inst.itemType t) = g (b1.inst.itemType t) := by
    intro β g hg hr t ht
    have h1 := congrArg (fun l => l[t]?) (hmap g hg hr)
    simp only [List.getElem?_map] at h1
    rw [List.getElem?_eq_getElem ht, List.getElem?_eq_getElem (hni ▸ ht)] at h1
    unfold Instance.itemType
    rw [List.getD_eq_getElem _ _ ht, List.getD_eq_getElem _ _ (hni ▸ ht)]
    simpa using h1
  have htakeI : b1.inst.itemTypes.take b1.inst.itemTypes.length = b1.inst.itemTypes := by simp
  have hC : inst.itemTypes.map (·.copies) = b1.inst.itemTypes.map (·.copies) :=
    hmap _ (by intros; rfl) (fun oo t => (resolve_fields oo t).1)
  have hL : inst.itemTypes.map (·.length) = b1.inst.itemTypes.map (·.length) :=
    hmap _ (by intros; rfl) (fun oo t => (resolve_fields oo t).2.1)
  have hP : inst.itemTypes.map (·.profit) = b1.inst.itemTypes.map (·.profit) :=
    hmap _ (by intros; rfl) (fun oo t => (resolve_fields oo t).2.2.1)
  have hCL : inst.itemTypes.map (fun t => t.copies * t.length)
      = b1.inst.itemTypes.map (fun t => t.copies * t.length) :=
    hmap _ (by intros; rfl)
      (fun oo t => by rw [(resolve_fields oo t).1, (resolve_fields oo t).2.1])
  have hCP : inst.itemTypes.map (fun t => (t.copies : ℚ) * t.profit)
      = b1.inst.itemTypes.map (fun t => (t.copies : ℚ) * t.profit) :=
    hmap _ (by intros; rfl)
      (fun oo t => by rw [(resolve_fields oo t).1, (resolve_fields oo t).2.2.1])
  have hlenB : ∀ t, t < inst.binTypes.length →
      (inst.binType t).length = (st.1.binType t).length :=
    hgetB _ (by intros; rfl)
  have hids : inst.binTypeIds = binPositions st.1.binTypes := by
    have : inst.binTypeIds = st.1.binTypeIds := by rw [hinst]; rfl
    rw [this, hB.binTypeIds, hbins']
  have hpos : binPositions inst.binTypes = binPositions st.1.binTypes := by
    have hz : ∀ l : List BinType, binPositions l
        = (l.map (·.copies)).zipIdx.flatMap fun p => List.replicate p.1.toNat p.2 := by
      intro l
      unfold binPositions
      rw [List.zipIdx_map, List.flatMap_map]
      rfl
    rw [hz, hz, hmapB (·.copies) (by intros; rfl)]
  have hprev : inst.previousBinsLength = offsets 0 st.1.binTypes := by
    have : inst.previousBinsLength = st.1.previousBinsLength := by rw [hinst]; rfl
    rw [this, hB.previousBinsLength, hbins']
  have hoff := offsets_spec 0 st.1.binTypes 0 (fun b => (st.1.binType b).length)
    (by intro i _; simp [Instance.binType])
  refine ⟨?_, ?_, ?_, ?_, ?_, ?_, ?_, ?_, ?_, ?_, ?_, ?_⟩
  · have : inst.numberOfItems = st.1.numberOfItems := by rw [hinst]; rfl
    rw [this, hB.numberOfItems, hI.numberOfItems, htakeI, hC]
  · have : inst.itemLength = st.1.itemLength := by rw [hinst]; rfl
    rw [this, hB.itemLength, hI.itemLength, htakeI, hCL]
  · have : inst.itemProfit = st.1.itemProfit := by rw [hinst]; rfl
    rw [this, hB.itemProfit, hI.itemProfit, htakeI, hCP]
  · have : inst.largestItemProfit = st.1.largestItemProfit := by rw [hinst]; rfl
    have h2 := hI.largestItemProfit
    rw [htakeI] at h2
    rw [this, hB.largestItemProfit, hP]
    exact h2
  · have : inst.largestItemCopies = st.1.largestItemCopies := by rw [hinst]; rfl
    have h2 := hI.largestItemCopies
    rw [htakeI] at h2
    rw [this, hB.largestItemCopies, hC]
    exact h2
  · have : inst.largestEfficiencyItemTypeId = st.1.largestEfficiencyItemTypeId := by
      rw [hinst]; rfl
    rw [this, hB.largestEfficiency]
    refine ⟨fun he => hI.largestEfficiency.1 ?_, fun hne => ?_⟩
    · rw [← hni, he]; rfl
    · obtain ⟨i, hi, h1, h2⟩ := hI.largestEfficiency.2
        (by rw [← hni]; exact List.length_pos_of_ne_nil hne)
      have hl := hgetI (·.length) (by intros; rfl) (fun oo t => (resolve_fields oo t).2.1)
      have hp := hgetI (·.profit) (by intros; rfl) (fun oo t => (resolve_fields oo t).2.2.1)
      refine ⟨i, by unfold Instance.numberOfItemTypes; omega, h1, fun j hj => ?_⟩
      unfold Instance.numberOfItemTypes at hj
      rw [hl j hj, hp j hj, hl i (by omega), hp i (by omega)]
      exact h2 j (by omega)
  · have : inst.binLength = st.1.binLength := by rw [hinst]; rfl
    rw [this, hB.binLength, hbins']
    rw [hmapB (fun t => t.copies * t.length) (by intros; rfl)]
  · rw [hids, hpos]
  · rw [hprev, hids]
    refine ⟨hoff.1, fun k hk => ?_⟩
    have hk' : k < (offsets 0 st.1.binTypes).length := by
      rw [hoff.1]; exact hk
    rw [hoff.2 k hk', zero_add]
    congr 1
    apply List.map_congr_left
    intro t ht
    have ht' : t < inst.binTypes.length := by
      have h3 : t ∈ binPositions st.1.binTypes := List.mem_of_mem_take ht
      unfold binPositions at h3
      obtain ⟨p, hp, h4⟩ := List.mem_flatMap.mp h3
      have h5 := List.eq_of_mem_replicate h4
      have h6 := List.snd_lt_of_mem_zipIdx hp
      rw [hnb]
      omega
    exact (hlenB t ht').symm
  · have : inst.largestBinCost = st.1.largestBinCost := by rw [hinst]; rfl
    have h2 := hB.largestBinCost
    rw [hbins'] at h2
    rw [this, hmapB (·.cost) (by intros; rfl)]
    exact h2
  · intro t ht
    have ht' : t < st.1.binTypes.length := by rw [← hnb]; exact ht
    have hel : ∀ i, i < inst.itemTypes.length →
        (inst.itemType i).eligibilityId = (st.1.itemType i).eligibilityId := by
      intro i hi
      have h1 := hgetI (·.eligibilityId) (by intros; rfl)
        (fun oo t => (resolve_fields oo t).2.2.2.2.1) i hi
      rw [h1]
      unfold Instance.itemType
      rw [hitems, List.getD_eq_getElem _ _ (by omega), List.getD_eq_getElem _ _ (by simp; omega)]
      simp [(resolve_fields _ _).2.2.2.2.1]
    have hti : (inst.binType t).itemTypeIds = (st.1.binType t).itemTypeIds
        ++ (List.range st.1.itemTypes.length).filter
          (fun i => eligible (st.1.itemType i) (st.1.binType t)) := by
      unfold Instance.binType
      rw [hbinsF, List.getD_eq_getElem _ _ (by simp [computeItemTypeIds]; omega),
        List.getD_eq_getElem _ _ ht']
      simp [computeItemTypeIds]
    have hnil : (st.1.binType t).itemTypeIds = [] := by
      have hm : st.1.binType t ∈ st.1.binTypes := getD_mem _ ht'
      rw [hbins] at hm
      obtain ⟨v, hv, hve⟩ := List.mem_map.mp hm
      rw [← hve, (resolveBin_fields _ _).2.2.2.2.2.1]
      exact (hF.bins v hv).itemTypeIds
    have hei : (inst.binType t).eligibilityIds = (st.1.binType t).eligibilityIds :=
      hgetB _ (by intros; rfl) t ht
    rw [hti, hnil, List.nil_append]
    refine ⟨List.nodup_range.filter _, fun i => ?_⟩
    rw [List.mem_filter, List.mem_range]
    have hn' : st.1.itemTypes.length = inst.itemTypes.length := by
      rw [hni, hitems, List.length_map]
    rw [hn']
    constructor
    · rintro ⟨h1, h2⟩
      refine ⟨h1, ?_⟩
      unfold EligibleIn
      rw [hel i h1, hei]
      simp only [eligible, Bool.not_eq_true', Bool.and_eq_false_iff, decide_eq_false_iff_not,
        not_not, Bool.not_eq_false', List.contains_iff_mem] at h2
      exact h2
    · rintro ⟨h1, h2⟩
      have h1' : i < inst.itemTypes.length := h1
      refine ⟨h1', ?_⟩
      unfold EligibleIn at h2
      rw [hel i h1', hei] at h2
      simp only [eligible, Bool.not_eq_true', Bool.and_eq_false_iff, decide_eq_false_iff_not,
        not_not, Bool.not_eq_false', List.contains_iff_mem]
      exact h2
  · intro i hi t ht
    dsimp only
    have hi' : i < st.1.itemTypes.length := by
      rw [hitems, List.length_map, ← hni]; exact hi
    have ht' : t < st.1.binTypes.length := by rw [← hnb]; exact ht
    have hr : (inst.itemType i).resourceIds.getD t []
        = wantedIds (st.1.binType t).resources (st.1.binType t).resources.length i := by
      unfold Instance.itemType
      rw [hinst]
      change (((withRes _ _ _).getD i default).resourceIds).getD t [] = _
      have hg : (withRes st.1.binTypes.length st.1.itemTypes
          (fun j t => wantedIds (st.1.binType t).resources
            (st.1.binType t).resources.length j)).getD i default
          = { st.1.itemTypes[i]'hi' with resourceIds := ((List.range st.1.binTypes.length).map
                (fun t => wantedIds (st.1.binType t).resources
                  (st.1.binType t).resources.length i)) } := by
        rw [List.getD_eq_getElem _ _ (by simpa [withRes] using hi')]
        simp [withRes]
      rw [hg]
      dsimp only
      rw [List.getD_eq_getElem _ _ (by simpa using ht')]
      simp
    have hrs : (inst.binType t).resources = (st.1.binType t).resources :=
      hgetB _ (by intros; rfl) t ht
    rw [hr, hrs]
    unfold wantedIds
    refine ⟨List.nodup_range.filter _, fun r => ?_⟩
    rw [List.mem_filter, List.mem_range, decide_eq_true_eq]

/-- The longest bin length, from the loop of the code. -/
private theorem lengthMax_spec (inst : Instance) :
    (∀ b ∈ inst.binTypes, b.length ≤ binTypesLengthMax inst)
    ∧ (binTypesLengthMax inst = 0 ∨ ∃ b ∈ inst.binTypes, b.length = binTypesLengthMax inst) := by
  unfold binTypesLengthMax
  induction inst.binTypes using List.reverseRecOn with
  | nil => simp
  | append_singleton l x ih =>
    rw [List.foldl_append, List.foldl_cons, List.foldl_nil]
    obtain ⟨h1, h2⟩ := ih
    refine ⟨fun b hb => ?_, ?_⟩
    · rcases List.mem_append.mp hb with hb | hb
      · exact le_trans (h1 b hb) (le_max_left _ _)
      · rw [List.mem_singleton.mp hb]; exact le_max_right _ _
    · rcases max_choice (l.foldl (fun m t => max m t.length) 0) x.length with h | h
      · rw [h]
        rcases h2 with h2 | ⟨b, hb, h2⟩
        · exact Or.inl h2
        · exact Or.inr ⟨b, by simp [hb], h2⟩
      · rw [h]; exact Or.inr ⟨x, by simp, rfl⟩

/-- **C16**: the flag saying that every item type has enough copies to fill the
longest bin tells the truth, for item types of positive length. -/
theorem build_enough_copies {o : Objective} {ops : List Op} {inst : Instance}
    (h : runOps o ops = .ok inst) (hpos : ∀ t ∈ inst.itemTypes, 0 < t.length)
    (hne : inst.binTypes ≠ []) :
    inst.allItemTypesInfiniteCopies = true ↔ EnoughCopies inst := by
  unfold runOps at h
  obtain ⟨b, hb, h⟩ := bind_ok.mp h
  obtain ⟨b1, i1, st, -, hF, hI, hB, hinst⟩ := build_pieces (fresh_ops hb) h
  have hflag : inst.allItemTypesInfiniteCopies = st.1.allItemTypesInfiniteCopies := by
    rw [hinst]; rfl
  have hcl : inst.itemTypes.map (fun t => (t.copies, t.length))
      = b1.inst.itemTypes.map (fun t => (t.copies, t.length)) := by
    rw [hinst]
    change (withRes _ _ _).map _ = _
    rw [map_withRes _ _ _ _ (by intros; rfl), hB.itemTypes, hI.itemTypes]
    simp [(resolve_fields _ _).1, (resolve_fields _ _).2.1]
  have hbl : inst.binTypes.map (·.length) = b1.inst.binTypes.map (·.length) := by
    rw [hinst]
    change (computeItemTypeIds st.1).binTypes.map _ = _
    unfold computeItemTypeIds
    rw [List.map_map]
    change st.1.binTypes.map (·.length) = _
    rw [hB.binTypes, hI.binTypes]
    simp only [List.take_length, List.drop_length, List.append_nil, List.map_map]
    apply List.map_congr_left
    intro t _
    exact (resolveBin_fields _ t).1
  have key : ∀ (P : Int → Int → Prop),
      (∀ t ∈ inst.itemTypes, P t.copies t.length) ↔ ∀ t ∈ b1.inst.itemTypes, P t.copies t.length := by
    intro P
    have h1 : ∀ l : List ItemType, (∀ t ∈ l, P t.copies t.length)
        ↔ ∀ q ∈ l.map (fun t => (t.copies, t.length)), P q.1 q.2 := by
      intro l; simp
    rw [h1, h1, hcl]
  obtain ⟨hm1, hm2⟩ := lengthMax_spec b1.inst
  have hLpos : 0 < binTypesLengthMax b1.inst := by
    cases hbt : b1.inst.binTypes with
    | nil =>
      rw [hbt] at hbl
      simp at hbl
      exact absurd hbl hne
    | cons x xs =>
      have hx : x ∈ b1.inst.binTypes := by rw [hbt]; simp
      exact lt_of_lt_of_le (hF.bins x hx).length (hm1 x hx)
  rw [hflag, hB.allInfinite, hI.allInfinite, List.take_length]
  unfold EnoughCopies
  have hb' : ∀ (v : Int), (∀ x ∈ inst.binTypes, x.length ≤ v) ↔ binTypesLengthMax b1.inst ≤ v := by
    intro v
    have h1 : ∀ l : List BinType, (∀ x ∈ l, x.length ≤ v) ↔ ∀ q ∈ l.map (·.length), q ≤ v := by
      intro l; simp
    rw [h1, hbl, ← h1]
    constructor
    · intro h2
      rcases hm2 with h3 | ⟨x, hx, h3⟩
      · omega
      · rw [← h3]; exact h2 x hx
    · intro h2 x hx
      exact le_trans (hm1 x hx) h2
  simp only [hb']
  rw [key (fun c l => binTypesLengthMax b1.inst ≤ c * l)]
  have hpos' := (key (fun _ l => 0 < l)).mp hpos
  refine forall₂_congr fun t ht => ?_
  have hl := hpos' t ht
  rw [Int.tdiv_eq_ediv_of_nonneg (by omega)]
  have := Int.ediv_lt_iff_lt_mul (a := binTypesLengthMax b1.inst - 1) (b := t.copies) hl
  omega

/-- Numbers of copies, lengths and costs of a built instance.
**C47**, the part that holds.  Missing: the number of copies of an item type may
be -1 or 0 or its length negative (`build_negative_copies`,
`build_negative_length`), and the minimum number of copies of a bin type may exceed
its number of copies (`build_bin_copies_min`). -/
theorem build_copies_partial {o : Objective} {ops : List Op} {inst : Instance}
    (h : runOps o ops = .ok inst) :
    (∀ t ∈ inst.itemTypes, t.copiesMin ≤ t.copies ∧ t.length ≠ 0
      ∧ (inst.objective = .knapsack ∨ t.copiesMin ≠ -1 ∨ t.copies = -1))
    ∧ (∀ t ∈ inst.binTypes, 0 < t.length ∧ 0 < t.cost ∧ 0 ≤ t.copiesMin
      ∧ (0 < t.copies ∨ t.copies = inst.numberOfItems)
      ∧ (inst.objective = .binPacking → t.copiesMin = 0)) := by
  unfold runOps at h
  obtain ⟨b, hb, h⟩ := bind_ok.mp h
  obtain ⟨b1, i1, st, -, hF, hI, hB, hinst⟩ := build_pieces (fresh_ops hb) h
  have hobj : inst.objective = b1.inst.objective := by
    rw [hinst]
    change st.1.objective = _
    rw [hB.objective, hI.objective]
  refine ⟨fun t ht => ?_, fun t ht => ?_⟩
  · rw [hinst] at ht
    change t ∈ withRes _ _ _ at ht
    have h1 : (t.copies, t.copiesMin, t.length) ∈ (withRes st.1.binTypes.length st.1.itemTypes
        (fun j t => wantedIds (st.1.binType t).resources
              (st.1.binType t).resources.length j)).map
        (fun t => (t.copies, t.copiesMin, t.length)) := List.mem_map.mpr ⟨t, ht, rfl⟩
    rw [map_withRes _ _ _ _ (by intros; rfl), hB.itemTypes, hI.itemTypes] at h1
    simp only [List.take_length, List.drop_length, List.append_nil, List.map_map] at h1
    obtain ⟨u, hu, h2⟩ := List.mem_map.mp h1
    simp only [Function.comp, (resolve_fields _ _).1, (resolve_fields _ _).2.1,
      Prod.mk.injEq] at h2
    obtain ⟨hc, hm, hl⟩ := h2
    refine ⟨?_, ?_, ?_⟩
    · rw [← hc, ← hm]; exact hI.copiesMin u (by simpa using hu)
    · rw [← hl]; exact hI.lengthNe u (by simpa using hu)
    · rw [hobj, ← hm, ← hc]
      unfold resolveItem
      by_cases h3 : u.copiesMin = -1
      · rw [if_pos h3]
        by_cases h4 : b1.inst.objective = .knapsack
        · exact Or.inl h4
        · simp only [if_neg h4]
          by_cases h5 : u.copies = -1
          · exact Or.inr (Or.inr h5)
          · exact Or.inr (Or.inl h5)
      · rw [if_neg h3]; exact Or.inr (Or.inl h3)
  · have hn : inst.numberOfItems = i1.numberOfItems := by
      rw [hinst]; change st.1.numberOfItems = _; exact hB.numberOfItems
    rw [hinst] at ht
    change t ∈ (computeItemTypeIds st.1).binTypes at ht
    unfold computeItemTypeIds at ht
    obtain ⟨u, hu, rfl⟩ := List.mem_map.mp ht
    rw [hB.binTypes] at hu
    simp only [List.take_length, List.drop_length, List.append_nil] at hu
    obtain ⟨v, hv, rfl⟩ := List.mem_map.mp hu
    have hv' : v ∈ b1.inst.binTypes := by rw [← hI.binTypes]; exact hv
    have hf := hF.bins v hv'
    have hcm := hB.copiesMin
    rw [hI.objective, List.take_length] at hcm
    dsimp only
    have hr : (resolveBin i1.numberOfItems v).length = v.length
        ∧ (resolveBin i1.numberOfItems v).cost = v.cost
        ∧ (resolveBin i1.numberOfItems v).copiesMin = v.copiesMin := by
      unfold resolveBin; split_ifs <;> simp
    rw [hr.1, hr.2.1, hr.2.2]
    refine ⟨hf.length, hf.cost, hf.copiesMin, ?_, fun h5 => ?_⟩
    · unfold resolveBin
      by_cases h3 : v.copies = -1
      · rw [if_pos h3, hn]; exact Or.inr rfl
      · rw [if_neg h3]
        rcases hf.copies with h4 | h4
        · exact absurd h4 h3
        · exact Or.inl h4
    · exact le_antisymm (hcm (by rw [← hobj]; exact h5) v hv) hf.copiesMin

/-! ### Non-vacuity and counterexamples -/

/-- A history: two bin types (one with as many copies as items), a resource with a
consumption schedule, two item types. -/
def exBuild : List Op :=
  [.addBinType 10, .setBinTypeCost 0 7, .addBinTypeEligibility 0 7, .addBinTypeResource 0 6 true 2,
   .addItemType 4, .setItemTypeCopies 0 3, .setItemTypeProfit 0 5,
   .addItemType 3, .setItemTypeCopies 1 4, .setItemTypeCopiesMin 1 2, .setItemTypeEligibility 1 7,
   .addResourceConsumption 0 0 1 0 3, .addResourceConsumption 0 0 1 1 4,
   .addBinType 12, .setBinTypeCopies 1 (-1), .addItemTypePrecedence 0 1]

/-- Selected data of the instance built by a history. -/
def summary (r : Except Err Instance) : Option (Int × Int × List Nat × List Int × Bool) :=
  match r with
  | .ok i => some (i.numberOfItems, i.itemLength, i.binTypeIds, i.previousBinsLength,
      i.allItemTypesInfiniteCopies)
  | .error _ => none

/-- The hypotheses of the theorems above are met: the history builds, 7 items. -/
example : summary (runOps .variableSizedBinPacking exBuild)
    = some (7, 24, [0, 1, 1, 1, 1, 1, 1, 1], [0, 10, 22, 34, 46, 58, 70, 82], true) := by
  decide +kernel

example : ∃ inst, runOps .variableSizedBinPacking exBuild = .ok inst ∧ Aggregates inst
    ∧ EnoughCopies inst := by
  have hs : summary (runOps .variableSizedBinPacking exBuild)
    = some (7, 24, [0, 1, 1, 1, 1, 1, 1, 1], [0, 10, 22, 34, 46, 58, 70, 82], true) := by
    decide +kernel
  have hp : (match runOps .variableSizedBinPacking exBuild with
    | .ok i => (i.itemTypes.all fun t => decide (0 < t.length)) && decide (0 < i.binTypes.length)
    | .error _ => false) = true := by decide +kernel
  cases h : runOps .variableSizedBinPacking exBuild with
  | error e => rw [h] at hs; simp [summary] at hs
  | ok inst =>
    rw [h] at hs hp
    simp only [Bool.and_eq_true, List.all_eq_true, decide_eq_true_eq] at hp
    refine ⟨inst, rfl, build_aggregates h, (build_enough_copies h hp.1 ?_).mp ?_⟩
    · exact List.ne_nil_of_length_pos hp.2
    · simp only [summary, Option.some.injEq, Prod.mk.injEq] at hs
      exact hs.2.2.2.2

/-- **C47**, negation: `set_item_type_copies(id, -1)` is accepted, and `build`
leaves the number of copies at -1 and counts -1 items. -/
theorem build_negative_copies : ∃ ops inst, runOps .binPacking ops = .ok inst
    ∧ (∃ t ∈ inst.itemTypes, t.copies = -1) ∧ inst.numberOfItems = -1 := by
  have : (match runOps .binPacking [.addBinType 10, .addItemType 4, .setItemTypeCopies 0 (-1)] with
    | .ok i => decide ((∃ t ∈ i.itemTypes, t.copies = -1) ∧ i.numberOfItems = -1)
    | .error _ => false) = true := by decide +kernel
  cases h : runOps .binPacking [.addBinType 10, .addItemType 4, .setItemTypeCopies 0 (-1)] with
  | error e => rw [h] at this; simp at this
  | ok i => rw [h] at this; exact ⟨_, i, h, of_decide_eq_true this⟩

/-- **C47**, negation: negative item lengths are accepted. -/
theorem build_negative_length : ∃ ops inst, runOps .binPacking ops = .ok inst
    ∧ ∃ t ∈ inst.itemTypes, t.length < 0 := by
  have : (match runOps .binPacking [.addBinType 10, .addItemType (-4)] with
    | .ok i => decide (∃ t ∈ i.itemTypes, t.length < 0)
    | .error _ => false) = true := by decide +kernel
  cases h : runOps .binPacking [.addBinType 10, .addItemType (-4)] with
  | error e => rw [h] at this; simp at this
  | ok i => rw [h] at this; exact ⟨_, i, h, of_decide_eq_true this⟩

/-- **C47**, negation: a bin type with unlimited copies and a minimum of 5 ends with
fewer copies than its minimum. -/
theorem build_bin_copies_min : ∃ ops inst, runOps .variableSizedBinPacking ops = .ok inst
    ∧ ∃ t ∈ inst.binTypes, t.copies < t.copiesMin := by
  have : (match runOps .variableSizedBinPacking [.addBinType 10, .setBinTypeCopies 0 (-1),
      .setBinTypeCopiesMin 0 5, .addItemType 4] with
    | .ok i => decide (∃ t ∈ i.binTypes, t.copies < t.copiesMin)
    | .error _ => false) = true := by decide +kernel
  cases h : runOps .variableSizedBinPacking [.addBinType 10, .setBinTypeCopies 0 (-1),
      .setBinTypeCopiesMin 0 5, .addItemType 4] with
  | error e => rw [h] at this; simp at this
  | ok i => rw [h] at this; exact ⟨_, i, h, of_decide_eq_true this⟩

end PackingSolver.OneDim
