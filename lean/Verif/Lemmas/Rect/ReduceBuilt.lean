import Verif.Lemmas.Rect.ReduceRun

/-!
# The reduced instance
-/

namespace PackingSolver.Rect.Reduction

open InstanceBuilder Rect.Spec FlipLemmas

/-- The bin type has the size and, up to a change of the numbers of copies, the other attributes of
another one. -/
structure SameSize (t t' : BinType) : Prop where
  x : t'.x = t.x
  y : t'.y = t.y
  cost : t.cost ≠ -1 → t'.cost = t.cost

theorem addEligibilities_last {b b' : InstanceBuilder} {l : List BinType} {t : BinType}
    {es : List Int} (h : (withBinTypes b (l ++ [t])).addEligibilities l.length es = .ok b') :
    ∃ t', SameSize t t' ∧ t'.copies = t.copies ∧ b' = withBinTypes b (l ++ [t']) := by
  unfold addEligibilities at h
  induction es generalizing t with
  | nil => cases h; exact ⟨t, ⟨rfl, rfl, fun _ => rfl⟩, rfl, rfl⟩
  | cons e es ih =>
    obtain ⟨b1, h1, h2⟩ := foldlM_cons_ok.mp h
    change (withBinTypes b (l ++ [t])).modifyBin l.length _ = _ at h1
    obtain ⟨t1, ht1, rfl⟩ := modifyBin_last h1
    obtain ⟨t2, e1, e2, e3⟩ := ih h2
    have hs : SameSize t t1 ∧ t1.copies = t.copies := by
      try dsimp only at ht1
      cases ht1; exact ⟨⟨rfl, rfl, fun _ => rfl⟩, rfl⟩
    exact ⟨t2, ⟨e1.x.trans hs.1.x, e1.y.trans hs.1.y, fun h => (e1.cost (by rw [hs.1.cost h]; exact h)).trans
      (hs.1.cost h)⟩, e2.trans hs.2, e3⟩

/-- Adding a bin type as it is in another instance. -/
theorem addBinTypeFrom_ok {b b' : InstanceBuilder} {orig : Instance} {i : Nat}
    (h : b.addBinTypeFrom orig i = .ok b') :
    ∃ b0 t', b0.inst = b.inst ∧ SameSize (orig.binType i) t'
      ∧ t'.copies = (orig.binType i).copies
      ∧ (0 < (orig.binType i).x ∧ 0 < (orig.binType i).y)
      ∧ b' = withBinTypes b0 (b.inst.binTypes ++ [t']) := by
  unfold addBinTypeFrom at h
  split_ifs at h with h0
  dsimp only at h
  obtain ⟨b1, h1, h⟩ := bind_ok.mp h
  unfold addBinType at h1
  split_ifs at h1 with hx hy
  cases h1
  obtain ⟨b2, h2, h⟩ := bind_ok.mp h
  obtain ⟨b3, h3, h⟩ := bind_ok.mp h
  obtain ⟨b4, h4, h⟩ := bind_ok.mp h
  obtain ⟨b5, h5, h⟩ := bind_ok.mp h
  obtain ⟨b6, h6, h⟩ := bind_ok.mp h
  obtain ⟨b7, h7, h⟩ := bind_ok.mp h
  obtain ⟨b8, h8, h9⟩ := bind_ok.mp h
  set b0 : InstanceBuilder := { b with origToSubBin :=
    (growTo none (i + 1) b.origToSubBin).set i (some b.inst.binTypes.length) } with hb0
  change setBinTypeCost (withBinTypes b0 (b.inst.binTypes ++ [_])) _ _ = _ at h2
  unfold setBinTypeCost at h2
  obtain ⟨y2, hy2, rfl⟩ := modifyBin_last h2
  unfold setBinTypeCopies at h3
  obtain ⟨y3, hy3, rfl⟩ := modifyBin_last h3
  unfold setBinTypeCopiesMin at h4
  obtain ⟨y4, hy4, rfl⟩ := modifyBin_last h4
  unfold setBinTypeMaximumWeight at h5
  obtain ⟨y5, hy5, rfl⟩ := modifyBin_last h5
  unfold setBinTypeTruck at h6
  obtain ⟨y6, hy6, rfl⟩ := modifyBin_last h6
  obtain ⟨y7, s7, c7, rfl⟩ := addEligibilities_last h7
  have e8 := addDefects_last h8
  subst e8
  have e9 := addResources_last h9
  subst e9
  dsimp only at hy2 hy3 hy4 hy5 hy6
  split_ifs at hy2 hy3 hy4 hy5 hy6 with hc3
  all_goals
    cases hy2
    cases hy3
    cases hy4
    cases hy5
    cases hy6
    refine ⟨b0, _, rfl, ?_, ?_, ?_, rfl⟩
    · refine ⟨s7.x, s7.y, fun hne => ?_⟩
      first | contradiction | exact s7.cost hne
    · exact c7
    · omega

theorem withBinTypes_twice (b : InstanceBuilder) (l l' : List BinType) :
    withBinTypes (withBinTypes b l) l' = withBinTypes b l' := rfl

/-- The bin type of the reduced instance. -/
theorem reducedBinOps_ok {inst : Instance} {st : State} {b b' : InstanceBuilder}
    (hb : b.inst.binTypes = []) (h : (reducedBinOps inst st).foldlM step b = .ok b') :
    (0 < (inst.binType 0).x ∧ 0 < (inst.binType 0).y)
    ∧ ∃ t', SameSize (inst.binType 0) t' ∧ b'.inst.binTypes = [t']
      ∧ b'.inst.itemTypes = b.inst.itemTypes
      ∧ (t'.copies = (inst.binType 0).copies
        ∨ (0 < (inst.binType 0).copies - st.dedicated
          ∧ t'.copies = (inst.binType 0).copies - st.dedicated))
      ∧ (0 < st.dedicated → 0 < (inst.binType 0).copies - st.dedicated →
        t'.copies = (inst.binType 0).copies - st.dedicated ∨ (inst.binType 0).copies < 0) := by
  unfold reducedBinOps at h
  rw [List.foldlM_append] at h
  obtain ⟨b1, h1, h2⟩ := bind_ok.mp h
  obtain ⟨b1', h1, hz⟩ := foldlM_cons_ok.mp h1
  cases hz
  change b.addBinTypeFrom inst 0 = _ at h1
  obtain ⟨b0, t, hb0, hs, hc, hpos, rfl⟩ := addBinTypeFrom_ok h1
  refine ⟨hpos, ?_⟩
  rw [hb, List.nil_append] at h2
  split_ifs at h2 with g1 g2 g3 g3
  · -- both calls
    rw [List.foldlM_append] at h2
    obtain ⟨b2, h2, h3⟩ := bind_ok.mp h2
    obtain ⟨b2', h2, hz⟩ := foldlM_cons_ok.mp h2
    cases hz
    obtain ⟨b3, h3, hz⟩ := foldlM_cons_ok.mp h3
    cases hz
    change setBinTypeCopies (withBinTypes b0 ([] ++ [t])) 0 _ = _ at h2
    unfold setBinTypeCopies at h2
    obtain ⟨y2, hy2, rfl⟩ := modifyBin_last (l := []) h2
    change setBinTypeCopiesMin (withBinTypes b0 ([] ++ [y2])) 0 _ = _ at h3
    unfold setBinTypeCopiesMin at h3
    obtain ⟨y3, hy3, rfl⟩ := modifyBin_last (l := []) h3
    try dsimp only at hy2 hy3
    split_ifs at hy2 hy3
    cases hy2
    cases hy3
    refine ⟨_, ?_, rfl, by change b0.inst.itemTypes = _; rw [hb0], ?_, ?_⟩
    · exact ⟨hs.x, hs.y, hs.cost⟩
    · exact Or.inr ⟨g2.2, rfl⟩
    · exact fun _ _ => Or.inl rfl
  · rw [List.append_nil] at h2
    obtain ⟨b2', h2, hz⟩ := foldlM_cons_ok.mp h2
    cases hz
    change setBinTypeCopies (withBinTypes b0 ([] ++ [t])) 0 _ = _ at h2
    unfold setBinTypeCopies at h2
    obtain ⟨y2, hy2, rfl⟩ := modifyBin_last (l := []) h2
    try dsimp only at hy2
    split_ifs at hy2
    cases hy2
    refine ⟨_, ?_, rfl, by change b0.inst.itemTypes = _; rw [hb0], ?_, ?_⟩
    · exact ⟨hs.x, hs.y, hs.cost⟩
    · exact Or.inr ⟨g2.2, rfl⟩
    · exact fun _ _ => Or.inl rfl
  · rw [List.nil_append] at h2
    obtain ⟨b2', h2, hz⟩ := foldlM_cons_ok.mp h2
    cases hz
    change setBinTypeCopiesMin (withBinTypes b0 ([] ++ [t])) 0 _ = _ at h2
    unfold setBinTypeCopiesMin at h2
    obtain ⟨y2, hy2, rfl⟩ := modifyBin_last (l := []) h2
    try dsimp only at hy2
    split_ifs at hy2
    cases hy2
    refine ⟨_, ?_, rfl, by change b0.inst.itemTypes = _; rw [hb0], ?_, ?_⟩
    · exact ⟨hs.x, hs.y, hs.cost⟩
    · exact Or.inl hc
    · exact fun _ _ => Or.inr (by omega)
  · cases h2
    exact ⟨t, hs, rfl, by change b0.inst.itemTypes = _; rw [hb0], Or.inl hc,
      fun _ _ => Or.inr (by omega)⟩
  · cases h2
    exact ⟨t, hs, rfl, by change b0.inst.itemTypes = _; rw [hb0], Or.inl hc,
      fun h => absurd h g1⟩

/-- An item type of the reduced instance. -/
def reducedItem (inst : Instance) (st : State) (i : Nat) : ItemType :=
  { x := (st.item i).x, y := (st.item i).y, profit := (inst.itemType i).profit,
    copies := (st.item i).copies, copiesMin := -1, groupId := (inst.itemType i).groupId,
    oriented := (inst.itemType i).oriented, weight := (inst.itemType i).weight,
    eligibilityId := (inst.itemType i).eligibilityId }

theorem reducedItemOps_ok {inst : Instance} {st : State} {i : Nat} {b b' : InstanceBuilder}
    (h : (reducedItemOps inst st b.inst.itemTypes.length i).foldlM step b = .ok b') :
    b' = withItemTypes b (b.inst.itemTypes ++ [reducedItem inst st i])
    ∧ ((st.item i).copies = -1 ∨ 0 < (st.item i).copies) := by
  unfold reducedItemOps at h
  obtain ⟨b1, h1, h⟩ := foldlM_cons_ok.mp h
  obtain ⟨b2, h2, h⟩ := foldlM_cons_ok.mp h
  obtain ⟨b3, h3, h⟩ := foldlM_cons_ok.mp h
  obtain ⟨b4, h4, h⟩ := foldlM_cons_ok.mp h
  obtain ⟨b5, h5, h⟩ := foldlM_cons_ok.mp h
  obtain ⟨b6, h6, h⟩ := foldlM_cons_ok.mp h
  cases h
  change addItemType b _ _ _ = _ at h1
  change setItemTypeProfit b1 _ _ = _ at h2
  change setItemTypeCopies b2 _ _ = _ at h3
  change setItemTypeGroup b3 _ _ = _ at h4
  change setItemTypeWeight b4 _ _ = _ at h5
  change setItemTypeEligibility b5 _ _ = _ at h6
  unfold addItemType at h1
  split_ifs at h1 with hx hy
  cases h1
  change setItemTypeProfit (withItemTypes b (b.inst.itemTypes ++ [_])) _ _ = _ at h2
  obtain ⟨y2, hy2, rfl⟩ := modifyItem_last h2
  cases hy2
  obtain ⟨y3, hy3, rfl⟩ := modifyItem_last h3
  dsimp only at hy3
  split_ifs at hy3 with hc
  cases hy3
  unfold setItemTypeGroup at h4
  split_ifs at h4 with hg1 hg2
  obtain ⟨y4, hy4, rfl⟩ := modifyItem_last h4
  cases hy4
  obtain ⟨y5, hy5, rfl⟩ := modifyItem_last h5
  cases hy5
  obtain ⟨y6, hy6, rfl⟩ := modifyItem_last h6
  cases hy6
  refine ⟨?_, by omega⟩
  unfold reducedItem
  simp

theorem reducedItemsOps_ok {inst : Instance} {st : State} (ids : List Nat) :
    ∀ {b b' : InstanceBuilder},
    ((ids.zipIdx b.inst.itemTypes.length).flatMap fun p => reducedItemOps inst st p.2 p.1).foldlM
      step b = .ok b' →
    b' = withItemTypes b (b.inst.itemTypes ++ ids.map (reducedItem inst st))
    ∧ ∀ i ∈ ids, (st.item i).copies = -1 ∨ 0 < (st.item i).copies := by
  induction ids with
  | nil =>
    intro b b' h
    cases h
    exact ⟨by simp [withItemTypes_self], by simp⟩
  | cons i ids ih =>
    intro b b' h
    rw [List.zipIdx_cons, List.flatMap_cons, List.foldlM_append] at h
    obtain ⟨b1, h1, h2⟩ := bind_ok.mp h
    obtain ⟨e, hc⟩ := reducedItemOps_ok h1
    have hl : b1.inst.itemTypes.length = b.inst.itemTypes.length + 1 := by
      rw [e]; simp [withItemTypes]
    rw [← hl] at h2
    obtain ⟨e2, hc2⟩ := ih h2
    refine ⟨?_, ?_⟩
    · rw [e2, e]; simp [withItemTypes]
    · intro j hj
      rcases List.mem_cons.mp hj with rfl | hj
      · exact hc
      · exact hc2 j hj

/-- What matters of the reduced instance. -/
structure IsReduced (inst : Instance) (st : State) (red : Instance) : Prop where
  agg : Aggregates red
  items : red.numberOfItemTypes = (survivors st).length
  item : ∀ k (h : k < (survivors st).length),
    (red.itemType k).x = (st.item (survivors st)[k]).x
    ∧ (red.itemType k).y = (st.item (survivors st)[k]).y
    ∧ (red.itemType k).oriented = (inst.itemType (survivors st)[k]).oriented
    ∧ (red.itemType k).copies = (st.item (survivors st)[k]).copies
  bins : red.numberOfBinTypes = 1
  positive : 0 < (inst.binType 0).x ∧ 0 < (inst.binType 0).y
  x : (red.binType 0).x = (inst.binType 0).x
  y : (red.binType 0).y = (inst.binType 0).y
  cost : (inst.binType 0).cost ≠ -1 → (red.binType 0).cost = (inst.binType 0).cost
  copies : ∀ i ∈ survivors st, (st.item i).copies = -1 ∨ 0 < (st.item i).copies
  binCopies : 0 < st.dedicated → 0 < (inst.binType 0).copies →
    0 < (inst.binType 0).copies - st.dedicated →
    (red.binType 0).copies = (inst.binType 0).copies - st.dedicated

theorem reducedOps_built {inst : Instance} {st : State} {red : Instance}
    (h : runOps (reducedOps inst st) = .ok red) : IsReduced inst st red := by
  have hagg : Aggregates red := by
    unfold runOps at h
    obtain ⟨b, hb, h⟩ := bind_ok.mp h
    exact built_aggregates (fresh_ops hb) h
  unfold runOps at h
  obtain ⟨b, hb, h⟩ := bind_ok.mp h
  have hF := fresh_ops hb
  unfold reducedOps at hb
  rw [List.foldlM_append, List.foldlM_append] at hb
  obtain ⟨b2, hb, h3⟩ := bind_ok.mp hb
  obtain ⟨b1, h1, h2⟩ := bind_ok.mp hb
  have hb1 : b1.inst.binTypes = [] ∧ b1.inst.itemTypes = [] := by
    cases h1; exact ⟨rfl, rfl⟩
  obtain ⟨hpos, t, ht, eb2, ei2, -, hcp⟩ := reducedBinOps_ok hb1.1 h2
  have hb2 : b2.inst.itemTypes = [] := ei2.trans hb1.2
  have h3' : (((survivors st).zipIdx b2.inst.itemTypes.length).flatMap fun p =>
      reducedItemOps inst st p.2 p.1).foldlM step b2 = .ok b := by rw [hb2]; exact h3
  obtain ⟨e3, hc⟩ := reducedItemsOps_ok (survivors st) h3'
  have ei : b.inst.itemTypes = (survivors st).map (reducedItem inst st) := by
    rw [e3]; change b2.inst.itemTypes ++ _ = _; rw [hb2, List.nil_append]
  have eb : b.inst.binTypes = [t] := by
    rw [e3]; exact eb2
  have hbl : red.binTypes.length = 1 := by
    rw [built_bins_length hF h, eb]; rfl
  have ebk : b.inst.binType 0 = t := by
    unfold Instance.binType
    rw [eb]; rfl
  refine ⟨hagg, ?_, fun k hk => ?_, hbl, hpos, ?_, ?_, ?_, hc, ?_⟩
  · unfold Instance.numberOfItemTypes; rw [built_items_length hF h, ei, List.length_map]
  · have ek : b.inst.itemType k = reducedItem inst st (survivors st)[k] := by
      unfold Instance.itemType
      rw [ei, List.getD_eq_getElem _ _ (by simpa using hk)]; simp
    refine ⟨?_, ?_, ?_, ?_⟩
    · rw [built_item hF h (·.x) (by intros; rfl) (fun o t => (resolve_fields o t).2.1), ek]; rfl
    · rw [built_item hF h (·.y) (by intros; rfl) (fun o t => (resolve_fields o t).2.2.1), ek]; rfl
    · rw [built_item hF h (·.oriented) (by intros; rfl)
        (fun o t => (resolve_fields o t).2.2.2.2.2.2.1), ek]; rfl
    · rw [built_item hF h (·.copies) (by intros; rfl) (fun o t => (resolve_fields o t).1), ek]; rfl
  · rw [built_bin hF h (·.x) (by intros; rfl) 0 (by omega), ebk]; unfold resolveBin
    split_ifs <;> exact ht.x
  · rw [built_bin hF h (·.y) (by intros; rfl) 0 (by omega), ebk]; unfold resolveBin
    split_ifs <;> exact ht.y
  · intro hne
    rw [built_bin hF h (·.cost) (by intros; rfl) 0 (by omega), ebk]; unfold resolveBin
    split_ifs <;> exact ht.cost hne
  · intro hd h0 hp
    have hct : t.copies = (inst.binType 0).copies - st.dedicated := by
      rcases hcp hd hp with e | e
      · exact e
      · omega
    rw [built_bin hF h (·.copies) (by intros; rfl) 0 (by omega), ebk]; unfold resolveBin
    have hne : ¬ t.copies = -1 := by omega
    exact (congrArg BinType.copies (if_neg hne)).trans hct

/-- **A packing of the remaining items is a packing of the reduced instance.** -/
theorem packs_reduced {env : Env} {st : State} {red : Instance}
    (hW : env.w ≤ (env.inst.binType 0).x) (hH : env.h ≤ (env.inst.binType 0).y)
    (hR : IsReduced env.inst st red) {bins : List (List PlacedItem)}
    (hp : (tab env st).Packs env.w env.h bins) :
    ∃ bins', FullPacking red bins' ∧ bins'.length = bins.length := by
  classical
  have hs : ∀ i, i ∈ survivors st ↔ i < st.items.length ∧ (st.item i).removed = false := by
    intro i; unfold survivors
    rw [List.mem_filter, List.mem_range]; simp
  have hnd : (survivors st).Nodup := List.nodup_range.filter _
  -- no removed item is packed
  have hsurv : ∀ b ∈ bins, ∀ p ∈ b, p.itemTypeId ∈ survivors st := by
    intro b hb p hpb
    have hlt := (hp.each b hb).exist p hpb
    rw [hs]
    refine ⟨hlt, ?_⟩
    by_contra hr
    have hc := hp.all p.itemTypeId hlt
    have hz : (tab env st).c p.itemTypeId = 0 := by
      change (if (st.item p.itemTypeId).removed then 0 else _) = 0
      rw [if_pos (by simpa using hr)]
    rw [hz, Tab.count_zero_iff] at hc
    exact hc p (List.mem_flatten.mpr ⟨b, hb, hpb⟩) rfl
  set f : PlacedItem → PlacedItem := fun p =>
    { p with itemTypeId := (survivors st).idxOf p.itemTypeId } with hf
  have hidx : ∀ i ∈ survivors st, ∃ h : (survivors st).idxOf i < (survivors st).length,
      (survivors st)[(survivors st).idxOf i] = i := fun i hi =>
    ⟨List.idxOf_lt_length_iff.mpr hi, List.getElem_idxOf _⟩
  have hgrow := hp.grow hW hH
  have hocc : ∀ p : PlacedItem, p.itemTypeId ∈ survivors st →
      occupies red (f p) = (tab env st).occ p := by
    intro p hps
    obtain ⟨h1, h2⟩ := hidx _ hps
    obtain ⟨e1, e2, -, -⟩ := hR.item _ h1
    unfold occupies Tab.occ Tab.wd Tab.ht
    rw [width_eq, height_eq]
    change Placed.mk p.x p.y (if p.rotate then (red.itemType ((survivors st).idxOf p.itemTypeId)).y
      else (red.itemType ((survivors st).idxOf p.itemTypeId)).x)
      (if p.rotate then (red.itemType ((survivors st).idxOf p.itemTypeId)).x
      else (red.itemType ((survivors st).idxOf p.itemTypeId)).y) = _
    rw [e1, e2, h2]; rfl
  refine ⟨bins.map fun b => b.map f, ⟨fun b' hb' => ?_, fun j hj => ?_⟩, by rw [List.length_map]⟩
  · obtain ⟨b, hb, rfl⟩ := List.mem_map.mp hb'
    have hg := hgrow.each b hb
    refine ⟨fun p' hp' => ?_, fun p' hp' hr => ?_, fun p' hp' => ?_, ?_⟩
    · obtain ⟨p, hpb, rfl⟩ := List.mem_map.mp hp'
      rw [hR.items]
      exact (hidx _ (hsurv b hb p hpb)).1
    · obtain ⟨p, hpb, rfl⟩ := List.mem_map.mp hp'
      obtain ⟨h1, h2⟩ := hidx _ (hsurv b hb p hpb)
      change (red.itemType ((survivors st).idxOf p.itemTypeId)).oriented = false
      rw [(hR.item _ h1).2.2.1, h2]
      exact hg.rotation p hpb hr
    · obtain ⟨p, hpb, rfl⟩ := List.mem_map.mp hp'
      rw [hocc p (hsurv b hb p hpb), hR.x, hR.y]
      exact hg.inside p hpb
    · rw [List.pairwise_map]
      refine List.Pairwise.imp_of_mem ?_ hg.separated
      intro p q hpb hqb hsep
      rw [hocc p (hsurv b hb p hpb), hocc q (hsurv b hb q hqb)]; exact hsep
  · rw [hR.items] at hj
    have hm : (survivors st)[j] ∈ survivors st := List.getElem_mem hj
    have h1 := (hs _).mp hm
    have h2 := hp.all _ h1.1
    have hc : (tab env st).c (survivors st)[j] = (st.item (survivors st)[j]).copies := by
      change (if (st.item (survivors st)[j]).removed then 0 else _) = _
      rw [h1.2]; rfl
    rw [hc] at h2
    rw [(hR.item j hj).2.2.2, ← h2, ← List.map_flatten]
    unfold count
    rw [List.countP_map]
    congr 1
    apply List.countP_congr
    intro p hpf
    obtain ⟨b, hb, hpb⟩ := List.mem_flatten.mp hpf
    have hps := hsurv b hb p hpb
    obtain ⟨h3, h4⟩ := hidx _ hps
    simp only [Function.comp, decide_eq_true_eq]
    change (survivors st).idxOf p.itemTypeId = j ↔ _
    constructor
    · intro e; subst e; exact h4.symm
    · intro e
      rw [e]
      exact hnd.idxOf_getElem j hj

end PackingSolver.Rect.Reduction
