import Verif.Props.OneDim.Copy
import Verif.Lemmas.OneDim.PostProcess
import Verif.Lemmas.OneDim.Packing
import Verif.Spec.OneDimSequential

/-! Helper lemmas: the sub-instances of the sequential feasibility scheme. -/

namespace PackingSolver.OneDim.SequentialLemmas

open InstanceBuilder ResourceLemmas CopyLemmas PackingSolver.OneDim.Spec

/-- The instance restricted to its first `k` bins, none of them mandatory. -/
def limitBins (inst : Instance) (k : Int) : Instance :=
  { inst with binTypes := inst.binTypes.mapIdx fun t b =>
      { b with copies := firstBins inst k t, copiesMin := 0 } }

theorem limit_length (inst : Instance) (k : Int) :
    (limitBins inst k).binTypes.length = inst.binTypes.length := by simp [limitBins]

theorem limit_binType (inst : Instance) (k : Int) {t : Nat} (ht : t < inst.binTypes.length) :
    (limitBins inst k).binType t
      = { inst.binType t with copies := firstBins inst k t, copiesMin := 0 } := by
  unfold Instance.binType
  rw [List.getD_eq_getElem _ _ (by rw [limit_length]; exact ht), List.getD_eq_getElem _ _ ht]
  simp [limitBins]

theorem limit_resources (inst : Instance) (k : Int) (t : Nat) :
    ((limitBins inst k).binType t).resources = (inst.binType t).resources := by
  by_cases ht : t < inst.binTypes.length
  · rw [limit_binType _ _ ht]
  · unfold Instance.binType
    rw [List.getD_eq_default _ _ (by rw [limit_length]; omega),
      List.getD_eq_default _ _ (by omega)]

theorem addItemTypeFrom_limit (b : InstanceBuilder) (inst : Instance) (k : Int) (i : Nat) :
    b.addItemTypeFrom (limitBins inst k) i = b.addItemTypeFrom inst i := by
  have h : ∀ (b : InstanceBuilder) (i j : Nat),
      b.copyConsumptions (limitBins inst k) i j = b.copyConsumptions inst i j := by
    intro b i j
    unfold copyConsumptions
    simp only [limit_length, limit_resources]
  unfold addItemTypeFrom
  simp only [h]
  rfl

theorem binsBefore_succ (inst : Instance) (t : Nat) :
    binsBefore inst (t + 1) = binsBefore inst t + (inst.binType t).copies := by
  simp [binsBefore, List.range_succ]

theorem getD_append_len {α : Type} (l : List α) (x d : α) : (l ++ [x]).getD l.length d = x := by
  simp

/-- Effect of the three calls made for one bin type. -/
theorem three_calls {o : Objective} {inst : Instance} {k : Int} {t : Nat}
    {b b1 b2 b3 : InstanceBuilder} {c : Int}
    (hcost : ∀ t ∈ inst.binTypes, 0 < t.cost)
    (hb : BinPhase o (limitBins inst k) (List.range t) b) (hc : c = firstBins inst k t)
    (h1 : b.addBinTypeFrom inst t = .ok b1) (h2 : b1.setBinTypeCopiesMin t 0 = .ok b2)
    (h3 : b2.setBinTypeCopies t c = .ok b3) :
    t < inst.binTypes.length ∧ BinPhase o (limitBins inst k) (List.range (t + 1)) b3 := by
  have ht : t < inst.binTypes.length := by
    unfold addBinTypeFrom at h1
    split_ifs at h1 with hh
    omega
  obtain ⟨-, rfl⟩ := addBinTypeFrom_ok (hcost _ (getD_mem _ ht)) h1
  obtain ⟨p1, p2, p3⟩ := hb
  have hlen : b.inst.binTypes.length = t := by rw [p1]; simp
  unfold setBinTypeCopiesMin at h2
  rw [← hlen] at h2
  obtain ⟨y, hy, rfl⟩ := modifyBin_last h2
  unfold setBinTypeCopies at h3
  rw [← hlen] at h3
  obtain ⟨z, hz, rfl⟩ := modifyBin_last h3
  have hy' : y = { copyBin (inst.binType t) with copiesMin := 0 } := by
    split_ifs at hy
    cases hy; rw [hlen]
  have hz' : z = copyBin ((limitBins inst k).binType t) := by
    split_ifs at hz
    cases hz
    rw [limit_binType _ _ ht, hy', hc]
    simp [copyBin]
  refine ⟨ht, ?_, fun x => ?_, p3⟩
  · rw [hz']
    simp [withBinTypes, p1, List.range_succ]
  · rw [List.range_succ, idxOf?_snoc (by simp)]
    change ((growTo none (b.inst.binTypes.length + 1) b.origToSubBin).set b.inst.binTypes.length
      (some b.inst.binTypes.length)).getD x none = _
    rw [getD_set' _ _ _ _ _ (by rw [length_growTo]; omega), getD_growTo, p2, hlen]
    simp

theorem seqPhase {o : Objective} {inst : Instance} {k : Int}
    (hcost : ∀ t ∈ inst.binTypes, 0 < t.cost)
    (d : Nat) : ∀ (t : Nat) (r : Int) (b b' : InstanceBuilder),
    BinPhase o (limitBins inst k) (List.range t) b → t + d = inst.binTypes.length →
    (∀ u ∈ inst.binTypes, 0 ≤ u.copies) →
    (r > 0 → r = k - binsBefore inst t) → (r ≤ 0 → k - binsBefore inst t ≤ 0) →
    (sequentialBinCalls inst (List.range' t d) r).foldlM step b = .ok b' →
    ∃ m, BinPhase o (limitBins inst k) (List.range m) b' ∧ m ≤ inst.binTypes.length
      ∧ (m < inst.binTypes.length → k - binsBefore inst m ≤ 0)
      ∧ t ≤ m ∧ ∀ u, t ≤ u → u < m → k - binsBefore inst u > 0 := by
  induction d with
  | zero =>
    intro t r b b' hb ht hc hr hr' h
    simp [sequentialBinCalls, pure, Except.pure] at h
    subst h
    exact ⟨t, hb, by omega, by omega, le_refl _, by omega⟩
  | succ d ih =>
    intro t r b b' hb ht hc hr hr' h
    rw [List.range'_succ] at h
    unfold sequentialBinCalls at h
    by_cases hpos : r > 0
    · rw [if_pos hpos] at h
      dsimp only at h
      obtain ⟨b1, h1, h⟩ := foldlM_cons_ok.mp h
      obtain ⟨b2, h2, h⟩ := foldlM_cons_ok.mp h
      obtain ⟨b3, h3, h⟩ := foldlM_cons_ok.mp h
      have hr1 := hr hpos
      have hct : 0 ≤ (inst.binType t).copies := hc _ (getD_mem _ (by omega))
      obtain ⟨-, hb3⟩ := three_calls (k := k) (o := o) hcost hb
        (by unfold firstBins; rw [← hr1]; omega) h1 h2 h3
      have hs := binsBefore_succ inst t
      obtain ⟨m, q1, q2, q3, q4, q5⟩ := ih (t + 1) _ b3 b' hb3 (by omega) hc
        (fun hh => by omega) (fun hh => by omega) h
      refine ⟨m, q1, q2, q3, by omega, fun u hu hu' => ?_⟩
      rcases Nat.eq_or_lt_of_le hu with e | e
      · subst e; omega
      · exact q5 u e hu'
    · rw [if_neg hpos] at h
      simp [pure, Except.pure] at h
      subst h
      exact ⟨t, hb, by omega, fun _ => hr' (by omega), le_refl _, by omega⟩

theorem binsBefore_mono {inst : Instance} (hc : ∀ u ∈ inst.binTypes, 0 ≤ u.copies) {t u : Nat}
    (htu : t ≤ u) (hu : u ≤ inst.binTypes.length) : binsBefore inst t ≤ binsBefore inst u := by
  induction u with
  | zero =>
    have : t = 0 := by omega
    rw [this]
  | succ u ih =>
    rcases Nat.eq_or_lt_of_le htu with e | e
    · rw [e]
    · have := ih (by omega) (by omega)
      have h2 := hc _ (getD_mem (l := inst.binTypes) (i := u) default (by omega))
      rw [binsBefore_succ]
      have h3 : inst.binTypes.getD u default = inst.binType u := rfl
      rw [h3] at h2
      omega

/-! ### Packings of a restriction with the same ids -/

section Transfer

variable {orig sub : Instance} {m : Nat}

theorem getD_range {n j : Nat} (h : j < n) : (List.range n).getD j 0 = j := by
  rw [List.getD_eq_getElem _ _ (by simpa using h)]; simp

theorem sub_items {n : Nat} (hs : IsSubInstance orig (List.range m) (List.range n) sub) {i : Nat}
    (hi : i < n) : SameItemData (orig.itemType i) (sub.itemType i) := by
  have := hs.items i (by simpa using hi)
  rwa [getD_range hi] at this

theorem sub_bins {n : Nat} (hs : IsSubInstance orig (List.range m) (List.range n) sub) {t : Nat}
    (ht : t < m) : SameBinData (orig.binType t) (sub.binType t) := by
  have := hs.bins t (by simpa using ht)
  rwa [getD_range ht] at this

theorem binEnd_sub {n : Nat} (hs : IsSubInstance orig (List.range m) (List.range n) sub)
    {l : List Nat} (hl : ∀ i ∈ l, i < n) : binEnd sub l = binEnd orig l := by
  unfold binEnd
  rw [List.map_congr_left fun i hi => (sub_items hs (hl i hi)).length,
    List.map_congr_left fun i hi => (sub_items hs (hl i (List.mem_of_mem_tail hi))).nestingLength]

theorem weight_sub {n : Nat} (hs : IsSubInstance orig (List.range m) (List.range n) sub)
    {l : List Nat} (hl : ∀ i ∈ l, i < n) : Spec.weight sub l = Spec.weight orig l := by
  unfold Spec.weight
  rw [List.map_congr_left fun i hi => (sub_items hs (hl i hi)).weight]

theorem resourcesOk_sub (hs : IsSubInstance orig (List.range m)
      (List.range orig.numberOfItemTypes) sub) {t : Nat} (ht : t < m) {l : List Nat} :
    ResourcesOk sub t l ↔ ResourcesOk orig t l := by
  have hn : sub.numberOfItemTypes = orig.numberOfItemTypes := by
    rw [hs.numberOfItemTypes]; simp
  have hr := hs.resources t (by simpa using ht)
  rw [getD_range ht] at hr
  have hlen : (sub.binType t).resources.length = (orig.binType t).resources.length := by
    have := congrArg List.length hr
    simpa using this
  have hcons : ∀ r p, consumption sub ((sub.binType t).resources.getD r {}) p
      = consumption orig ((orig.binType t).resources.getD r {}) p := by
    intro r p
    unfold consumption
    rw [hn]
    refine Finset.sum_congr rfl fun i hi => Finset.sum_congr rfl fun c _ => ?_
    have hi' := Finset.mem_range.mp hi
    have := hs.consumptions t (by simpa using ht) i (by simpa using hi') r c
    rwa [getD_range ht, getD_range hi'] at this
  have hdata : ∀ r, r < (sub.binType t).resources.length →
      ((sub.binType t).resources.getD r {}).capacity = ((orig.binType t).resources.getD r {}).capacity
      ∧ ((sub.binType t).resources.getD r {}).penalize
        = ((orig.binType t).resources.getD r {}).penalize := by
    intro r h1
    have h2 : r < (orig.binType t).resources.length := by omega
    have := congrArg (fun l => l[r]?) hr
    simp only [List.getElem?_map, List.getElem?_eq_getElem h1, List.getElem?_eq_getElem h2,
      Option.map_some, Option.some.injEq, Prod.mk.injEq] at this
    rw [List.getD_eq_getElem _ _ h1, List.getD_eq_getElem _ _ h2]
    exact ⟨this.1, this.2.1⟩
  have key : ∀ inst : Instance, ResourcesOk inst t l ↔ ∀ r, r < (inst.binType t).resources.length →
      ((inst.binType t).resources.getD r {}).penalize = false → ∀ p, p <+: l →
        consumption inst ((inst.binType t).resources.getD r {}) p
          ≤ ((inst.binType t).resources.getD r {}).capacity := by
    intro inst
    constructor
    · intro h r hr
      exact h _ (getD_mem _ hr)
    · intro h r hr
      obtain ⟨j, hj, rfl⟩ := List.getElem_of_mem hr
      have := h j hj
      rwa [List.getD_eq_getElem _ _ hj] at this
  rw [key, key, hlen]
  refine forall₂_congr fun r hr' => ?_
  obtain ⟨e1, e2⟩ := hdata r (by omega)
  simp only [e1, e2, hcons]

theorem binOk_sub (hs : IsSubInstance orig (List.range m) (List.range orig.numberOfItemTypes) sub)
    {t : Nat} (ht : t < m) {l : List Nat} (hl : ∀ i ∈ l, i < orig.numberOfItemTypes) :
    BinOk sub t l ↔ BinOk orig t l := by
  have hb := sub_bins hs ht
  have hpre : ∀ p, p <+: l → ∀ i ∈ p, i < orig.numberOfItemTypes :=
    fun p hp i hi => hl i (hp.subset hi)
  have e1 : Fits sub t l ↔ Fits orig t l := by
    unfold Fits
    refine forall₂_congr fun p hp => ?_
    rw [binEnd_sub hs (hpre p hp), hb.length]
  have e2 : WeightOk sub t l ↔ WeightOk orig t l := by
    unfold WeightOk
    refine forall₂_congr fun p hp => ?_
    rw [weight_sub hs (hpre p hp), hb.maximumWeight]
  have e3 : EligibleAll sub t l ↔ EligibleAll orig t l := by
    unfold EligibleAll EligibleIn
    refine forall₂_congr fun i hi => ?_
    rw [(sub_items hs (hl i hi)).eligibilityId, hb.eligibilityIds]
  have e4 : StackOk sub l ↔ StackOk orig l := by
    unfold StackOk
    refine forall₂_congr fun i hi => ?_
    rw [(sub_items hs (hl i hi)).maximumStackability]
  have e5 : WeightAfterOk sub l ↔ WeightAfterOk orig l := by
    unfold WeightAfterOk
    refine forall_congr' fun p => forall_congr' fun i => forall_congr' fun q =>
      forall_congr' fun hp => ?_
    have := hpre _ hp
    rw [(sub_items hs (this i (by simp))).maximumWeightAfter,
      weight_sub hs fun j hj => this j (by simp [hj])]
  have e6 := resourcesOk_sub hs ht (l := l)
  constructor
  · rintro ⟨a, b, c, d, e, f⟩
    exact ⟨e1.mp a, e2.mp b, e3.mp c, e4.mp d, e5.mp e, e6.mp f⟩
  · rintro ⟨a, b, c, d, e, f⟩
    exact ⟨e1.mpr a, e2.mpr b, e3.mpr c, e4.mpr d, e5.mpr e, e6.mpr f⟩

end Transfer

/-! ### The callback of a sub-instance -/

theorem finalize_callback {b b' : InstanceBuilder} (h : b.finalizePrecedences = .ok b') :
    b'.inst.callback = b.inst.callback := by
  refine foldlM_inv (fun c => c.inst.callback = b.inst.callback) rfl ?_ h
  rintro ⟨x, y⟩ a c _ ha hs
  rcases x with _ | x <;> rcases y with _ | y
  · cases hs; exact ha
  · cases hs; exact ha
  · cases hs; exact ha
  · change a.addItemTypePrecedence x y = _ at hs
    unfold addItemTypePrecedence at hs
    split_ifs at hs
    cases hs
    exact ha

/-- What is known about a sub-instance of the scheme. -/
theorem sub_facts {inst sub : Instance} {k : Int}
    (hcost : ∀ t ∈ inst.binTypes, 0 < t.cost) (hcopies : ∀ t ∈ inst.binTypes, 0 ≤ t.copies)
    (hprec : PrecedenceIdsOk inst) (h : sequentialSubInstance inst k = .ok sub) :
    ∃ m, m ≤ inst.numberOfBinTypes
      ∧ (m < inst.numberOfBinTypes → k - binsBefore inst m ≤ 0)
      ∧ (∀ u, u < m → k - binsBefore inst u > 0)
      ∧ IsSubInstance (limitBins inst k) (List.range m) (List.range inst.numberOfItemTypes) sub
      ∧ sub.objective = .feasibility ∧ (∀ p, sub.callback p = true)
      ∧ (∀ t ∈ sub.itemTypes, t.copiesMin = t.copies) := by
  unfold sequentialSubInstance runOps at h
  obtain ⟨b, h1, h⟩ := bind_ok.mp h
  have hfresh := fresh_ops h1
  rw [List.foldlM_append] at h1
  obtain ⟨b0, h0, h1⟩ := bind_ok.mp h1
  rw [List.range_eq_range'] at h0
  have hinit : BinPhase .feasibility (limitBins inst k) (List.range 0) (new .feasibility) :=
    ⟨rfl, fun x => by simp [new], rfl⟩
  obtain ⟨m, q1, q2, q3, -, q5⟩ := seqPhase (k := k) hcost inst.binTypes.length 0 k _ b0 hinit
    (by omega) hcopies (fun _ => by simp [binsBefore]) (fun hk => by simpa [binsBefore] using hk) h0
  have h1' : ((List.range inst.itemTypes.length).map (Op.addItemTypeFrom (limitBins inst k))).foldlM
      step b0 = .ok b := by
    rw [List.foldlM_map] at h1 ⊢
    have e : (fun (c : InstanceBuilder) (i : Nat) => step c (Op.addItemTypeFrom (limitBins inst k) i))
        = fun c i => step c (Op.addItemTypeFrom inst i) := by
      funext c i
      exact addItemTypeFrom_limit c inst k i
    rw [e]
    exact h1
  have hlc : ∀ t ∈ (limitBins inst k).binTypes, t.copies ≠ -1 := by
    intro t ht
    unfold limitBins at ht
    obtain ⟨j, hj, rfl⟩ := List.mem_mapIdx.mp ht
    unfold firstBins
    dsimp only
    omega
  have hlp : PrecedenceIdsOk (limitBins inst k) := hprec
  have hsub := subinstance_of_phase hlc hlp List.nodup_range List.nodup_range hfresh q1 h1' h
  have hI0 := itemPhase hlp List.nodup_range List.nodup_range q1 h1'
  obtain ⟨b1, i1, st, hf, hF, hI, hB, hinst⟩ := build_pieces hfresh h
  refine ⟨m, q2, q3, fun u hu => q5 u (Nat.zero_le _) hu, hsub, ?_, fun p => ?_,
    fun t ht => ?_⟩
  · rw [hinst]
    change st.1.objective = _
    rw [hB.objective, hI.objective, (finalize_ok hf).2.2.1, hI0.objective]
  · have : sub.callback = fun _ => true := by
      rw [hinst]
      change st.1.callback = _
      rw [hB.callback, hI.callback, finalize_callback hf, hI0.callback]
    rw [this]
  · rw [hinst] at ht
    change t ∈ withRes _ _ _ at ht
    have h1 : (t.copies, t.copiesMin) ∈ (withRes st.1.binTypes.length st.1.itemTypes
        (fun j t => wantedIds (st.1.binType t).resources
              (st.1.binType t).resources.length j)).map
        (fun t => (t.copies, t.copiesMin)) := List.mem_map.mpr ⟨t, ht, rfl⟩
    rw [map_withRes _ _ _ _ (by intros; rfl), hB.itemTypes, hI.itemTypes] at h1
    simp only [List.take_length, List.drop_length, List.append_nil, List.map_map] at h1
    obtain ⟨u, hu, h2⟩ := List.mem_map.mp h1
    have h3 : noPrec u ∈ b.inst.itemTypes.map noPrec := by
      rw [← (finalize_ok hf).2.2.2]
      exact List.mem_map.mpr ⟨u, hu, rfl⟩
    rw [hI0.itemTypes, List.map_map] at h3
    obtain ⟨i, -, h4⟩ := List.mem_map.mp h3
    have h5 : u.copiesMin = -1 := by
      have := congrArg ItemType.copiesMin h4
      exact this.symm
    have h6 : b1.inst.objective = .feasibility := by
      rw [(finalize_ok hf).2.2.1, hI0.objective]
    simp only [Function.comp, h6, resolveItem, h5, if_true, Prod.mk.injEq] at h2
    rw [← h2.1, ← h2.2]
    simp

end PackingSolver.OneDim.SequentialLemmas
