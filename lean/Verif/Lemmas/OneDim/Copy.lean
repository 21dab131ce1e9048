import Verif.Lemmas.OneDim.Build
import Verif.Props.Resource
import Verif.Spec.OneDimCopy

/-! Helper lemmas: effect of the copying overloads of the builder. -/

namespace PackingSolver.OneDim

open InstanceBuilder ResourceLemmas PackingSolver.OneDim.Spec

/-! ### Bin types -/

/-- A resource without its consumptions. -/
def strip (r : Resource) : Resource :=
  { capacity := r.capacity, penalize := r.penalize, penalty := r.penalty }

/-- The bin type appended by `add_bin_type(instance, id)`. -/
def copyBin (t : BinType) : BinType :=
  { length := t.length, cost := t.cost, copies := t.copies, copiesMin := t.copiesMin,
    maximumWeight := t.maximumWeight, eligibilityIds := t.eligibilityIds,
    resources := t.resources.map strip }

/-- A builder with other bin types. -/
def withBinTypes (b : InstanceBuilder) (l : List BinType) : InstanceBuilder :=
  { b with inst := { b.inst with binTypes := l } }

/-- A builder with other item types. -/
def withItemTypes (b : InstanceBuilder) (l : List ItemType) : InstanceBuilder :=
  { b with inst := { b.inst with itemTypes := l } }

theorem modifyBin_last {b b' : InstanceBuilder} {l : List BinType} {x : BinType}
    {f : BinType → Except Err BinType}
    (h : (withBinTypes b (l ++ [x])).modifyBin l.length f = .ok b') :
    ∃ y, f x = .ok y ∧ b' = withBinTypes b (l ++ [y]) := by
  obtain ⟨-, t, ht, rfl⟩ := modifyBin_ok h
  have : (withBinTypes b (l ++ [x])).inst.binType l.length = x := by
    simp [withBinTypes, Instance.binType]
  rw [this] at ht
  exact ⟨t, ht, by simp [withBinTypes]⟩

theorem modifyItem_last {b b' : InstanceBuilder} {l : List ItemType} {x : ItemType}
    {f : ItemType → Except Err ItemType}
    (h : (withItemTypes b (l ++ [x])).modifyItem l.length f = .ok b') :
    ∃ y, f x = .ok y ∧ b' = withItemTypes b (l ++ [y]) := by
  obtain ⟨-, t, ht, rfl⟩ := modifyItem_ok h
  have : (withItemTypes b (l ++ [x])).inst.itemType l.length = x := by
    simp [withItemTypes, Instance.itemType]
  rw [this] at ht
  exact ⟨t, ht, by simp [withItemTypes]⟩

theorem addEligibilities_last {b b' : InstanceBuilder} {l : List BinType} {x : BinType}
    {es : List Int}
    (h : (withBinTypes b (l ++ [x])).addEligibilities l.length es = .ok b') :
    b' = withBinTypes b (l ++ [{ x with eligibilityIds := x.eligibilityIds ++ es }]) := by
  induction es generalizing x with
  | nil => simp [addEligibilities, pure, Except.pure] at h; simp [← h]
  | cons e es ih =>
    unfold addEligibilities at h
    obtain ⟨b1, h1, h2⟩ := foldlM_cons_ok.mp h
    obtain ⟨y, hy, rfl⟩ := modifyBin_last h1
    cases hy
    rw [ih h2]
    simp

theorem addResources_last {b b' : InstanceBuilder} {l : List BinType} {x : BinType}
    {rs : List Resource}
    (h : rs.foldlM (fun b r => b.addBinTypeResource l.length r.capacity r.penalize r.penalty)
      (withBinTypes b (l ++ [x])) = .ok b') :
    b' = withBinTypes b (l ++ [{ x with resources := x.resources ++ rs.map strip }]) := by
  induction rs generalizing x with
  | nil => simp [pure, Except.pure] at h; simp [← h]
  | cons r rs ih =>
    obtain ⟨b1, h1, h2⟩ := foldlM_cons_ok.mp h
    obtain ⟨y, hy, rfl⟩ := modifyBin_last h1
    cases hy
    rw [ih h2]
    simp [strip]

/-- Effect of `add_bin_type(instance, id)`. -/
theorem addBinTypeFrom_ok {b b' : InstanceBuilder} {orig : Instance} {i : Nat}
    (hc : 0 < (orig.binType i).cost) (h : b.addBinTypeFrom orig i = .ok b') :
    i < orig.binTypes.length ∧
    b' = withBinTypes { b with
      origToSubBin := (growTo none (i + 1) b.origToSubBin).set i (some b.inst.binTypes.length) }
      (b.inst.binTypes ++ [copyBin (orig.binType i)]) := by
  unfold addBinTypeFrom at h
  split_ifs at h with hi
  obtain ⟨b1, h1, h⟩ := bind_ok.mp h
  obtain ⟨b2, h2, h⟩ := bind_ok.mp h
  obtain ⟨b3, h3, h⟩ := bind_ok.mp h
  obtain ⟨b4, h4, h⟩ := bind_ok.mp h
  obtain ⟨b5, h5, h⟩ := bind_ok.mp h
  obtain ⟨b6, h6, h7⟩ := bind_ok.mp h
  clear h
  refine ⟨by omega, ?_⟩
  unfold addBinType at h1
  split_ifs at h1 with hl
  cases h1
  change setBinTypeCost (withBinTypes { b with
      origToSubBin := (growTo none (i + 1) b.origToSubBin).set i (some b.inst.binTypes.length) }
      (b.inst.binTypes ++ [_])) _ _ = _ at h2
  obtain ⟨y2, hy2, rfl⟩ := modifyBin_last h2
  split_ifs at hy2 with hc1 hc2
  · rw [hc2] at hc; norm_num at hc
  cases hy2
  obtain ⟨y3, hy3, rfl⟩ := modifyBin_last h3
  dsimp only at hy3
  split_ifs at hy3 with hc1
  cases hy3
  obtain ⟨y4, hy4, rfl⟩ := modifyBin_last h4
  dsimp only at hy4
  split_ifs at hy4 with hc1
  cases hy4
  obtain ⟨y5, hy5, rfl⟩ := modifyBin_last h5
  cases hy5
  rw [addEligibilities_last h6] at h7
  rw [addResources_last h7]
  simp [copyBin]

/-! ### Item types -/

/-- The item type appended by `add_item_type(instance, id)`. -/
def copyItem (t : ItemType) : ItemType :=
  { length := t.length, profit := t.profit, copies := t.copies, copiesMin := -1,
    weight := t.weight, nestingLength := t.nestingLength,
    maximumStackability := t.maximumStackability, maximumWeightAfter := t.maximumWeightAfter,
    eligibilityId := t.eligibilityId }

/-- Schedule of item type `j` for resource `r` of bin type `k`. -/
def bsched (l : List BinType) (k r j : Nat) : List ℚ :=
  sched ((l.getD k default).resources.getD r {}) j

/-- `l'` is `l` with other schedules. -/
structure SameShape (l l' : List BinType) : Prop where
  length : l'.length = l.length
  data : ∀ k, { l'.getD k default with resources := [] } = { l.getD k default with resources := [] }
  resources : ∀ k, (l'.getD k default).resources.map strip = (l.getD k default).resources.map strip

theorem SameShape.refl (l : List BinType) : SameShape l l := ⟨rfl, fun _ => rfl, fun _ => rfl⟩

theorem SameShape.trans {l l' l'' : List BinType} (h : SameShape l l') (h' : SameShape l' l'') :
    SameShape l l'' :=
  ⟨h'.length.trans h.length, fun k => (h'.data k).trans (h.data k),
    fun k => (h'.resources k).trans (h.resources k)⟩

theorem SameShape.nres {l l' : List BinType} (h : SameShape l l') (k : Nat) :
    (l'.getD k default).resources.length = (l.getD k default).resources.length := by
  have := congrArg List.length (h.resources k)
  simpa using this

/-- Effect of `add_resource_consumption`. -/
theorem addResourceConsumption_ok {b b' : InstanceBuilder} {t r i c : Nat} {q : ℚ}
    (h : b.addResourceConsumption t r i c q = .ok b') :
    ∃ l, b' = withBinTypes b l ∧ SameShape b.inst.binTypes l
      ∧ ∀ k s j, bsched l k s j = if k = t ∧ s = r ∧ j = i
          then (growTo 0 (c + 1) (bsched b.inst.binTypes t r i)).set c q
          else bsched b.inst.binTypes k s j := by
  obtain ⟨ht, y, hy, rfl⟩ := modifyBin_ok h
  split_ifs at hy with h1 h2
  cases hy
  have hr : r < (b.inst.binType t).resources.length := by omega
  refine ⟨_, rfl, ⟨by simp, fun k => ?_, fun k => ?_⟩, fun k s j => ?_⟩
  · rw [getD_set' _ _ _ _ _ ht]
    by_cases hk : k = t
    · rw [if_pos hk, hk]; rfl
    · rw [if_neg hk]
  · rw [getD_set' _ _ _ _ _ ht]
    by_cases hk : k = t
    · rw [if_pos hk, hk]
      dsimp only
      change _ = (b.inst.binType t).resources.map strip
      apply List.ext_getElem?
      intro s
      simp only [List.getElem?_map, List.getElem?_modify]
      cases (b.inst.binType t).resources[s]? with
      | none => rfl
      | some x => by_cases hs : r = s <;> simp [hs, strip, Resource.addConsumption]
    · rw [if_neg hk]
  · unfold bsched
    rw [getD_set' _ _ _ _ _ ht]
    by_cases hk : k = t
    · rw [if_pos hk, hk]
      dsimp only
      by_cases hs : s = r
      · rw [hs]
        have : ((b.inst.binType t).resources.modify r
            (fun r => r.addConsumption i (c : Int).toNat q)).getD r {}
            = ((b.inst.binType t).resources.getD r {}).addConsumption i c q := by
          rw [List.getD_eq_getElem _ _ (by simpa using hr), List.getD_eq_getElem _ _ hr]
          simp
        rw [this, sched_add]
        by_cases hj : j = i
        · simp [hj, Instance.binType]
        · simp [hj, Instance.binType]
      · rw [if_neg (by tauto)]
        have : ((b.inst.binType t).resources.modify r
            (fun r => r.addConsumption i (c : Int).toNat q)).getD s {}
            = ((b.inst.binType t).resources.getD s {}) := by
          simp only [List.getD_eq_getElem?_getD, List.getElem?_modify]
          simp [Ne.symm hs]
        rw [this]; rfl
    · rw [if_neg hk, if_neg (by tauto)]

theorem withBinTypes_self (b : InstanceBuilder) : withBinTypes b b.inst.binTypes = b := rfl

/-- Effect of writing a schedule where there was none. -/
theorem writeSchedule_ok {b b' : InstanceBuilder} {t r i : Nat} {sch : List ℚ}
    (h0 : bsched b.inst.binTypes t r i = []) (h : b.writeSchedule t r i sch = .ok b') :
    ∃ l, b' = withBinTypes b l ∧ SameShape b.inst.binTypes l
      ∧ ∀ k s j, bsched l k s j = if k = t ∧ s = r ∧ j = i then sch
          else bsched b.inst.binTypes k s j := by
  have := foldlM_range_inv (n := sch.length) (P := fun n b' => ∃ l, b' = withBinTypes b l
      ∧ SameShape b.inst.binTypes l
      ∧ ∀ k s j, bsched l k s j = if k = t ∧ s = r ∧ j = i then sch.take n
          else bsched b.inst.binTypes k s j)
    ⟨b.inst.binTypes, rfl, SameShape.refl _, fun k s j => by
      by_cases hk : k = t ∧ s = r ∧ j = i
      · rw [if_pos hk, hk.1, hk.2.1, hk.2.2, h0]; rfl
      · rw [if_neg hk]⟩ ?_ h
  · simpa using this
  · intro n a b2 hn ha hs
    obtain ⟨l, rfl, hsh, hl⟩ := ha
    obtain ⟨l', rfl, hsh', hl'⟩ := addResourceConsumption_ok hs
    refine ⟨l', rfl, hsh.trans hsh', fun k s j => ?_⟩
    rw [hl']
    change (if _ then (growTo 0 (n + 1) (bsched l t r i)).set n _ else bsched l k s j) = _
    by_cases hk : k = t ∧ s = r ∧ j = i
    · rw [if_pos hk, if_pos hk, hl, if_pos ⟨rfl, rfl, rfl⟩]
      rw [take_succ_getD sch n 0 hn]
      unfold growTo
      have : n + 1 - (sch.take n).length = 1 := by simp; omega
      rw [this, List.set_append_right _ _ (by simp)]
      have : n - (sch.take n).length = 0 := by simp; omega
      rw [this]; rfl
    · rw [if_neg hk, if_neg hk, hl, if_neg hk]

/-- Effect of the consumption-copying loops for a new item type `i`. -/
theorem copyConsumptions_ok {b b' : InstanceBuilder} {orig : Instance} {oi i : Nat}
    {binIds : List Nat}
    (hmap : ∀ o, b.origToSubBin.getD o none = binIds.idxOf? o)
    (hnd : binIds.Nodup)
    (h0 : ∀ k r, bsched b.inst.binTypes k r i = [])
    (h : b.copyConsumptions orig oi i = .ok b') :
    ∃ l, b' = withBinTypes b l ∧ SameShape b.inst.binTypes l
      ∧ ∀ k s j, bsched l k s j = if k < binIds.length ∧ j = i
          then bsched orig.binTypes (binIds.getD k 0) s oi
          else bsched b.inst.binTypes k s j := by
  have key := foldlM_range_inv (n := b.origToSubBin.length) (P := fun n b' => ∃ l,
      b' = withBinTypes b l ∧ SameShape b.inst.binTypes l
      ∧ ∀ k s j, bsched l k s j = if k < binIds.length ∧ binIds.getD k 0 < n ∧ j = i
          then bsched orig.binTypes (binIds.getD k 0) s oi
          else bsched b.inst.binTypes k s j)
    ⟨b.inst.binTypes, rfl, SameShape.refl _, fun k s j => by simp⟩ ?_ h
  · obtain ⟨l, h1, h2, h3⟩ := key
    refine ⟨l, h1, h2, fun k s j => ?_⟩
    rw [h3]
    by_cases hk : k < binIds.length ∧ j = i
    · rw [if_pos hk, if_pos]
      refine ⟨hk.1, ?_, hk.2⟩
      by_contra hn
      have h5 := hmap (binIds.getD k 0)
      rw [List.getD_eq_default _ _ (by omega)] at h5
      have h6 : binIds.getD k 0 ∈ binIds := getD_mem _ hk.1
      have h7 := List.idxOf?_eq_none_iff.mp h5.symm
      exact h7 h6
    · rw [if_neg hk, if_neg (by tauto)]
  · intro n a b2 hn ha hs
    obtain ⟨l, rfl, hsh, hl⟩ := ha
    change (match b.origToSubBin.getD n none with | none => _ | some subBinId => _) = _ at hs
    rw [hmap] at hs
    cases ho : binIds.idxOf? n with
    | none =>
      rw [ho] at hs
      cases hs
      refine ⟨l, rfl, hsh, fun k s j => ?_⟩
      rw [hl]
      have hni := List.idxOf?_eq_none_iff.mp ho
      have hiff : (k < binIds.length ∧ binIds.getD k 0 < n ∧ j = i)
          ↔ (k < binIds.length ∧ binIds.getD k 0 < n + 1 ∧ j = i) := by
        constructor
        · rintro ⟨a1, a2, a3⟩; exact ⟨a1, by omega, a3⟩
        · rintro ⟨a1, a2, a3⟩
          refine ⟨a1, ?_, a3⟩
          have : binIds.getD k 0 ≠ n := fun he => hni (he ▸ getD_mem _ a1)
          omega
      simp only [hiff]
    | some s0 =>
      rw [ho] at hs
      simp only at hs
      split_ifs at hs with hge
      obtain ⟨hs0, hs1⟩ : s0 < binIds.length ∧ binIds.getD s0 0 = n := by
        have := List.idxOf?_eq_some_iff.mp ho
        obtain ⟨h1, h2, -⟩ := this
        exact ⟨h1, by rw [List.getD_eq_getElem _ _ h1]; exact h2⟩
      have huniq : ∀ k, k < binIds.length → binIds.getD k 0 = n → k = s0 := by
        intro k hk hkn
        have : binIds[k] = binIds[s0] := by
          rw [← List.getD_eq_getElem _ 0 hk, ← List.getD_eq_getElem _ 0 hs0, hkn, hs1]
        exact (List.Nodup.getElem_inj_iff hnd).mp this
      -- inner loop over resources
      have inner := foldlM_range_inv (n := (orig.binType n).resources.length)
        (P := fun m b' => ∃ l', b' = withBinTypes b l' ∧ SameShape l l'
          ∧ ∀ k s j, bsched l' k s j = if k = s0 ∧ s < m ∧ j = i
              then bsched orig.binTypes n s oi else bsched l k s j)
        ⟨l, rfl, SameShape.refl _, fun k s j => by simp⟩ ?_ hs
      · obtain ⟨l', rfl, hsh', hl'⟩ := inner
        refine ⟨l', rfl, hsh.trans hsh', fun k s j => ?_⟩
        rw [hl', hl]
        by_cases hk : k = s0 ∧ j = i
        · obtain ⟨hk, hj⟩ := hk
          subst hk
          rw [if_pos (c := k < binIds.length ∧ binIds.getD k 0 < n + 1 ∧ j = i)
            ⟨hs0, by omega, hj⟩, hs1]
          by_cases hsm : s < (orig.binType n).resources.length
          · rw [if_pos ⟨rfl, hsm, hj⟩]
          · rw [if_neg (by tauto), if_neg (by omega)]
            subst hj
            rw [h0]
            unfold bsched
            have : (orig.binTypes.getD n default).resources.getD s {} = {} := by
              rw [List.getD_eq_default]
              exact not_lt.mp hsm
            rw [this]; rfl
        · rw [if_neg (by tauto)]
          have hiff : (k < binIds.length ∧ binIds.getD k 0 < n ∧ j = i)
              ↔ (k < binIds.length ∧ binIds.getD k 0 < n + 1 ∧ j = i) := by
            constructor
            · rintro ⟨a1, a2, a3⟩; exact ⟨a1, by omega, a3⟩
            · rintro ⟨a1, a2, a3⟩
              refine ⟨a1, ?_, a3⟩
              have : binIds.getD k 0 ≠ n := fun he => hk ⟨huniq k a1 he, a3⟩
              omega
          simp only [hiff]
      · intro m a' b3 hm ha' hs'
        obtain ⟨l', rfl, hsh', hl'⟩ := ha'
        have hz : bsched l' s0 m i = [] := by
          rw [hl', if_neg (by omega), hl, if_neg (by omega), h0]
        have hval : ((orig.binType n).resources.getD m {}).itemConsumptions.getD oi []
            = bsched orig.binTypes n m oi := rfl
        split_ifs at hs' with hlen
        · cases hs'
          refine ⟨l', rfl, hsh', fun k s j => ?_⟩
          rw [hl']
          by_cases hk : k = s0 ∧ s = m ∧ j = i
          · obtain ⟨rfl, rfl, rfl⟩ := hk
            rw [if_neg (by omega), if_pos ⟨rfl, by omega, rfl⟩, ← hval,
              List.getD_eq_default _ _ hlen, hl, if_neg (by omega), h0]
          · have hiff : (k = s0 ∧ s < m ∧ j = i) ↔ (k = s0 ∧ s < m + 1 ∧ j = i) := by
              constructor
              · rintro ⟨a1, a2, a3⟩; exact ⟨a1, by omega, a3⟩
              · rintro ⟨a1, a2, a3⟩
                refine ⟨a1, ?_, a3⟩
                have : s ≠ m := fun he => hk ⟨a1, he, a3⟩
                omega
            simp only [hiff]
        · obtain ⟨l'', rfl, hsh'', hl''⟩ := writeSchedule_ok (b := withBinTypes b l') hz hs'
          refine ⟨l'', rfl, hsh'.trans hsh'', fun k s j => ?_⟩
          rw [hl'']
          change (if _ then _ else bsched l' k s j) = _
          rw [hval]
          by_cases hk : k = s0 ∧ s = m ∧ j = i
          · obtain ⟨rfl, rfl, rfl⟩ := hk
            rw [if_pos ⟨rfl, rfl, rfl⟩, if_pos ⟨rfl, by omega, rfl⟩]
          · rw [if_neg hk, hl']
            have hiff : (k = s0 ∧ s < m ∧ j = i) ↔ (k = s0 ∧ s < m + 1 ∧ j = i) := by
              constructor
              · rintro ⟨a1, a2, a3⟩; exact ⟨a1, by omega, a3⟩
              · rintro ⟨a1, a2, a3⟩
                refine ⟨a1, ?_, a3⟩
                have : s ≠ m := fun he => hk ⟨a1, he, a3⟩
                omega
            simp only [hiff]

/-- Effect of `add_item_type(instance, id)`. -/
theorem addItemTypeFrom_ok {b b' : InstanceBuilder} {orig : Instance} {oi : Nat}
    {binIds : List Nat}
    (hmap : ∀ o, b.origToSubBin.getD o none = binIds.idxOf? o) (hnd : binIds.Nodup)
    (h0 : ∀ k r, bsched b.inst.binTypes k r b.inst.itemTypes.length = [])
    (h : b.addItemTypeFrom orig oi = .ok b') :
    oi < orig.itemTypes.length ∧ ∃ l, SameShape b.inst.binTypes l
      ∧ (∀ k s j, bsched l k s j = if k < binIds.length ∧ j = b.inst.itemTypes.length
          then bsched orig.binTypes (binIds.getD k 0) s oi
          else bsched b.inst.binTypes k s j)
      ∧ b'.inst = { b.inst with
          itemTypes := b.inst.itemTypes ++ [copyItem (orig.itemType oi)], binTypes := l }
      ∧ b'.origToSubBin = b.origToSubBin
      ∧ b'.pending = (b.recordPending (orig.itemType oi) b.inst.itemTypes.length).pending := by
  unfold addItemTypeFrom at h
  split_ifs at h with hi
  obtain ⟨b2, h2, h⟩ := bind_ok.mp h
  obtain ⟨b3, h3, h⟩ := bind_ok.mp h
  obtain ⟨b4, h4, h⟩ := bind_ok.mp h
  obtain ⟨b5, h5, h⟩ := bind_ok.mp h
  obtain ⟨b6, h6, h⟩ := bind_ok.mp h
  obtain ⟨b7, h7, h⟩ := bind_ok.mp h
  obtain ⟨b8, h8, h⟩ := bind_ok.mp h
  obtain ⟨b9, h9, h10⟩ := bind_ok.mp h
  clear h
  change setItemTypeProfit (withItemTypes { b with
      origToSubItem := (growTo none (oi + 1) b.origToSubItem).set oi
        (some b.inst.itemTypes.length) }
      (b.inst.itemTypes ++ [_])) _ _ = _ at h2
  obtain ⟨y2, hy2, rfl⟩ := modifyItem_last h2
  cases hy2
  obtain ⟨y3, hy3, rfl⟩ := modifyItem_last h3
  dsimp only at hy3
  split_ifs at hy3 with hc1
  cases hy3
  obtain ⟨y4, hy4, rfl⟩ := modifyItem_last h4
  cases hy4
  obtain ⟨y5, hy5, rfl⟩ := modifyItem_last h5
  cases hy5
  obtain ⟨y6, hy6, rfl⟩ := modifyItem_last h6
  cases hy6
  obtain ⟨y7, hy7, rfl⟩ := modifyItem_last h7
  cases hy7
  obtain ⟨y8, hy8, rfl⟩ := modifyItem_last h8
  cases hy8
  obtain ⟨l, rfl, hsh, hl⟩ := copyConsumptions_ok (binIds := binIds) (by exact hmap) hnd
    (by exact h0) h9
  cases h10
  exact ⟨by omega, l, hsh, hl, rfl, rfl, rfl⟩

/-! ### Pending precedences -/

/-- Reading a `pending` entry. -/
def pend (p : List (Option Nat × Option Nat)) (k : Nat) : Option Nat × Option Nat :=
  p.getD k (none, none)

theorem pend_fold1 (ids : List Nat) (id : Nat) (p : List (Option Nat × Option Nat)) (k : Nat) :
    pend (ids.foldl (fun p k => (growTo (none, none) (k + 1) p).modify k
      (fun x => (some id, x.2))) p) k
      = (if k ∈ ids then some id else (pend p k).1, (pend p k).2)
    ∧ (ids.foldl (fun p k => (growTo (none, none) (k + 1) p).modify k
      (fun x => (some id, x.2))) p).length
      = ids.foldl (fun n k => max (k + 1) n) p.length := by
  induction ids generalizing p with
  | nil => simp
  | cons a ids ih =>
    simp only [List.foldl_cons]
    obtain ⟨h1, h2⟩ := ih ((growTo (none, none) (a + 1) p).modify a (fun x => (some id, x.2)))
    rw [h1, h2]
    have hp : pend ((growTo (none, none) (a + 1) p).modify a (fun x => (some id, x.2))) k
        = if k = a then (some id, (pend p k).2) else pend p k := by
      have hg := getD_growTo (none, none) (a + 1) p k
      unfold pend
      rw [← hg]
      simp only [List.getD_eq_getElem?_getD, List.getElem?_modify]
      by_cases hk : k = a
      · subst hk
        have hlt : k < (growTo ((none : Option Nat), (none : Option Nat)) (k + 1) p).length := by
          rw [length_growTo]; omega
        rw [List.getElem?_eq_getElem hlt]
        simp
      · simp [hk, Ne.symm hk]
    constructor
    · rw [hp]
      by_cases hk : k = a
      · subst hk; simp
      · simp [hk]
    · rw [List.length_modify, length_growTo]

theorem pend_fold2 (ids : List Nat) (id : Nat) (p : List (Option Nat × Option Nat)) (k : Nat) :
    pend (ids.foldl (fun p k => (growTo (none, none) (k + 1) p).modify k
      (fun x => (x.1, some id))) p) k
      = ((pend p k).1, if k ∈ ids then some id else (pend p k).2)
    ∧ (ids.foldl (fun p k => (growTo (none, none) (k + 1) p).modify k
      (fun x => (x.1, some id))) p).length
      = ids.foldl (fun n k => max (k + 1) n) p.length := by
  induction ids generalizing p with
  | nil => simp
  | cons a ids ih =>
    simp only [List.foldl_cons]
    obtain ⟨h1, h2⟩ := ih ((growTo (none, none) (a + 1) p).modify a (fun x => (x.1, some id)))
    rw [h1, h2]
    have hp : pend ((growTo (none, none) (a + 1) p).modify a (fun x => (x.1, some id))) k
        = if k = a then ((pend p k).1, some id) else pend p k := by
      have hg := getD_growTo (none, none) (a + 1) p k
      unfold pend
      rw [← hg]
      simp only [List.getD_eq_getElem?_getD, List.getElem?_modify]
      by_cases hk : k = a
      · subst hk
        have hlt : k < (growTo ((none : Option Nat), (none : Option Nat)) (k + 1) p).length := by
          rw [length_growTo]; omega
        rw [List.getElem?_eq_getElem hlt]
        simp
      · simp [hk, Ne.symm hk]
    constructor
    · rw [hp]
      by_cases hk : k = a
      · subst hk; simp
      · simp [hk]
    · rw [List.length_modify, length_growTo]

theorem pend_record (b : InstanceBuilder) (t : ItemType) (id k : Nat) :
    pend (b.recordPending t id).pending k
      = (if k ∈ t.dominatedPrecedenceIds then some id else (pend b.pending k).1,
         if k ∈ t.dominatingPrecedenceIds then some id else (pend b.pending k).2) := by
  unfold recordPending
  dsimp only
  rw [(pend_fold2 _ _ _ _).1, (pend_fold1 _ _ _ _).1]

/-- An item type without its precedence ids. -/
def noPrec (t : ItemType) : ItemType :=
  { t with dominatedPrecedenceIds := [], dominatingPrecedenceIds := [] }

/-- The precedences added at the end: one per fully known pending entry. -/
theorem finalize_ok {b b' : InstanceBuilder} (h : b.finalizePrecedences = .ok b') :
    (∀ d g, (d, g) ∈ b'.inst.precedences ↔ (d, g) ∈ b.inst.precedences
      ∨ (some d, some g) ∈ b.pending)
    ∧ b'.inst.binTypes = b.inst.binTypes
    ∧ b'.inst.objective = b.inst.objective
    ∧ b'.inst.itemTypes.map noPrec
      = b.inst.itemTypes.map noPrec := by
  unfold finalizePrecedences at h
  have : ∀ (l : List (Option Nat × Option Nat)) (b b' : InstanceBuilder),
      l.foldlM (fun b p => match p with
      | (some d, some g) => b.addItemTypePrecedence d g
      | _ => .ok b) b = .ok b' →
      (∀ d g, (d, g) ∈ b'.inst.precedences ↔ (d, g) ∈ b.inst.precedences
        ∨ (some d, some g) ∈ l)
      ∧ b'.inst.binTypes = b.inst.binTypes
      ∧ b'.inst.objective = b.inst.objective
      ∧ b'.inst.itemTypes.map noPrec
        = b.inst.itemTypes.map noPrec := by
    intro l
    induction l with
    | nil => intro b b' h; simp [pure, Except.pure] at h; simp [h]
    | cons p l ih =>
      intro b b' h
      obtain ⟨b1, h1, h2⟩ := foldlM_cons_ok.mp h
      obtain ⟨i1, i2, i3, i4⟩ := ih b1 b' h2
      rcases p with ⟨_ | d0, _ | g0⟩
      · cases h1; refine ⟨fun d g => ?_, i2, i3, i4⟩; rw [i1]; simp
      · cases h1; refine ⟨fun d g => ?_, i2, i3, i4⟩; rw [i1]; simp
      · cases h1; refine ⟨fun d g => ?_, i2, i3, i4⟩; rw [i1]; simp
      · simp only at h1
        unfold addItemTypePrecedence at h1
        dsimp only at h1
        split_ifs at h1
        cases h1
        refine ⟨fun d g => ?_, i2, i3, ?_⟩
        · rw [i1]; simp; tauto
        · rw [i4]
          apply List.ext_getElem?
          intro s
          simp only [List.getElem?_map, List.getElem?_modify]
          cases b.inst.itemTypes[s]? with
          | none => rfl
          | some x => by_cases hs : d0 = s <;> by_cases hs' : g0 = s <;> simp [hs, hs', noPrec]
  exact this _ _ _ h

end PackingSolver.OneDim
