import Verif.Lemmas.Guil.InstParams
import Verif.Props.Resource
import Verif.Spec.GuillotineCopy

/-! Helper lemmas: effect of the copying overloads of the guillotine instance builder. -/

namespace PackingSolver.Guil

open InstanceBuilder
open Guil.Spec hiding IsMaxWithZero
open PackingSolver.OneDim (getD_mem take_succ_getD)
open PackingSolver.ResourceLemmas (sched sched_add getD_set')

/-! ### Bin types -/

/-- A resource without its consumptions. -/
def bare (r : Resource) : Resource :=
  { capacity := r.capacity, penalize := r.penalize, penalty := r.penalty }

/-- The bin type appended by `add_bin_type(instance, id)`. -/
def copyBin (t : BinType) : BinType :=
  { t with fixedItems := [], resources := t.resources.map bare }

/-- A builder with other bin types. -/
def withBinTypes (b : InstanceBuilder) (l : List BinType) : InstanceBuilder :=
  { b with inst := { b.inst with binTypes := l } }

/-- A builder with other item types. -/
def withItemTypes (b : InstanceBuilder) (l : List ItemType) : InstanceBuilder :=
  { b with inst := { b.inst with itemTypes := l } }

theorem modifyBin_last {b b' : InstanceBuilder} {l : List BinType} {x : BinType}
    {f : BinType → Except Err BinType}
    (h : (withBinTypes b (l ++ [x])).modifyBin l.length f = .ok b') :
    ∃ y, f x = .ok y ∧ b' = withBinTypes b (l ++ [y]) := by
  obtain ⟨-, t, ht, rfl⟩ := modifyBin_ok h
  have : (withBinTypes b (l ++ [x])).inst.binType l.length = x := by
    simp [withBinTypes, Instance.binType]
  rw [this] at ht
  exact ⟨t, ht, by simp [withBinTypes]⟩

theorem modifyItem_last {b b' : InstanceBuilder} {l : List ItemType} {x : ItemType}
    {f : ItemType → Except Err ItemType}
    (h : (withItemTypes b (l ++ [x])).modifyItem l.length f = .ok b') :
    ∃ y, f x = .ok y ∧ b' = withItemTypes b (l ++ [y]) := by
  obtain ⟨-, t, ht, rfl⟩ := modifyItem_ok h
  have : (withItemTypes b (l ++ [x])).inst.itemType l.length = x := by
    simp [withItemTypes, Instance.itemType]
  rw [this] at ht
  exact ⟨t, ht, by simp [withItemTypes]⟩

theorem addDefects_last {b b' : InstanceBuilder} {l : List BinType} {x : BinType}
    {ds : List Defect}
    (h : (withBinTypes b (l ++ [x])).addDefects l.length ds = .ok b') :
    b' = withBinTypes b (l ++ [{ x with defects := x.defects ++ ds }]) := by
  induction ds generalizing x with
  | nil => simp [addDefects, pure, Except.pure] at h; simp [← h]
  | cons d ds ih =>
    unfold addDefects at h
    obtain ⟨b1, h1, h2⟩ := foldlM_cons_ok.mp h
    obtain ⟨y, hy, rfl⟩ := modifyBin_last h1
    cases hy
    rw [ih h2]
    simp

theorem addResources_last {b b' : InstanceBuilder} {l : List BinType} {x : BinType}
    {rs : List Resource}
    (h : (withBinTypes b (l ++ [x])).addResources l.length rs = .ok b') :
    b' = withBinTypes b (l ++ [{ x with resources := x.resources ++ rs.map bare }]) := by
  induction rs generalizing x with
  | nil => simp [addResources, pure, Except.pure] at h; simp [← h]
  | cons r rs ih =>
    unfold addResources at h
    obtain ⟨b1, h1, h2⟩ := foldlM_cons_ok.mp h
    obtain ⟨y, hy, rfl⟩ := modifyBin_last h1
    cases hy
    rw [ih h2]
    simp [bare]

/-- Effect of `add_bin_type(instance, id)`. -/
theorem addBinTypeFrom_ok {b b' : InstanceBuilder} {orig : Instance} {i : Nat}
    (hc : 0 < (orig.binType i).cost) (h : b.addBinTypeFrom orig i = .ok b') :
    i < orig.binTypes.length ∧
    b' = withBinTypes { b with
      origToSubBin := (growTo none (i + 1) b.origToSubBin).set i (some b.inst.binTypes.length) }
      (b.inst.binTypes ++ [copyBin (orig.binType i)]) := by
  unfold addBinTypeFrom at h
  split_ifs at h with hi
  dsimp only at h
  obtain ⟨b1, h1, h⟩ := bind_ok.mp h
  obtain ⟨b2, h2, h⟩ := bind_ok.mp h
  obtain ⟨b3, h3, h⟩ := bind_ok.mp h
  obtain ⟨b4, h4, h⟩ := bind_ok.mp h
  obtain ⟨b5, h5, h⟩ := bind_ok.mp h
  obtain ⟨b6, h6, h7⟩ := bind_ok.mp h
  clear h
  refine ⟨by omega, ?_⟩
  unfold addBinType at h1
  split_ifs at h1 with hl1 hl2
  cases h1
  change setBinTypeCost (withBinTypes { b with
      origToSubBin := (growTo none (i + 1) b.origToSubBin).set i (some b.inst.binTypes.length) }
      (b.inst.binTypes ++ [_])) _ _ = _ at h2
  obtain ⟨y2, hy2, rfl⟩ := modifyBin_last h2
  have hc1 : (orig.binType i).cost ≠ -1 := by intro e; rw [e] at hc; norm_num at hc
  rw [if_neg (by intro hh; exact absurd hc (not_lt.mpr hh.1)), if_neg hc1] at hy2
  cases hy2
  obtain ⟨y3, hy3, rfl⟩ := modifyBin_last h3
  split_ifs at hy3 with hc1
  cases hy3
  obtain ⟨y4, hy4, rfl⟩ := modifyBin_last h4
  split_ifs at hy4 with hc1
  cases hy4
  obtain ⟨y5, hy5, rfl⟩ := modifyBin_last h5
  split_ifs at hy5
  cases hy5
  rw [addDefects_last h6] at h7
  rw [addResources_last h7]
  simp [copyBin, trimsOf]

/-! ### Item types -/

/-- The item type appended by `add_item_type(instance, id)`. -/
def copyItem (t : ItemType) : ItemType :=
  { w := t.w
    h := t.h
    profit := t.profit
    copies := t.copies
    copiesMin := -1
    stackId := t.stackId
    oriented := t.oriented }

/-- Schedule of item type `j` for resource `r` of bin type `k`. -/
def bsched (l : List BinType) (k r j : Nat) : List ℚ :=
  sched ((l.getD k default).resources.getD r {}) j

/-- `l'` is `l` with other schedules. -/
structure SameShape (l l' : List BinType) : Prop where
  length : l'.length = l.length
  data : ∀ k, { l'.getD k default with resources := [] } = { l.getD k default with resources := [] }
  resources : ∀ k, (l'.getD k default).resources.map bare = (l.getD k default).resources.map bare

theorem SameShape.refl (l : List BinType) : SameShape l l := ⟨rfl, fun _ => rfl, fun _ => rfl⟩

theorem SameShape.trans {l l' l'' : List BinType} (h : SameShape l l') (h' : SameShape l' l'') :
    SameShape l l'' :=
  ⟨h'.length.trans h.length, fun k => (h'.data k).trans (h.data k),
    fun k => (h'.resources k).trans (h.resources k)⟩

theorem SameShape.nres {l l' : List BinType} (h : SameShape l l') (k : Nat) :
    (l'.getD k default).resources.length = (l.getD k default).resources.length := by
  have := congrArg List.length (h.resources k)
  simpa using this

/-- Effect of `add_resource_consumption`. -/
theorem addResourceConsumption_ok {b b' : InstanceBuilder} {t r i c : Nat} {q : ℚ}
    (h : b.addResourceConsumption t r i c q = .ok b') :
    ∃ l, b' = withBinTypes b l ∧ SameShape b.inst.binTypes l
      ∧ ∀ k s j, bsched l k s j = if k = t ∧ s = r ∧ j = i
          then (growTo 0 (c + 1) (bsched b.inst.binTypes t r i)).set c q
          else bsched b.inst.binTypes k s j := by
  obtain ⟨ht, y, hy, rfl⟩ := modifyBin_ok h
  split_ifs at hy with h1 h2
  cases hy
  have hr : r < (b.inst.binType t).resources.length := by omega
  refine ⟨_, rfl, ⟨by simp, fun k => ?_, fun k => ?_⟩, fun k s j => ?_⟩
  · rw [getD_set' _ _ _ _ _ ht]
    by_cases hk : k = t
    · rw [if_pos hk, hk]; rfl
    · rw [if_neg hk]
  · rw [getD_set' _ _ _ _ _ ht]
    by_cases hk : k = t
    · rw [if_pos hk, hk]
      dsimp only
      change _ = (b.inst.binType t).resources.map bare
      apply List.ext_getElem?
      intro s
      simp only [List.getElem?_map, List.getElem?_modify]
      cases (b.inst.binType t).resources[s]? with
      | none => rfl
      | some x => by_cases hs : r = s <;> simp [hs, bare, Resource.addConsumption]
    · rw [if_neg hk]
  · unfold bsched
    rw [getD_set' _ _ _ _ _ ht]
    by_cases hk : k = t
    · rw [if_pos hk, hk]
      dsimp only
      by_cases hs : s = r
      · rw [hs]
        have : ((b.inst.binType t).resources.modify r
            (fun r => r.addConsumption i (c : Int).toNat q)).getD r {}
            = ((b.inst.binType t).resources.getD r {}).addConsumption i c q := by
          rw [List.getD_eq_getElem _ _ (by simpa using hr), List.getD_eq_getElem _ _ hr]
          simp
        rw [this, sched_add]
        by_cases hj : j = i
        · simp [hj, Instance.binType]
        · simp [hj, Instance.binType]
      · rw [if_neg (by tauto)]
        have : ((b.inst.binType t).resources.modify r
            (fun r => r.addConsumption i (c : Int).toNat q)).getD s {}
            = ((b.inst.binType t).resources.getD s {}) := by
          simp only [List.getD_eq_getElem?_getD, List.getElem?_modify]
          simp [Ne.symm hs]
        rw [this]; rfl
    · rw [if_neg hk, if_neg (by tauto)]

theorem withBinTypes_self (b : InstanceBuilder) : withBinTypes b b.inst.binTypes = b := rfl

/-- Effect of writing a schedule where there was none. -/
theorem writeSchedule_ok {b b' : InstanceBuilder} {t r i : Nat} {sch : List ℚ}
    (h0 : bsched b.inst.binTypes t r i = []) (h : b.writeSchedule t r i sch = .ok b') :
    ∃ l, b' = withBinTypes b l ∧ SameShape b.inst.binTypes l
      ∧ ∀ k s j, bsched l k s j = if k = t ∧ s = r ∧ j = i then sch
          else bsched b.inst.binTypes k s j := by
  have := foldlM_range_inv (n := sch.length) (P := fun n b' => ∃ l, b' = withBinTypes b l
      ∧ SameShape b.inst.binTypes l
      ∧ ∀ k s j, bsched l k s j = if k = t ∧ s = r ∧ j = i then sch.take n
          else bsched b.inst.binTypes k s j)
    ⟨b.inst.binTypes, rfl, SameShape.refl _, fun k s j => by
      by_cases hk : k = t ∧ s = r ∧ j = i
      · rw [if_pos hk, hk.1, hk.2.1, hk.2.2, h0]; rfl
      · rw [if_neg hk]⟩ ?_ h
  · simpa using this
  · intro n a b2 hn ha hs
    obtain ⟨l, rfl, hsh, hl⟩ := ha
    obtain ⟨l', rfl, hsh', hl'⟩ := addResourceConsumption_ok hs
    refine ⟨l', rfl, hsh.trans hsh', fun k s j => ?_⟩
    rw [hl']
    change (if _ then (growTo 0 (n + 1) (bsched l t r i)).set n _ else bsched l k s j) = _
    by_cases hk : k = t ∧ s = r ∧ j = i
    · rw [if_pos hk, if_pos hk, hl, if_pos ⟨rfl, rfl, rfl⟩]
      rw [take_succ_getD sch n 0 hn]
      unfold growTo
      have : n + 1 - (sch.take n).length = 1 := by simp; omega
      rw [this, List.set_append_right _ _ (by simp)]
      have : n - (sch.take n).length = 0 := by simp; omega
      rw [this]; rfl
    · rw [if_neg hk, if_neg hk, hl, if_neg hk]

/-- Effect of the consumption-copying loops for a new item type `i`. -/
theorem copyConsumptions_ok {b b' : InstanceBuilder} {orig : Instance} {oi i : Nat}
    {binIds : List Nat}
    (hmap : ∀ o, b.origToSubBin.getD o none = binIds.idxOf? o)
    (hnd : binIds.Nodup)
    (h0 : ∀ k r, bsched b.inst.binTypes k r i = [])
    (h : b.copyConsumptions orig oi i = .ok b') :
    ∃ l, b' = withBinTypes b l ∧ SameShape b.inst.binTypes l
      ∧ ∀ k s j, bsched l k s j = if k < binIds.length ∧ j = i
          then bsched orig.binTypes (binIds.getD k 0) s oi
          else bsched b.inst.binTypes k s j := by
  have key := foldlM_range_inv (n := b.origToSubBin.length) (P := fun n b' => ∃ l,
      b' = withBinTypes b l ∧ SameShape b.inst.binTypes l
      ∧ ∀ k s j, bsched l k s j = if k < binIds.length ∧ binIds.getD k 0 < n ∧ j = i
          then bsched orig.binTypes (binIds.getD k 0) s oi
          else bsched b.inst.binTypes k s j)
    ⟨b.inst.binTypes, rfl, SameShape.refl _, fun k s j => by simp⟩ ?_ h
  · obtain ⟨l, h1, h2, h3⟩ := key
    refine ⟨l, h1, h2, fun k s j => ?_⟩
    rw [h3]
    by_cases hk : k < binIds.length ∧ j = i
    · rw [if_pos hk, if_pos]
      refine ⟨hk.1, ?_, hk.2⟩
      by_contra hn
      have h5 := hmap (binIds.getD k 0)
      rw [List.getD_eq_default _ _ (by omega)] at h5
      have h6 : binIds.getD k 0 ∈ binIds := getD_mem _ hk.1
      have h7 := List.idxOf?_eq_none_iff.mp h5.symm
      exact h7 h6
    · rw [if_neg hk, if_neg (by tauto)]
  · intro n a b2 hn ha hs
    obtain ⟨l, rfl, hsh, hl⟩ := ha
    change (match b.origToSubBin.getD n none with | none => _ | some subBinId => _) = _ at hs
    rw [hmap] at hs
    cases ho : binIds.idxOf? n with
    | none =>
      rw [ho] at hs
      cases hs
      refine ⟨l, rfl, hsh, fun k s j => ?_⟩
      rw [hl]
      have hni := List.idxOf?_eq_none_iff.mp ho
      have hiff : (k < binIds.length ∧ binIds.getD k 0 < n ∧ j = i)
          ↔ (k < binIds.length ∧ binIds.getD k 0 < n + 1 ∧ j = i) := by
        constructor
        · rintro ⟨a1, a2, a3⟩; exact ⟨a1, by omega, a3⟩
        · rintro ⟨a1, a2, a3⟩
          refine ⟨a1, ?_, a3⟩
          have : binIds.getD k 0 ≠ n := fun he => hni (he ▸ getD_mem _ a1)
          omega
      simp only [hiff]
    | some s0 =>
      rw [ho] at hs
      simp only at hs
      split_ifs at hs with hge
      obtain ⟨hs0, hs1⟩ : s0 < binIds.length ∧ binIds.getD s0 0 = n := by
        have := List.idxOf?_eq_some_iff.mp ho
        obtain ⟨h1, h2, -⟩ := this
        exact ⟨h1, by rw [List.getD_eq_getElem _ _ h1]; exact h2⟩
      have huniq : ∀ k, k < binIds.length → binIds.getD k 0 = n → k = s0 := by
        intro k hk hkn
        have : binIds[k] = binIds[s0] := by
          rw [← List.getD_eq_getElem _ 0 hk, ← List.getD_eq_getElem _ 0 hs0, hkn, hs1]
        exact (List.Nodup.getElem_inj_iff hnd).mp this
      -- inner loop over resources
      have inner := foldlM_range_inv (n := (orig.binType n).resources.length)
        (P := fun m b' => ∃ l', b' = withBinTypes b l' ∧ SameShape l l'
          ∧ ∀ k s j, bsched l' k s j = if k = s0 ∧ s < m ∧ j = i
              then bsched orig.binTypes n s oi else bsched l k s j)
        ⟨l, rfl, SameShape.refl _, fun k s j => by simp⟩ ?_ hs
      · obtain ⟨l', rfl, hsh', hl'⟩ := inner
        refine ⟨l', rfl, hsh.trans hsh', fun k s j => ?_⟩
        rw [hl', hl]
        by_cases hk : k = s0 ∧ j = i
        · obtain ⟨hk, hj⟩ := hk
          subst hk
          rw [if_pos (c := k < binIds.length ∧ binIds.getD k 0 < n + 1 ∧ j = i)
            ⟨hs0, by omega, hj⟩, hs1]
          by_cases hsm : s < (orig.binType n).resources.length
          · rw [if_pos ⟨rfl, hsm, hj⟩]
          · rw [if_neg (by tauto), if_neg (by omega)]
            subst hj
            rw [h0]
            unfold bsched
            have : (orig.binTypes.getD n default).resources.getD s {} = {} := by
              rw [List.getD_eq_default]
              exact not_lt.mp hsm
            rw [this]; rfl
        · rw [if_neg (by tauto)]
          have hiff : (k < binIds.length ∧ binIds.getD k 0 < n ∧ j = i)
              ↔ (k < binIds.length ∧ binIds.getD k 0 < n + 1 ∧ j = i) := by
            constructor
            · rintro ⟨a1, a2, a3⟩; exact ⟨a1, by omega, a3⟩
            · rintro ⟨a1, a2, a3⟩
              refine ⟨a1, ?_, a3⟩
              have : binIds.getD k 0 ≠ n := fun he => hk ⟨huniq k a1 he, a3⟩
              omega
          simp only [hiff]
      · intro m a' b3 hm ha' hs'
        obtain ⟨l', rfl, hsh', hl'⟩ := ha'
        have hz : bsched l' s0 m i = [] := by
          rw [hl', if_neg (by omega), hl, if_neg (by omega), h0]
        have hval : ((orig.binType n).resources.getD m {}).itemConsumptions.getD oi []
            = bsched orig.binTypes n m oi := rfl
        split_ifs at hs' with hlen
        · cases hs'
          refine ⟨l', rfl, hsh', fun k s j => ?_⟩
          rw [hl']
          by_cases hk : k = s0 ∧ s = m ∧ j = i
          · obtain ⟨rfl, rfl, rfl⟩ := hk
            rw [if_neg (by omega), if_pos ⟨rfl, by omega, rfl⟩, ← hval,
              List.getD_eq_default _ _ hlen, hl, if_neg (by omega), h0]
          · have hiff : (k = s0 ∧ s < m ∧ j = i) ↔ (k = s0 ∧ s < m + 1 ∧ j = i) := by
              constructor
              · rintro ⟨a1, a2, a3⟩; exact ⟨a1, by omega, a3⟩
              · rintro ⟨a1, a2, a3⟩
                refine ⟨a1, ?_, a3⟩
                have : s ≠ m := fun he => hk ⟨a1, he, a3⟩
                omega
            simp only [hiff]
        · obtain ⟨l'', rfl, hsh'', hl''⟩ := writeSchedule_ok (b := withBinTypes b l') hz hs'
          refine ⟨l'', rfl, hsh'.trans hsh'', fun k s j => ?_⟩
          rw [hl'']
          change (if _ then _ else bsched l' k s j) = _
          rw [hval]
          by_cases hk : k = s0 ∧ s = m ∧ j = i
          · obtain ⟨rfl, rfl, rfl⟩ := hk
            rw [if_pos ⟨rfl, rfl, rfl⟩, if_pos ⟨rfl, by omega, rfl⟩]
          · rw [if_neg hk, hl']
            have hiff : (k = s0 ∧ s < m ∧ j = i) ↔ (k = s0 ∧ s < m + 1 ∧ j = i) := by
              constructor
              · rintro ⟨a1, a2, a3⟩; exact ⟨a1, by omega, a3⟩
              · rintro ⟨a1, a2, a3⟩
                refine ⟨a1, ?_, a3⟩
                have : s ≠ m := fun he => hk ⟨a1, he, a3⟩
                omega
            simp only [hiff]

/-- Effect of `add_item_type(instance, id)`. -/
theorem addItemTypeFrom_ok {b b' : InstanceBuilder} {orig : Instance} {oi : Nat}
    {binIds : List Nat}
    (hmap : ∀ o, b.origToSubBin.getD o none = binIds.idxOf? o) (hnd : binIds.Nodup)
    (h0 : ∀ k r, bsched b.inst.binTypes k r b.inst.itemTypes.length = [])
    (h : b.addItemTypeFrom orig oi = .ok b') :
    oi < orig.itemTypes.length ∧ ∃ l, SameShape b.inst.binTypes l
      ∧ (∀ k s j, bsched l k s j = if k < binIds.length ∧ j = b.inst.itemTypes.length
          then bsched orig.binTypes (binIds.getD k 0) s oi
          else bsched b.inst.binTypes k s j)
      ∧ b'.inst = { b.inst with
          itemTypes := b.inst.itemTypes ++ [copyItem (orig.itemType oi)], binTypes := l }
      ∧ b'.origToSubBin = b.origToSubBin := by
  unfold addItemTypeFrom at h
  split_ifs at h with hi
  dsimp only at h
  obtain ⟨b1, h1, h⟩ := bind_ok.mp h
  obtain ⟨b2, h2, h⟩ := bind_ok.mp h
  obtain ⟨b3, h3, h4⟩ := bind_ok.mp h
  clear h
  unfold addItemType at h1
  split_ifs at h1 with hw hh
  cases h1
  change setItemTypeProfit (withItemTypes { b with
      origToSubItem := (growTo none (oi + 1) b.origToSubItem).set oi
        (some b.inst.itemTypes.length) }
      (b.inst.itemTypes ++ [_])) _ _ = _ at h2
  obtain ⟨y2, hy2, rfl⟩ := modifyItem_last h2
  cases hy2
  obtain ⟨y3, hy3, rfl⟩ := modifyItem_last h3
  split_ifs at hy3 with hc1
  cases hy3
  obtain ⟨l, rfl, hsh, hl⟩ := copyConsumptions_ok (binIds := binIds) (by exact hmap) hnd
    (by exact h0) h4
  exact ⟨by omega, l, hsh, hl, rfl, rfl⟩

end PackingSolver.Guil

/-! ### Copies that succeed -/

namespace PackingSolver.Guil

open InstanceBuilder
open Guil.Spec hiding IsMaxWithZero
open PackingSolver.OneDim (getD_mem)

theorem modifyBin_last_ok {b : InstanceBuilder} {l : List BinType} {x y : BinType}
    {f : BinType → Except Err BinType} (hf : f x = .ok y) :
    (withBinTypes b (l ++ [x])).modifyBin l.length f = .ok (withBinTypes b (l ++ [y])) := by
  have e : (withBinTypes b (l ++ [x])).inst.binType l.length = x := by
    simp [withBinTypes, Instance.binType]
  unfold modifyBin
  rw [if_neg (by simp [withBinTypes]), e, hf]
  simp [withBinTypes]

theorem modifyItem_last_ok {b : InstanceBuilder} {l : List ItemType} {x y : ItemType}
    {f : ItemType → Except Err ItemType} (hf : f x = .ok y) :
    (withItemTypes b (l ++ [x])).modifyItem l.length f = .ok (withItemTypes b (l ++ [y])) := by
  have e : (withItemTypes b (l ++ [x])).inst.itemType l.length = x := by
    simp [withItemTypes, Instance.itemType]
  unfold modifyItem
  rw [if_neg (by simp [withItemTypes]), e, hf]
  simp [withItemTypes]

theorem bind_exists {α β : Type} {m : Except Err α} {f : α → Except Err β} {a : α}
    (hm : m = .ok a) (hf : ∃ b, f a = .ok b) : ∃ b, (m >>= f) = .ok b := by
  rw [hm]; exact hf

theorem addDefects_last_ok {b : InstanceBuilder} {l : List BinType} {x : BinType}
    {ds : List Defect} : ∃ b', (withBinTypes b (l ++ [x])).addDefects l.length ds = .ok b' := by
  induction ds generalizing x with
  | nil => exact ⟨_, rfl⟩
  | cons d ds ih =>
    unfold addDefects
    rw [List.foldlM_cons]
    exact bind_exists (modifyBin_last_ok (y := { x with
      defects := x.defects ++ [{ x := d.x, y := d.y, w := d.w, h := d.h }] }) rfl) ih

theorem addResources_last_ok {b : InstanceBuilder} {l : List BinType} {x : BinType}
    {rs : List Resource} : ∃ b', (withBinTypes b (l ++ [x])).addResources l.length rs = .ok b' := by
  induction rs generalizing x with
  | nil => exact ⟨_, rfl⟩
  | cons r rs ih =>
    unfold addResources
    rw [List.foldlM_cons]
    exact bind_exists (modifyBin_last_ok (y := { x with
      resources := x.resources ++ [bare r] }) rfl) ih

theorem addBinTypeFrom_total {b : InstanceBuilder} {orig : Instance} {i : Nat}
    (hi : i < orig.binTypes.length) (hC : CopyableBin (orig.binType i)) :
    ∃ b', b.addBinTypeFrom orig i = .ok b' := by
  unfold addBinTypeFrom
  rw [if_neg (by omega)]
  dsimp only
  obtain ⟨⟨hw, hh⟩, hc, hk, ⟨hm, hm'⟩, ⟨ht1, ht2, ht3, ht4⟩, hr1, hr2⟩ := hC
  generalize orig.binType i = t at *
  unfold addBinType
  rw [if_neg (by omega), if_neg (by omega)]
  refine bind_exists rfl ?_
  dsimp only
  generalize hb0 : ({ b with
      origToSubBin := (growTo none (i + 1) b.origToSubBin).set i (some b.inst.binTypes.length) } :
      InstanceBuilder) = b0
  have hl : b0.inst.binTypes = b.inst.binTypes := by rw [← hb0]
  have e0 : ∀ l, ({ inst := { b.inst with binTypes := l }
                    origToSubBin := (growTo none (i + 1) b.origToSubBin).set i
                      (some b.inst.binTypes.length)
                    origToSubItem := b.origToSubItem } : InstanceBuilder) = withBinTypes b0 l := by
    intro l; rw [← hb0]; rfl
  rw [e0]
  refine bind_exists (modifyBin_last_ok
    (if_neg (by intro h; exact absurd hc (not_lt.mpr h.1)))) ?_
  refine bind_exists (modifyBin_last_ok
    (if_neg (by rintro ⟨-, h | h⟩ <;> dsimp only at * <;> omega))) ?_
  refine bind_exists (modifyBin_last_ok (if_neg (by dsimp only; omega))) ?_
  refine bind_exists (modifyBin_last_ok (by
    unfold trimsOf
    dsimp only
    rw [if_neg (by omega), if_neg (by omega), if_neg (by omega), if_neg (by omega),
      if_neg (by omega), if_neg (by omega), if_neg (by omega), if_neg (by omega)])) ?_
  obtain ⟨b5, h5⟩ := addDefects_last_ok (b := b0) (l := b.inst.binTypes) (x := _) (ds := t.defects)
  refine bind_exists h5 ?_
  rw [addDefects_last h5]
  exact addResources_last_ok

/-- Item types are copied whenever the copied bin types have the resources of the originals. -/
theorem addItemTypeFrom_total {b : InstanceBuilder} {orig : Instance} {oi : Nat}
    (hi : oi < orig.itemTypes.length) (hC : CopyableItem (orig.itemType oi))
    (hmap : ∀ x k, b.origToSubBin.getD x none = some k → x < orig.binTypes.length
      ∧ k < b.inst.binTypes.length
      ∧ (b.inst.binType k).resources.length = (orig.binType x).resources.length) :
    ∃ b', b.addItemTypeFrom orig oi = .ok b' := by
  unfold addItemTypeFrom
  rw [if_neg (by omega)]
  dsimp only
  obtain ⟨⟨hw, hh⟩, hk⟩ := hC
  generalize orig.itemType oi = t at *
  unfold addItemType
  rw [if_neg (by omega), if_neg (by omega)]
  refine bind_exists rfl ?_
  dsimp only
  generalize hb0 : ({ b with
      origToSubItem := (growTo none (oi + 1) b.origToSubItem).set oi
        (some b.inst.itemTypes.length) } : InstanceBuilder) = b0
  have e0 : ∀ l, ({ inst := { b.inst with itemTypes := l }
                    origToSubBin := b.origToSubBin
                    origToSubItem := (growTo none (oi + 1) b.origToSubItem).set oi
                      (some b.inst.itemTypes.length) } : InstanceBuilder) = withItemTypes b0 l := by
    intro l; rw [← hb0]; rfl
  have hbins : b0.inst.binTypes = b.inst.binTypes := by rw [← hb0]
  have hm0 : b0.origToSubBin = b.origToSubBin := by rw [← hb0]
  rw [e0]
  refine bind_exists (modifyItem_last_ok rfl) ?_
  refine bind_exists (modifyItem_last_ok (if_neg (by omega))) ?_
  generalize hb3 : withItemTypes b0 _ = b3
  have hbins3 : b3.inst.binTypes = b.inst.binTypes := by rw [← hb3]; exact hbins
  have hm3 : b3.origToSubBin = b.origToSubBin := by rw [← hb3]; exact hm0
  unfold copyConsumptions
  have key := foldlM_range_ok (n := b3.origToSubBin.length) (s := b3)
    (f := fun b origBinId =>
      match b.origToSubBin.getD origBinId none with
      | none => .ok b
      | some subBinId =>
        if origBinId ≥ orig.binTypes.length then .error .ub
        else
          let t := orig.binType origBinId
          (List.range t.resources.length).foldlM
            (fun b r =>
              let ic := (t.resources.getD r {}).itemConsumptions
              if oi ≥ ic.length then .ok b
              else b.writeSchedule subBinId r b0.inst.itemTypes.length (ic.getD oi []))
            b)
    (fun _ c => ∃ l, c = withBinTypes b3 l ∧ SameShape b3.inst.binTypes l)
    ⟨b3.inst.binTypes, rfl, SameShape.refl _⟩ ?_
  · obtain ⟨b', hb', -⟩ := key
    have e : b0.inst.itemTypes.length = b.inst.itemTypes.length := by rw [← hb0]
    rw [e] at hb'
    exact ⟨b', hb'⟩
  · rintro k a - ⟨l, rfl, hsh⟩
    dsimp only
    have em : (withBinTypes b3 l).origToSubBin = b3.origToSubBin := rfl
    rw [em]
    cases hx : b3.origToSubBin.getD k none with
    | none => exact ⟨_, rfl, l, rfl, hsh⟩
    | some sb =>
      rw [hm3] at hx
      obtain ⟨q1, q2, q3⟩ := hmap _ _ hx
      dsimp only
      rw [if_neg (by omega)]
      refine foldlM_range_ok (fun _ c => ∃ l, c = withBinTypes b3 l ∧ SameShape b3.inst.binTypes l)
        ⟨l, rfl, hsh⟩ ?_
      rintro r a hr ⟨l, rfl, hsh⟩
      by_cases hlen : oi ≥ ((orig.binType k).resources.getD r {}).itemConsumptions.length
      · rw [if_pos hlen]; exact ⟨_, rfl, l, rfl, hsh⟩
      rw [if_neg hlen]
      unfold writeSchedule
      refine foldlM_range_ok (fun _ c => ∃ l, c = withBinTypes b3 l ∧ SameShape b3.inst.binTypes l)
        ⟨l, rfl, hsh⟩ ?_
      rintro c a - ⟨l, rfl, hsh⟩
      have hsb : sb < l.length := by rw [hsh.length, hbins3]; exact q2
      have hres : r < (l.getD sb default).resources.length := by
        rw [hsh.nres, hbins3]
        unfold Instance.binType at q3 hr
        omega
      have : ∃ d, addResourceConsumption (withBinTypes b3 l) sb r b0.inst.itemTypes.length c
          ((((orig.binType k).resources.getD r {}).itemConsumptions.getD oi []).getD c 0)
          = .ok d := by
        unfold addResourceConsumption modifyBin
        rw [if_neg (by change ¬ sb ≥ l.length; omega)]
        dsimp only
        rw [if_neg (by change ¬ r ≥ (l.getD sb default).resources.length; omega),
          if_neg (by omega)]
        exact ⟨_, rfl⟩
      obtain ⟨d, hd⟩ := this
      obtain ⟨l', rfl, hsh', -⟩ := addResourceConsumption_ok hd
      exact ⟨_, hd, l', rfl, hsh.trans hsh'⟩

end PackingSolver.Guil
