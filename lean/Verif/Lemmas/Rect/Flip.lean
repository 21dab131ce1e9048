import Verif.Spec.RectFlip
import Verif.Model.Rect.Flipper
import Verif.Lemmas.Rect.Built
import Verif.Lemmas.OneDim.Copy

/-! Helper lemmas: what `InstanceFlipper::flip` builds. -/

namespace PackingSolver.Rect

open InstanceBuilder Rect.Spec
open PackingSolver.OneDim (strip take_succ_getD getD_mem)
open PackingSolver.ResourceLemmas (sched sched_add getD_set')

namespace FlipLemmas

/-- A builder with other bin types. -/
def withBinTypes (b : InstanceBuilder) (l : List BinType) : InstanceBuilder :=
  { b with inst := { b.inst with binTypes := l } }

/-- A builder with other item types. -/
def withItemTypes (b : InstanceBuilder) (l : List ItemType) : InstanceBuilder :=
  { b with inst := { b.inst with itemTypes := l } }

theorem modifyBin_last {b b' : InstanceBuilder} {l : List BinType} {x : BinType}
    {f : BinType → Except Err BinType}
    (h : (withBinTypes b (l ++ [x])).modifyBin l.length f = .ok b') :
    ∃ y, f x = .ok y ∧ b' = withBinTypes b (l ++ [y]) := by
  obtain ⟨-, t, ht, rfl⟩ := modifyBin_ok h
  have : (withBinTypes b (l ++ [x])).inst.binType l.length = x := by
    simp [withBinTypes, Instance.binType]
  rw [this] at ht
  exact ⟨t, ht, by simp [withBinTypes]⟩

theorem modifyItem_last {b b' : InstanceBuilder} {l : List ItemType} {x : ItemType}
    {f : ItemType → Except Err ItemType}
    (h : (withItemTypes b (l ++ [x])).modifyItem l.length f = .ok b') :
    ∃ y, f x = .ok y ∧ b' = withItemTypes b (l ++ [y]) := by
  obtain ⟨-, t, ht, rfl⟩ := modifyItem_ok h
  have : (withItemTypes b (l ++ [x])).inst.itemType l.length = x := by
    simp [withItemTypes, Instance.itemType]
  rw [this] at ht
  exact ⟨t, ht, by simp [withItemTypes]⟩

theorem addDefects_last {b b' : InstanceBuilder} {l : List BinType} {x : BinType}
    {ds : List Defect}
    (h : (withBinTypes b (l ++ [x])).addDefects l.length ds = .ok b') :
    b' = withBinTypes b (l ++ [{ x with defects := x.defects ++ ds }]) := by
  induction ds generalizing x with
  | nil => simp [addDefects, pure, Except.pure] at h; simp [← h]
  | cons e es ih =>
    unfold addDefects at h
    obtain ⟨b1, h1, h2⟩ := foldlM_cons_ok.mp h
    obtain ⟨y, hy, rfl⟩ := modifyBin_last h1
    cases hy
    rw [ih h2]
    simp

theorem addResources_last {b b' : InstanceBuilder} {l : List BinType} {x : BinType}
    {rs : List Resource}
    (h : (withBinTypes b (l ++ [x])).addResources l.length rs = .ok b') :
    b' = withBinTypes b (l ++ [{ x with resources := x.resources ++ rs.map strip }]) := by
  induction rs generalizing x with
  | nil => simp [addResources, pure, Except.pure] at h; simp [← h]
  | cons r rs ih =>
    unfold addResources at h
    obtain ⟨b1, h1, h2⟩ := foldlM_cons_ok.mp h
    obtain ⟨y, hy, rfl⟩ := modifyBin_last h1
    cases hy
    rw [ih h2]
    simp [strip]

/-- The bin type appended by the flipper. -/
def flipBin (t : BinType) : BinType :=
  { x := t.y, y := t.x, cost := if t.cost = -1 then ((t.y * t.x : Int) : ℚ) else t.cost,
    copies := t.copies, copiesMin := t.copiesMin, maximumWeight := t.maximumWeight,
    truck := t.truck, defects := t.defects.map Flipper.flipDefect,
    resources := t.resources.map strip }

/-- The item type appended by the flipper. -/
def flipItem (t : ItemType) : ItemType :=
  { x := t.y, y := t.x, profit := t.profit, copies := t.copies, copiesMin := -1,
    groupId := t.groupId, oriented := t.oriented, weight := t.weight }

/-- What the flipper requires of a bin type. -/
structure BinOk (t : BinType) : Prop where
  x : 0 < t.x
  y : 0 < t.y
  copies : t.copies = -1 ∨ 0 < t.copies
  copiesMin : 0 ≤ t.copiesMin
  cost : t.cost = -1 ∨ 0 < t.cost

theorem addBin_ok {orig : Instance} {b b' : InstanceBuilder} {i : Nat}
    (h : Flipper.addBin orig b i = .ok b') :
    b' = withBinTypes b (b.inst.binTypes ++ [flipBin (orig.binType i)])
    ∧ BinOk (orig.binType i) := by
  unfold Flipper.addBin at h
  dsimp only at h
  obtain ⟨b1, h1, h⟩ := bind_ok.mp h
  obtain ⟨b2, h2, h⟩ := bind_ok.mp h
  obtain ⟨b3, h3, h⟩ := bind_ok.mp h
  obtain ⟨b4, h4, h⟩ := bind_ok.mp h
  obtain ⟨b5, h5, h⟩ := bind_ok.mp h
  obtain ⟨b6, h6, h⟩ := bind_ok.mp h
  obtain ⟨b7, h7, h8⟩ := bind_ok.mp h
  clear h
  unfold addBinType at h1
  split_ifs at h1 with hx hy
  cases h1
  change setBinTypeCost (withBinTypes b (b.inst.binTypes ++ [_])) _ _ = _ at h2
  obtain ⟨y2, hy2, rfl⟩ := modifyBin_last h2
  by_cases hc1 : (orig.binType i).cost ≤ 0 ∧ (orig.binType i).cost ≠ -1
  · rw [if_pos hc1] at hy2; simp at hy2
  rw [if_neg hc1] at hy2
  dsimp only at hy2
  generalize hcc : (if (orig.binType i).cost = -1 then
    (((orig.binType i).y * (orig.binType i).x : Int) : ℚ) else (orig.binType i).cost) = cst at hy2
  cases hy2
  obtain ⟨y3, hy3, rfl⟩ := modifyBin_last h3
  dsimp only at hy3
  split_ifs at hy3 with hc2
  cases hy3
  obtain ⟨y4, hy4, rfl⟩ := modifyBin_last h4
  dsimp only at hy4
  split_ifs at hy4 with hc3
  cases hy4
  obtain ⟨y5, hy5, rfl⟩ := modifyBin_last h5
  cases hy5
  obtain ⟨y6, hy6, rfl⟩ := modifyBin_last h6
  cases hy6
  rw [addDefects_last h7] at h8
  rw [addResources_last h8]
  refine ⟨by unfold flipBin; rw [hcc]; simp, by omega, by omega, by omega, by omega, ?_⟩
  by_cases hc : (orig.binType i).cost = -1
  · exact .inl hc
  · right; by_contra hn; exact hc1 ⟨not_lt.mp hn, hc⟩

theorem addItem_ok {orig : Instance} {b b' : InstanceBuilder} {i : Nat}
    (h : Flipper.addItem orig b i = .ok b') :
    b' = withItemTypes b (b.inst.itemTypes ++ [flipItem (orig.itemType i)])
    ∧ ((orig.itemType i).copies = -1 ∨ 0 < (orig.itemType i).copies)
    ∧ 0 ≤ (orig.itemType i).x ∧ 0 ≤ (orig.itemType i).y := by
  unfold Flipper.addItem at h
  dsimp only at h
  obtain ⟨b1, h1, h⟩ := bind_ok.mp h
  obtain ⟨b2, h2, h⟩ := bind_ok.mp h
  obtain ⟨b3, h3, h⟩ := bind_ok.mp h
  obtain ⟨b4, h4, h5⟩ := bind_ok.mp h
  clear h
  unfold addItemType at h1
  split_ifs at h1 with hx hy
  cases h1
  change setItemTypeProfit (withItemTypes b (b.inst.itemTypes ++ [_])) _ _ = _ at h2
  obtain ⟨y2, hy2, rfl⟩ := modifyItem_last h2
  cases hy2
  obtain ⟨y3, hy3, rfl⟩ := modifyItem_last h3
  dsimp only at hy3
  split_ifs at hy3 with hc
  cases hy3
  unfold setItemTypeGroup at h4
  split_ifs at h4 with hg hl
  obtain ⟨y4, hy4, rfl⟩ := modifyItem_last h4
  cases hy4
  obtain ⟨y5, hy5, rfl⟩ := modifyItem_last h5
  cases hy5
  exact ⟨by simp [flipItem], by omega, by omega, by omega⟩

/-! ### Schedules -/

/-- Schedule of item type `j` for resource `r` of bin type `k`. -/
def bsched (l : List BinType) (k r j : Nat) : List ℚ :=
  sched ((l.getD k default).resources.getD r {}) j

/-- `l'` is `l` with other schedules. -/
structure SameShape (l l' : List BinType) : Prop where
  length : l'.length = l.length
  data : ∀ k, { l'.getD k default with resources := [] } = { l.getD k default with resources := [] }
  resources : ∀ k, (l'.getD k default).resources.map strip = (l.getD k default).resources.map strip

theorem SameShape.refl (l : List BinType) : SameShape l l := ⟨rfl, fun _ => rfl, fun _ => rfl⟩

theorem SameShape.trans {l l' l'' : List BinType} (h : SameShape l l') (h' : SameShape l' l'') :
    SameShape l l'' :=
  ⟨h'.length.trans h.length, fun k => (h'.data k).trans (h.data k),
    fun k => (h'.resources k).trans (h.resources k)⟩

theorem addResourceConsumption_ok {b b' : InstanceBuilder} {t r i c : Nat} {q : ℚ}
    (h : b.addResourceConsumption t r i c q = .ok b') :
    ∃ l, b' = withBinTypes b l ∧ SameShape b.inst.binTypes l
      ∧ ∀ k s j, bsched l k s j = if k = t ∧ s = r ∧ j = i
          then (growTo 0 (c + 1) (bsched b.inst.binTypes t r i)).set c q
          else bsched b.inst.binTypes k s j := by
  obtain ⟨ht, y, hy, rfl⟩ := modifyBin_ok h
  split_ifs at hy with h1 h2
  cases hy
  have hr : r < (b.inst.binType t).resources.length := by omega
  refine ⟨_, rfl, ⟨by simp, fun k => ?_, fun k => ?_⟩, fun k s j => ?_⟩
  · rw [getD_set' _ _ _ _ _ ht]
    by_cases hk : k = t
    · rw [if_pos hk, hk]; rfl
    · rw [if_neg hk]
  · rw [getD_set' _ _ _ _ _ ht]
    by_cases hk : k = t
    · rw [if_pos hk, hk]
      dsimp only
      change _ = (b.inst.binType t).resources.map strip
      apply List.ext_getElem?
      intro s
      simp only [List.getElem?_map, List.getElem?_modify]
      cases (b.inst.binType t).resources[s]? with
      | none => rfl
      | some x => by_cases hs : r = s <;> simp [hs, strip, Resource.addConsumption]
    · rw [if_neg hk]
  · unfold bsched
    rw [getD_set' _ _ _ _ _ ht]
    by_cases hk : k = t
    · rw [if_pos hk, hk]
      dsimp only
      by_cases hs : s = r
      · rw [hs]
        have : ((b.inst.binType t).resources.modify r
            (fun r => r.addConsumption i (c : Int).toNat q)).getD r {}
            = ((b.inst.binType t).resources.getD r {}).addConsumption i c q := by
          rw [List.getD_eq_getElem _ _ (by simpa using hr), List.getD_eq_getElem _ _ hr]
          simp
        rw [this, sched_add]
        by_cases hj : j = i
        · simp [hj, Instance.binType]
        · simp [hj, Instance.binType]
      · rw [if_neg (by tauto)]
        have : ((b.inst.binType t).resources.modify r
            (fun r => r.addConsumption i (c : Int).toNat q)).getD s {}
            = ((b.inst.binType t).resources.getD s {}) := by
          simp only [List.getD_eq_getElem?_getD, List.getElem?_modify]
          simp [Ne.symm hs]
        rw [this]; rfl
    · rw [if_neg hk, if_neg (by tauto)]

theorem writeSchedule_ok {b b' : InstanceBuilder} {t r i : Nat} {sch : List ℚ}
    (h0 : bsched b.inst.binTypes t r i = []) (h : b.writeSchedule t r i sch = .ok b') :
    ∃ l, b' = withBinTypes b l ∧ SameShape b.inst.binTypes l
      ∧ ∀ k s j, bsched l k s j = if k = t ∧ s = r ∧ j = i then sch
          else bsched b.inst.binTypes k s j := by
  have := foldlM_range_inv (n := sch.length) (P := fun n b' => ∃ l, b' = withBinTypes b l
      ∧ SameShape b.inst.binTypes l
      ∧ ∀ k s j, bsched l k s j = if k = t ∧ s = r ∧ j = i then sch.take n
          else bsched b.inst.binTypes k s j)
    ⟨b.inst.binTypes, rfl, SameShape.refl _, fun k s j => by
      by_cases hk : k = t ∧ s = r ∧ j = i
      · rw [if_pos hk, hk.1, hk.2.1, hk.2.2, h0]; rfl
      · rw [if_neg hk]⟩ ?_ h
  · simpa using this
  · intro n a b2 hn ha hs
    obtain ⟨l, rfl, hsh, hl⟩ := ha
    obtain ⟨l', rfl, hsh', hl'⟩ := addResourceConsumption_ok hs
    refine ⟨l', rfl, hsh.trans hsh', fun k s j => ?_⟩
    rw [hl']
    change (if _ then (growTo 0 (n + 1) (bsched l t r i)).set n _ else bsched l k s j) = _
    by_cases hk : k = t ∧ s = r ∧ j = i
    · rw [if_pos hk, if_pos hk, hl, if_pos ⟨rfl, rfl, rfl⟩]
      rw [take_succ_getD sch n 0 hn]
      unfold growTo
      have : n + 1 - (sch.take n).length = 1 := by simp; omega
      rw [this, List.set_append_right _ _ (by simp)]
      have : n - (sch.take n).length = 0 := by simp; omega
      rw [this]; rfl
    · rw [if_neg hk, if_neg hk, hl, if_neg hk]

/-- Effect of the loops copying the consumptions. -/
theorem copyConsumptions_ok {orig : Instance} {b b' : InstanceBuilder}
    (h0 : ∀ k s j, bsched b.inst.binTypes k s j = [])
    (h : Flipper.copyConsumptions orig b = .ok b') :
    ∃ l, b' = withBinTypes b l ∧ SameShape b.inst.binTypes l
      ∧ ∀ k s j, bsched l k s j = bsched orig.binTypes k s j := by
  unfold Flipper.copyConsumptions at h
  have key := foldlM_range_inv (n := orig.numberOfBinTypes)
    (P := fun n b' => ∃ l, b' = withBinTypes b l ∧ SameShape b.inst.binTypes l
      ∧ ∀ k s j, bsched l k s j = if k < n then bsched orig.binTypes k s j else [])
    ⟨b.inst.binTypes, rfl, SameShape.refl _, fun k s j => by simp [h0]⟩ ?_ h
  · obtain ⟨l, e, hsh, hl⟩ := key
    refine ⟨l, e, hsh, fun k s j => ?_⟩
    rw [hl]
    by_cases hk : k < orig.numberOfBinTypes
    · rw [if_pos hk]
    · rw [if_neg hk]
      have : orig.binTypes.getD k default = default := List.getD_eq_default _ _ (not_lt.mp hk)
      unfold bsched
      rw [this]; rfl
  · intro t a b2 ht ha hs
    obtain ⟨l, rfl, hsh, hl⟩ := ha
    have key2 := foldlM_range_inv (n := (orig.binType t).resources.length)
      (P := fun n b' => ∃ l', b' = withBinTypes b l' ∧ SameShape l l'
        ∧ ∀ k s j, bsched l' k s j = if k = t ∧ s < n then bsched orig.binTypes k s j
            else bsched l k s j)
      ⟨l, rfl, SameShape.refl _, fun k s j => by simp⟩ ?_ hs
    · obtain ⟨l', rfl, hsh', hl'⟩ := key2
      refine ⟨l', rfl, hsh.trans hsh', fun k s j => ?_⟩
      rw [hl', hl]
      by_cases hk : k = t
      · subst hk
        rw [if_neg (lt_irrefl k), if_pos (Nat.lt_succ_self k)]
        by_cases hs' : s < (orig.binType k).resources.length
        · rw [if_pos ⟨rfl, hs'⟩]
        · rw [if_neg (by tauto)]
          unfold bsched
          have : (orig.binTypes.getD k default).resources.getD s {} = {} :=
            List.getD_eq_default _ _ (not_lt.mp hs')
          rw [this]; rfl
      · rw [if_neg (by tauto)]
        have : (k < t) ↔ (k < t + 1) := by omega
        simp only [this]
    · intro r a b3 hr ha hs2
      obtain ⟨l1, rfl, hsh1, hl1⟩ := ha
      dsimp only at hs2
      have key3 := foldlM_range_inv
        (n := (((orig.binType t).resources.getD r {}).itemConsumptions).length)
        (P := fun n b' => ∃ l', b' = withBinTypes b l' ∧ SameShape l1 l'
          ∧ ∀ k s j, bsched l' k s j = if k = t ∧ s = r ∧ j < n then bsched orig.binTypes k s j
              else bsched l1 k s j)
        ⟨l1, rfl, SameShape.refl _, fun k s j => by simp⟩ ?_ hs2
      · obtain ⟨l', rfl, hsh', hl'⟩ := key3
        refine ⟨l', rfl, hsh1.trans hsh', fun k s j => ?_⟩
        rw [hl', hl1]
        by_cases hk : k = t ∧ s = r
        · obtain ⟨rfl, rfl⟩ := hk
          rw [if_pos (c := k = k ∧ s < s + 1) ⟨rfl, by omega⟩]
          by_cases hj : j < (((orig.binType k).resources.getD s {}).itemConsumptions).length
          · rw [if_pos ⟨rfl, rfl, hj⟩]
          · rw [if_neg (by tauto), if_neg (by omega), hl, if_neg (lt_irrefl _)]
            unfold bsched sched
            exact (List.getD_eq_default _ _ (not_lt.mp hj)).symm
        · rw [if_neg (by tauto)]
          have : (k = t ∧ s < r) ↔ (k = t ∧ s < r + 1) := by
            constructor
            · rintro ⟨h1, h2⟩; exact ⟨h1, by omega⟩
            · rintro ⟨h1, h2⟩
              refine ⟨h1, ?_⟩
              have : s ≠ r := fun e => hk ⟨h1, e⟩
              omega
          simp only [this]
      · intro i a b4 hi ha hs3
        obtain ⟨l2, rfl, hsh2, hl2⟩ := ha
        obtain ⟨l3, rfl, hsh3, hl3⟩ := writeSchedule_ok (by
          change bsched l2 t r i = []
          rw [hl2, if_neg (by simp), hl1, if_neg (by simp), hl, if_neg (by simp)]) hs3
        refine ⟨l3, rfl, hsh2.trans hsh3, fun k s j => ?_⟩
        rw [hl3]
        change (if _ then _ else bsched l2 k s j) = _
        by_cases hk : k = t ∧ s = r ∧ j = i
        · obtain ⟨rfl, rfl, rfl⟩ := hk
          rw [if_pos ⟨rfl, rfl, rfl⟩, if_pos ⟨rfl, rfl, by omega⟩]
          rfl
        · rw [if_neg hk, hl2]
          have : (k = t ∧ s = r ∧ j < i) ↔ (k = t ∧ s = r ∧ j < i + 1) := by
            constructor
            · rintro ⟨h1, h2, h3⟩; exact ⟨h1, h2, by omega⟩
            · rintro ⟨h1, h2, h3⟩
              refine ⟨h1, h2, ?_⟩
              have : j ≠ i := fun e => hk ⟨h1, h2, e⟩
              omega
          simp only [this]

theorem flip_bins {orig : Instance} {b0 b : InstanceBuilder} (h0 : b0.inst.binTypes = [])
    (h : (List.range orig.numberOfBinTypes).foldlM (Flipper.addBin orig) b0 = .ok b) :
    b = withBinTypes b0 (orig.binTypes.map flipBin)
    ∧ ∀ k, k < orig.numberOfBinTypes → BinOk (orig.binType k) := by
  have key := foldlM_range_inv (n := orig.numberOfBinTypes)
    (P := fun n b' => b' = withBinTypes b0 ((orig.binTypes.take n).map flipBin)
      ∧ ∀ k, k < n → BinOk (orig.binType k))
    ⟨by rw [List.take_zero, List.map_nil, ← h0]; rfl, by simp⟩ ?_ h
  · simpa [Instance.numberOfBinTypes] using key
  · intro n a b2 hn ha hs
    obtain ⟨rfl, hok⟩ := ha
    obtain ⟨rfl, hok'⟩ := addBin_ok hs
    refine ⟨?_, fun k hk => ?_⟩
    · rw [take_succ_getD _ n default hn]
      simp [withBinTypes, Instance.binType]
    · rcases Nat.lt_succ_iff_lt_or_eq.mp hk with h | rfl
      · exact hok k h
      · exact hok'

theorem flip_items {orig : Instance} {b0 b : InstanceBuilder} (h0 : b0.inst.itemTypes = [])
    (h : (List.range orig.numberOfItemTypes).foldlM (Flipper.addItem orig) b0 = .ok b) :
    b = withItemTypes b0 (orig.itemTypes.map flipItem)
    ∧ ∀ k, k < orig.numberOfItemTypes → ((orig.itemType k).copies = -1 ∨ 0 < (orig.itemType k).copies)
      ∧ 0 ≤ (orig.itemType k).x ∧ 0 ≤ (orig.itemType k).y := by
  have key := foldlM_range_inv (n := orig.numberOfItemTypes)
    (P := fun n b' => b' = withItemTypes b0 ((orig.itemTypes.take n).map flipItem)
      ∧ ∀ k, k < n → ((orig.itemType k).copies = -1 ∨ 0 < (orig.itemType k).copies)
      ∧ 0 ≤ (orig.itemType k).x ∧ 0 ≤ (orig.itemType k).y)
    ⟨by rw [List.take_zero, List.map_nil, ← h0]; rfl, by simp⟩ ?_ h
  · simpa [Instance.numberOfItemTypes] using key
  · intro n a b2 hn ha hs
    obtain ⟨rfl, hok⟩ := ha
    obtain ⟨rfl, hok'⟩ := addItem_ok hs
    refine ⟨?_, fun k hk => ?_⟩
    · rw [take_succ_getD _ n default hn]
      simp [withItemTypes, Instance.itemType]
    · rcases Nat.lt_succ_iff_lt_or_eq.mp hk with h | rfl
      · exact hok k h
      · exact hok'

/-- The builder from which the flipped instance is built. -/
theorem flip_builder {orig f : Instance} (h : Flipper.flip orig = .ok f) :
    ∃ (b : InstanceBuilder) (l : List BinType), b.build = .ok f ∧ BFresh b.inst
      ∧ b.inst.objective = (if orig.objective = .openDimensionY then .openDimensionX
          else orig.objective)
      ∧ b.inst.parameters = { orig.parameters with
          unloadingConstraint := orig.parameters.unloadingConstraint.flip }
      ∧ b.inst.itemTypes = orig.itemTypes.map flipItem
      ∧ b.inst.binTypes = l ∧ SameShape (orig.binTypes.map flipBin) l
      ∧ (∀ k s j, bsched l k s j = bsched orig.binTypes k s j)
      ∧ (∀ k, k < orig.numberOfBinTypes → BinOk (orig.binType k))
      ∧ (∀ k, k < orig.numberOfItemTypes →
          (orig.itemType k).copies = -1 ∨ 0 < (orig.itemType k).copies) := by
  unfold Flipper.flip at h
  dsimp only at h
  obtain ⟨b1, h1, h⟩ := bind_ok.mp h
  obtain ⟨b2, h2, h⟩ := bind_ok.mp h
  obtain ⟨b3, h3, h4⟩ := bind_ok.mp h
  clear h
  obtain ⟨rfl, hb⟩ := flip_bins (by rfl) h1
  obtain ⟨rfl, hi⟩ := flip_items (by rfl) h2
  obtain ⟨l, rfl, hsh, hl⟩ := copyConsumptions_ok (by
    intro k s j
    change bsched (orig.binTypes.map flipBin) k s j = []
    unfold bsched
    rw [List.getD_eq_getElem?_getD (l := List.map flipBin _), List.getElem?_map]
    cases orig.binTypes[k]? with
    | none => rfl
    | some t =>
      simp only [Option.map_some, Option.getD_some, flipBin]
      rw [List.getD_eq_getElem?_getD, List.getElem?_map]
      cases t.resources[s]? <;> rfl) h3
  change SameShape (orig.binTypes.map flipBin) l at hsh
  refine ⟨_, l, h4, ⟨?_, ?_, ?_⟩, rfl, rfl, rfl, rfl, hsh, hl, hb, fun k hk => (hi k hk).1⟩
  · exact ⟨rfl, rfl, rfl, rfl, rfl, rfl, rfl, rfl, rfl, rfl, rfl, rfl, rfl, rfl⟩
  · intro t ht
    change t ∈ l at ht
    obtain ⟨k, hk, rfl⟩ := List.mem_iff_getElem.mp ht
    have hlen := hsh.length
    rw [List.length_map] at hlen
    have hd := hsh.data k
    rw [List.getD_eq_getElem _ _ hk, List.getD_eq_getElem _ _ (by rw [List.length_map]; omega),
      List.getElem_map] at hd
    have hbk := hb k (by unfold Instance.numberOfBinTypes; omega)
    have e : orig.binType k = orig.binTypes[k] := List.getD_eq_getElem _ _ _
    rw [e] at hbk
    have e1 : l[k].itemTypeIds = [] := congrArg BinType.itemTypeIds hd
    have e2 : l[k].fixedItems = [] := congrArg BinType.fixedItems hd
    have e3 : l[k].copies = orig.binTypes[k].copies := by
      have := congrArg BinType.copies hd; exact this
    have e4 : l[k].copiesMin = orig.binTypes[k].copiesMin := by
      have := congrArg BinType.copiesMin hd; exact this
    exact ⟨e1, e2, e3 ▸ hbk.copies, e4 ▸ hbk.copiesMin⟩
  · intro t ht
    change t ∈ orig.itemTypes.map flipItem at ht
    obtain ⟨u, hu, rfl⟩ := List.mem_map.mp ht
    obtain ⟨k, hk, rfl⟩ := List.mem_iff_getElem.mp hu
    have hik := hi k hk
    have e : orig.itemType k = orig.itemTypes[k] := List.getD_eq_getElem _ _ _
    rw [e] at hik
    exact ⟨rfl, rfl, le_refl (-1 : Int), hik.2.2, hik.2.1⟩

theorem itemConsumption_congr {r r' : Resource} {i : Nat}
    (h : r'.itemConsumptions.getD i [] = r.itemConsumptions.getD i []) (c : Nat) :
    r'.itemConsumption i c = r.itemConsumption i c := by
  rw [ResourceLemmas.itemConsumption_eq, ResourceLemmas.itemConsumption_eq]
  unfold sched
  rw [h]

/-- The minimum numbers of copies after `build`. -/
theorem built_copiesMin {b : InstanceBuilder} {inst : Instance} (hF : BFresh b.inst)
    (h : b.build = .ok inst) (i : Nat) (hi : i < b.inst.itemTypes.length) :
    (inst.itemType i).copiesMin
      = (resolveItem b.inst.objective (b.inst.itemType i)).copiesMin := by
  obtain ⟨i1, st, hI, hB, -, hinst⟩ := build_pieces hF h
  obtain ⟨_, _, _, _, _, _, est⟩ := hB.rest
  have hitems : st.1.itemTypes = b.inst.itemTypes.map (resolveItem b.inst.objective) := by
    have e : st.1.itemTypes = i1.itemTypes := by rw [est]
    rw [e, hI.itemTypes]; simp
  have key : inst.itemTypes.map (·.copiesMin)
      = b.inst.itemTypes.map fun t => (resolveItem b.inst.objective t).copiesMin := by
    rw [hinst]
    change (withRes _ _ _).map (·.copiesMin) = _
    rw [map_withRes _ _ _ _ (by intros; rfl), hitems, List.map_map]
    rfl
  have h1 := congrArg (fun l => l[i]?) key
  have hi' : i < inst.itemTypes.length := by rw [built_items_length hF h]; exact hi
  simp only [List.getElem?_map, List.getElem?_eq_getElem hi, List.getElem?_eq_getElem hi',
    Option.map_some, Option.some.injEq] at h1
  unfold Instance.itemType
  rw [List.getD_eq_getElem _ _ hi', List.getD_eq_getElem _ _ hi, h1]

/-- What the flipper guarantees: the result is the instance with the axes exchanged, consistently
built, and the original satisfies the checks of the builder. -/
theorem flip_ok {a f : Instance} (ha : Aggregates a) (hs : Sizes a) (h : Flipper.flip a = .ok f) :
    FlippedOf a f ∧ Aggregates f ∧ Sizes f
    ∧ (∀ k, k < a.numberOfBinTypes → BinOk (a.binType k))
    ∧ (∀ k, k < a.numberOfItemTypes → (a.itemType k).copies = -1 ∨ 0 < (a.itemType k).copies) := by
  obtain ⟨b, l, hb, hF, ho, hp, hi, hbt, hsh, hsc, hbok, hiok⟩ := flip_builder h
  obtain ⟨m1, m2, m3⟩ := built_misc hF hb
  have hnum : f.numberOfItems = a.numberOfItems := by
    rw [built_numberOfItems hF hb, ha.numberOfItems, hi, List.map_map]
    rfl
  have hli : f.itemTypes.length = a.itemTypes.length := by
    rw [built_items_length hF hb, hi, List.length_map]
  have hlb : f.binTypes.length = a.binTypes.length := by
    rw [built_bins_length hF hb, hbt, hsh.length, List.length_map]
  refine ⟨⟨?_, ?_, ?_, ?_, hli, hlb, fun i hi' => ?_, fun i hi' => ?_,
    fun k hk => ?_⟩, built_aggregates hF hb,
    built_sizes hF hb, hbok, hiok⟩
  · rw [m1, ho]
  · rw [m2, hp]; cases a.parameters.unloadingConstraint <;> rfl
  · rw [m2, hp]
  · rw [m2, hp]
  · have e : b.inst.itemType i = flipItem (a.itemType i) := by
      have hi2 : i < a.itemTypes.length := hi'
      unfold Instance.itemType
      rw [hi, List.getD_eq_getElem _ _ (by rw [List.length_map]; exact hi2), List.getElem_map,
        List.getD_eq_getElem _ _ hi2]
    have key := fun {β : Type} (g : ItemType → β) => built_item hF hb g (i := i)
    simp only [e] at key
    refine ⟨?_, ?_, ?_, ?_, ?_, ?_, ?_⟩
    · exact key (·.x) (by intros; rfl) (fun o t => by unfold resolveItem; split_ifs <;> rfl)
    · exact key (·.y) (by intros; rfl) (fun o t => by unfold resolveItem; split_ifs <;> rfl)
    · exact key (·.oriented) (by intros; rfl) (fun o t => by unfold resolveItem; split_ifs <;> rfl)
    · exact key (·.profit) (by intros; rfl) (fun o t => by unfold resolveItem; split_ifs <;> rfl)
    · exact key (·.copies) (by intros; rfl) (fun o t => by unfold resolveItem; split_ifs <;> rfl)
    · exact key (·.groupId) (by intros; rfl) (fun o t => by unfold resolveItem; split_ifs <;> rfl)
    · exact key (·.weight) (by intros; rfl) (fun o t => by unfold resolveItem; split_ifs <;> rfl)
  · have hi2 : i < a.itemTypes.length := hi'
    have e : b.inst.itemType i = flipItem (a.itemType i) := by
      unfold Instance.itemType
      rw [hi, List.getD_eq_getElem _ _ (by rw [List.length_map]; exact hi2), List.getElem_map,
        List.getD_eq_getElem _ _ hi2]
    rw [built_copiesMin hF hb i (by rw [hi, List.length_map]; exact hi2), e, ho]
    unfold resolveItem flipItem
    by_cases h1 : a.objective = .knapsack
    · rw [h1]; rfl
    · have h2 : (if a.objective = .openDimensionY then Objective.openDimensionX
          else a.objective) ≠ .knapsack := by split_ifs <;> simp [h1]
      simp [h1, h2]
  · have hk' : k < a.binTypes.length := hk
    have hd := hsh.data k
    have hr := hsh.resources k
    have e0 : b.inst.binType k = l.getD k default := by unfold Instance.binType; rw [hbt]
    have e1 : (a.binTypes.map flipBin).getD k default = flipBin (a.binType k) := by
      unfold Instance.binType
      rw [List.getD_eq_getElem _ _ (by rw [List.length_map]; exact hk'), List.getElem_map,
        List.getD_eq_getElem _ _ hk']
    rw [e1] at hd hr
    have key := fun {β : Type} (g : BinType → β) hg => built_bin hF hb g hg k (hlb ▸ hk')
    rw [hnum, e0] at key
    have hrb : ∀ (t : BinType) (n : Int), (resolveBin n t).x = t.x ∧ (resolveBin n t).y = t.y
        ∧ (resolveBin n t).cost = t.cost ∧ (resolveBin n t).copiesMin = t.copiesMin
        ∧ (resolveBin n t).maximumWeight = t.maximumWeight ∧ (resolveBin n t).truck = t.truck
        ∧ (resolveBin n t).defects = t.defects ∧ (resolveBin n t).resources = t.resources := by
      intro t n; unfold resolveBin; split_ifs <;> exact ⟨rfl, rfl, rfl, rfl, rfl, rfl, rfl, rfl⟩
    have hq := hrb (l.getD k default) a.numberOfItems
    have hres : (f.binType k).resources = (l.getD k default).resources := by
      rw [key (·.resources) (by intros; rfl)]; exact hq.2.2.2.2.2.2.2
    have hlr : (l.getD k default).resources.length = (a.binType k).resources.length := by
      have := congrArg List.length hr
      simpa [flipBin] using this
    refine ⟨?_, ?_, ?_, ?_, ?_, ?_, ?_, ?_, ?_, ?_⟩
    · rw [key (·.x) (by intros; rfl), hq.1]; exact congrArg BinType.x hd
    · rw [key (·.y) (by intros; rfl), hq.2.1]; exact congrArg BinType.y hd
    · rw [key (·.cost) (by intros; rfl), hq.2.2.1]; exact congrArg BinType.cost hd
    · have hc : (l.getD k default).copies = (a.binType k).copies := by
        have := congrArg BinType.copies hd; exact this
      rw [key (·.copies) (by intros; rfl)]
      change (resolveBin _ _).copies = _
      unfold resolveBin
      by_cases h1 : (l.getD k default).copies = -1
      · rw [if_pos h1]
        rcases (hs.bins _ (getD_mem default hk')).2 with h2 | h2
        · change 0 < (a.binType k).copies at h2; omega
        · exact h2.symm
      · rw [if_neg h1, hc]
    · rw [key (·.copiesMin) (by intros; rfl), hq.2.2.2.1]
      have := congrArg BinType.copiesMin hd; exact this
    · rw [key (·.maximumWeight) (by intros; rfl), hq.2.2.2.2.1]
      have := congrArg BinType.maximumWeight hd; exact this
    · rw [key (·.truck) (by intros; rfl), hq.2.2.2.2.2.1]
      have := congrArg BinType.truck hd; exact this
    · rw [key (·.defects) (by intros; rfl), hq.2.2.2.2.2.2.1]
      have := congrArg BinType.defects hd; exact this
    · rw [hres, hlr]
    · intro r hr'
      have hr2 : r < (l.getD k default).resources.length := by omega
      have hsr : strip ((l.getD k default).resources.getD r {})
          = strip ((a.binType k).resources.getD r {}) := by
        have := congrArg (fun q => q[r]?) hr
        simp only [flipBin, List.getElem?_map, List.getElem?_eq_getElem hr2,
          List.getElem?_eq_getElem hr', Option.map_some, Option.some.injEq] at this
        rw [List.getD_eq_getElem _ _ hr2, List.getD_eq_getElem _ _ hr', this]
        rfl
      have hsch : ∀ j, ((l.getD k default).resources.getD r {}).itemConsumptions.getD j []
          = ((a.binType k).resources.getD r {}).itemConsumptions.getD j [] := fun j => hsc k r j
      rw [hres]
      refine ⟨?_, ?_, ?_, ?_, hsch⟩
      · have := congrArg Resource.capacity hsr; exact this
      · have := congrArg Resource.penalize hsr; exact this
      · have := congrArg Resource.penalty hsr; exact this
      · exact fun i c => itemConsumption_congr (hsch i) c

end FlipLemmas

end PackingSolver.Rect
