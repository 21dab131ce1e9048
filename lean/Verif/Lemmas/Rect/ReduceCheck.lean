import Verif.Spec.RectReduction
import Verif.Lemmas.Rect.Flip
import Verif.Lemmas.Rect.TreeTotals

/-!
# The instances that the reduction builds
-/

namespace PackingSolver.Rect.Reduction

open InstanceBuilder Rect.Spec FlipLemmas

/-- The item type that a check instance gets for an item of the working representation. -/
def checkItem (env : Env) (st : State) (i : Nat) : ItemType :=
  { x := (st.item i).x, y := (st.item i).y,
    profit := (((st.item i).x * (st.item i).y : Int) : ℚ), copies := (st.item i).copies,
    copiesMin := -1, groupId := 0, oriented := env.oriented i }

theorem withItemTypes_self (b : InstanceBuilder) : withItemTypes b b.inst.itemTypes = b := rfl

theorem withBinTypes_self (b : InstanceBuilder) : withBinTypes b b.inst.binTypes = b := rfl

theorem checkItemOps_ok {env : Env} {st : State} {i : Nat} {b b' : InstanceBuilder}
    (h : (checkItemOps env st b.inst.itemTypes.length i).foldlM step b = .ok b') :
    b' = withItemTypes b (b.inst.itemTypes ++ [checkItem env st i])
    ∧ ((st.item i).copies = -1 ∨ 0 < (st.item i).copies) := by
  unfold checkItemOps at h
  obtain ⟨b1, h1, h⟩ := foldlM_cons_ok.mp h
  obtain ⟨b2, h2, h⟩ := foldlM_cons_ok.mp h
  cases h
  change addItemType b _ _ _ = _ at h1
  change setItemTypeCopies b1 _ _ = _ at h2
  unfold addItemType at h1
  split_ifs at h1 with hx hy
  cases h1
  change setItemTypeCopies (withItemTypes b (b.inst.itemTypes ++ [_])) _ _ = _ at h2
  obtain ⟨y2, hy2, rfl⟩ := modifyItem_last h2
  dsimp only at hy2
  split_ifs at hy2 with hc
  cases hy2
  exact ⟨rfl, by omega⟩

theorem checkItemsOps_ok {env : Env} {st : State} (ids : List Nat) :
    ∀ {b b' : InstanceBuilder},
    ((ids.zipIdx b.inst.itemTypes.length).flatMap fun p => checkItemOps env st p.2 p.1).foldlM
      step b = .ok b' →
    b' = withItemTypes b (b.inst.itemTypes ++ ids.map (checkItem env st))
    ∧ ∀ i ∈ ids, (st.item i).copies = -1 ∨ 0 < (st.item i).copies := by
  induction ids with
  | nil =>
    intro b b' h
    cases h
    exact ⟨by simp [withItemTypes_self], by simp⟩
  | cons i ids ih =>
    intro b b' h
    rw [List.zipIdx_cons, List.flatMap_cons, List.foldlM_append] at h
    obtain ⟨b1, h1, h2⟩ := bind_ok.mp h
    obtain ⟨e, hc⟩ := checkItemOps_ok h1
    have hl : b1.inst.itemTypes.length = b.inst.itemTypes.length + 1 := by
      rw [e]; simp [withItemTypes]
    rw [← hl] at h2
    obtain ⟨e2, hc2⟩ := ih h2
    refine ⟨?_, ?_⟩
    · rw [e2, e]; simp [withItemTypes]
    · intro j hj
      rcases List.mem_cons.mp hj with rfl | hj
      · exact hc
      · exact hc2 j hj

/-- A bin type of a check instance. -/
def checkBin (w h copies : Int) : BinType :=
  { x := w, y := h, cost := ((w * h : Int) : ℚ), copies := copies, copiesMin := 0 }

theorem checkBinOps_ok {w h copies : Int} {b b' : InstanceBuilder}
    (hb : (checkBinOps b.inst.binTypes.length w h copies).foldlM step b = .ok b') :
    b' = withBinTypes b (b.inst.binTypes ++ [checkBin w h copies])
    ∧ (copies = -1 ∨ 0 < copies) := by
  unfold checkBinOps at hb
  obtain ⟨b1, h1, hb⟩ := foldlM_cons_ok.mp hb
  obtain ⟨b2, h2, hb⟩ := foldlM_cons_ok.mp hb
  obtain ⟨b3, h3, hb⟩ := foldlM_cons_ok.mp hb
  cases hb
  change addBinType b _ _ = _ at h1
  change setBinTypeCopies b1 _ _ = _ at h2
  change setBinTypeCopiesMin b2 _ _ = _ at h3
  unfold addBinType at h1
  split_ifs at h1 with hx hy
  cases h1
  change setBinTypeCopies (withBinTypes b (b.inst.binTypes ++ [_])) _ _ = _ at h2
  obtain ⟨y2, hy2, rfl⟩ := modifyBin_last h2
  dsimp only at hy2
  split_ifs at hy2 with hc
  cases hy2
  obtain ⟨y3, hy3, rfl⟩ := modifyBin_last h3
  dsimp only at hy3
  split_ifs at hy3 with hc3
  cases hy3
  exact ⟨rfl, by omega⟩

theorem checkBinsOps_ok {f : Nat → Int × Int × Int} (ids : List Nat) :
    ∀ {b b' : InstanceBuilder},
    ((ids.zipIdx b.inst.binTypes.length).flatMap fun p =>
      checkBinOps p.2 (f p.1).1 (f p.1).2.1 (f p.1).2.2).foldlM step b = .ok b' →
    b' = withBinTypes b (b.inst.binTypes ++ ids.map fun i => checkBin (f i).1 (f i).2.1 (f i).2.2)
    ∧ ∀ i ∈ ids, (f i).2.2 = -1 ∨ 0 < (f i).2.2 := by
  induction ids with
  | nil =>
    intro b b' h
    cases h
    exact ⟨by simp [withBinTypes_self], by simp⟩
  | cons i ids ih =>
    intro b b' h
    rw [List.zipIdx_cons, List.flatMap_cons, List.foldlM_append] at h
    obtain ⟨b1, h1, h2⟩ := bind_ok.mp h
    obtain ⟨e, hc⟩ := checkBinOps_ok h1
    have hl : b1.inst.binTypes.length = b.inst.binTypes.length + 1 := by
      rw [e]; simp [withBinTypes]
    rw [← hl] at h2
    obtain ⟨e2, hc2⟩ := ih h2
    refine ⟨?_, ?_⟩
    · rw [e2, e]; simp [withBinTypes]
    · intro j hj
      rcases List.mem_cons.mp hj with rfl | hj
      · exact hc
      · exact hc2 j hj

/-- What matters of an item type of a check instance. -/
structure IsItem (env : Env) (st : State) (i : Nat) (t : ItemType) : Prop where
  x : t.x = (st.item i).x
  y : t.y = (st.item i).y
  oriented : t.oriented = env.oriented i
  copies : t.copies = (st.item i).copies

theorem isItem_built {env : Env} {st : State} {ids : List Nat} {b : InstanceBuilder}
    {inst : Instance} (hF : BFresh b.inst) (h : b.build = .ok inst)
    (e : b.inst.itemTypes = ids.map (checkItem env st)) (k : Nat) (hk : k < ids.length) :
    IsItem env st ids[k] (inst.itemType k) := by
  have eb : b.inst.itemType k = checkItem env st ids[k] := by
    unfold Instance.itemType
    rw [e, List.getD_eq_getElem _ _ (by simpa using hk)]; simp
  refine ⟨?_, ?_, ?_, ?_⟩
  · rw [built_item hF h (·.x) (by intros; rfl) (fun o t => (resolve_fields o t).2.1), eb]; rfl
  · rw [built_item hF h (·.y) (by intros; rfl) (fun o t => (resolve_fields o t).2.2.1), eb]; rfl
  · rw [built_item hF h (·.oriented) (by intros; rfl)
      (fun o t => (resolve_fields o t).2.2.2.2.2.2.1), eb]; rfl
  · rw [built_item hF h (·.copies) (by intros; rfl) (fun o t => (resolve_fields o t).1), eb]; rfl

/-- What matters of the check instance of `try_reduce_group`. -/
structure CheckInst (env : Env) (a : Axis) (st : State) (checked rs : List Nat) (c : Instance) :
    Prop where
  agg : Aggregates c
  items : c.numberOfItemTypes = rs.length
  item : ∀ k (h : k < rs.length), IsItem env st rs[k] (c.itemType k)
  bins : c.numberOfBinTypes = checked.length
  bin : ∀ k (h : k < checked.length),
    (c.binType k).x = (companionBin env a (st.item checked[k])).1
    ∧ (c.binType k).y = (companionBin env a (st.item checked[k])).2
    ∧ ((st.item checked[k]).copies ≠ -1 → (c.binType k).copies = (st.item checked[k]).copies)
  copies : ∀ i ∈ rs, (st.item i).copies = -1 ∨ 0 < (st.item i).copies

theorem checkOps_built {env : Env} {a : Axis} {st : State} {checked rs : List Nat} {c : Instance}
    (h : runOps (checkOps env a st checked rs) = .ok c) : CheckInst env a st checked rs c := by
  have hagg : Aggregates c := by
    unfold runOps at h
    obtain ⟨b, hb, h⟩ := bind_ok.mp h
    exact built_aggregates (fresh_ops hb) h
  unfold runOps at h
  obtain ⟨b, hb, h⟩ := bind_ok.mp h
  have hF := fresh_ops hb
  unfold checkOps at hb
  rw [List.foldlM_append, List.foldlM_append] at hb
  obtain ⟨b2, hb, h3⟩ := bind_ok.mp hb
  obtain ⟨b1, h1, h2⟩ := bind_ok.mp hb
  have hb1 : b1.inst.binTypes = [] ∧ b1.inst.itemTypes = [] := by
    cases h1; exact ⟨rfl, rfl⟩
  obtain ⟨e2, -⟩ := checkBinsOps_ok (b := b1) (b' := b2)
    (f := fun i => ((companionBin env a (st.item i)).1, (companionBin env a (st.item i)).2,
      (st.item i).copies)) checked (by rw [hb1.1]; exact h2)
  have hb2 : b2.inst.itemTypes = [] := by rw [e2]; exact hb1.2
  have h3' : ((rs.zipIdx b2.inst.itemTypes.length).flatMap fun p =>
      checkItemOps env st p.2 p.1).foldlM step b2 = .ok b := by rw [hb2]; exact h3
  obtain ⟨e3, hc⟩ := checkItemsOps_ok rs h3'
  have ei : b.inst.itemTypes = rs.map (checkItem env st) := by
    rw [e3]; change b2.inst.itemTypes ++ _ = _; rw [hb2, List.nil_append]
  have eb : b.inst.binTypes = checked.map fun i => checkBin (companionBin env a (st.item i)).1
      (companionBin env a (st.item i)).2 (st.item i).copies := by
    rw [e3]; change b2.inst.binTypes = _; rw [e2]
    change b1.inst.binTypes ++ _ = _
    rw [hb1.1, List.nil_append]
  have hbl : c.binTypes.length = checked.length := by
    rw [built_bins_length hF h, eb, List.length_map]
  refine ⟨hagg, ?_, fun k hk => isItem_built hF h ei k hk, hbl, fun k hk => ?_, hc⟩
  · unfold Instance.numberOfItemTypes; rw [built_items_length hF h, ei, List.length_map]
  · have ebk : b.inst.binType k = checkBin (companionBin env a (st.item checked[k])).1
        (companionBin env a (st.item checked[k])).2 (st.item checked[k]).copies := by
      unfold Instance.binType
      rw [eb, List.getD_eq_getElem _ _ (by simpa using hk)]; simp
    refine ⟨?_, ?_, fun hne => ?_⟩
    · rw [built_bin hF h (·.x) (by intros; rfl) k (hbl ▸ hk), ebk]; unfold resolveBin
      split_ifs <;> rfl
    · rw [built_bin hF h (·.y) (by intros; rfl) k (hbl ▸ hk), ebk]; unfold resolveBin
      split_ifs <;> rfl
    · rw [built_bin hF h (·.copies) (by intros; rfl) k (hbl ▸ hk), ebk]; unfold resolveBin
      exact congrArg BinType.copies (if_neg hne)

/-- What matters of the check instance of `try_reduce_both_group`. -/
structure CheckBoth (env : Env) (st : State) (ids : List Nat) (n : Int) (c : Instance) : Prop where
  agg : Aggregates c
  items : c.numberOfItemTypes = ids.length
  item : ∀ k (h : k < ids.length), IsItem env st ids[k] (c.itemType k)
  bins : c.numberOfBinTypes = 1
  x : (c.binType 0).x = env.w
  y : (c.binType 0).y = env.h
  binCopies : n ≠ -1 → (c.binType 0).copies = n
  copies : ∀ i ∈ ids, (st.item i).copies = -1 ∨ 0 < (st.item i).copies

theorem checkBothOps_built {env : Env} {st : State} {bigs rs : List Nat} {c : Instance}
    (h : runOps (checkBothOps env st bigs rs) = .ok c) :
    CheckBoth env st (bigs ++ rs) (bigs.foldl (fun n i => n + (st.item i).copies) 0) c := by
  have hagg : Aggregates c := by
    unfold runOps at h
    obtain ⟨b, hb, h⟩ := bind_ok.mp h
    exact built_aggregates (fresh_ops hb) h
  unfold runOps at h
  obtain ⟨b, hb, h⟩ := bind_ok.mp h
  have hF := fresh_ops hb
  unfold checkBothOps at hb
  rw [List.foldlM_append, List.foldlM_append] at hb
  obtain ⟨b2, hb, h3⟩ := bind_ok.mp hb
  obtain ⟨b1, h1, h2⟩ := bind_ok.mp hb
  have hb1 : b1.inst.binTypes = [] ∧ b1.inst.itemTypes = [] := by
    cases h1; exact ⟨rfl, rfl⟩
  have h2' : (checkBinOps b1.inst.binTypes.length env.w env.h
      (bigs.foldl (fun n i => n + (st.item i).copies) 0)).foldlM step b1 = .ok b2 := by
    rw [hb1.1]; exact h2
  obtain ⟨e2, -⟩ := checkBinOps_ok h2'
  have hb2 : b2.inst.itemTypes = [] := by rw [e2]; exact hb1.2
  have h3' : (((bigs ++ rs).zipIdx b2.inst.itemTypes.length).flatMap fun p =>
      checkItemOps env st p.2 p.1).foldlM step b2 = .ok b := by rw [hb2]; exact h3
  obtain ⟨e3, hc⟩ := checkItemsOps_ok (bigs ++ rs) h3'
  have ei : b.inst.itemTypes = (bigs ++ rs).map (checkItem env st) := by
    rw [e3]; change b2.inst.itemTypes ++ _ = _; rw [hb2, List.nil_append]
  have eb : b.inst.binTypes = [checkBin env.w env.h
      (bigs.foldl (fun n i => n + (st.item i).copies) 0)] := by
    rw [e3]; change b2.inst.binTypes = _; rw [e2]
    change b1.inst.binTypes ++ _ = _
    rw [hb1.1, List.nil_append]
  have hbl : c.binTypes.length = 1 := by
    rw [built_bins_length hF h, eb]; rfl
  have ebk : b.inst.binType 0 = checkBin env.w env.h
      (bigs.foldl (fun n i => n + (st.item i).copies) 0) := by
    unfold Instance.binType
    rw [eb]; rfl
  refine ⟨hagg, ?_, fun k hk => isItem_built hF h ei k hk, hbl, ?_, ?_, ?_, hc⟩
  · unfold Instance.numberOfItemTypes; rw [built_items_length hF h, ei, List.length_map]
  · rw [built_bin hF h (·.x) (by intros; rfl) 0 (by omega), ebk]; unfold resolveBin
    split_ifs <;> rfl
  · rw [built_bin hF h (·.y) (by intros; rfl) 0 (by omega), ebk]; unfold resolveBin
    split_ifs <;> rfl
  · intro hne
    rw [built_bin hF h (·.copies) (by intros; rfl) 0 (by omega), ebk]; unfold resolveBin
    exact congrArg BinType.copies (if_neg hne)

/-! ## Complete answers -/

theorem numberOfItems_eq_sum {p : Packing} {n : Nat}
    (hp : ∀ b ∈ p, ∀ q ∈ b.items, q.itemTypeId < n) :
    Spec.numberOfItems p = ∑ i ∈ Finset.range n, itemCopies p i := by
  induction p with
  | nil => simp [Spec.numberOfItems, itemCopies]
  | cons b p ih =>
    have ih := ih (fun c hc => hp c (List.mem_cons_of_mem _ hc))
    have e : ∀ i, itemCopies (b :: p) i = b.copies * count b.items i + itemCopies p i := by
      intro i; unfold itemCopies; rw [List.map_cons, List.sum_cons]
    rw [Finset.sum_congr rfl fun i _ => e i, Finset.sum_add_distrib, ← Finset.mul_sum, ← ih,
      TreeSearch.sum_counts b.items n (hp b List.mem_cons_self)]
    unfold Spec.numberOfItems; rw [List.map_cons, List.sum_cons]

theorem checkFull_eq (c : Instance) (sol : Packing) :
    checkFull c sol = decide (Spec.numberOfItems sol = c.numberOfItems) := by
  have : ∀ a : Int, sol.foldl (fun n b => n + b.copies * (b.items.length : Int)) a
      = a + Spec.numberOfItems sol := by
    induction sol with
    | nil => intro a; simp [Spec.numberOfItems]
    | cons b sol ih =>
      intro a; rw [List.foldl_cons, ih]; unfold Spec.numberOfItems
      rw [List.map_cons, List.sum_cons]; omega
  unfold checkFull
  rw [this, Int.zero_add]

/-- A complete valid answer packs all copies. -/
theorem full_packs {c : Instance} {sol : Packing} (hagg : Aggregates c)
    (hv : ValidPacking c sol)
    (hn : ∀ i, i < c.numberOfItemTypes → 0 ≤ (c.itemType i).copies) (hf : checkFull c sol = true) : PacksAll c sol := by
  have hid : ∀ b ∈ sol, ∀ q ∈ b.items, q.itemTypeId < c.numberOfItemTypes :=
    fun b hb q hq => (hv.bins b hb).2.2.exist q hq
  rw [checkFull_eq, decide_eq_true_eq, hagg.numberOfItems, TreeSearch.sum_copies,
    numberOfItems_eq_sum hid] at hf
  have hle : ∀ i ∈ Finset.range c.numberOfItemTypes,
      itemCopies sol i ≤ (c.itemType i).copies := fun i hi => by
    have h1 := hv.items i (Finset.mem_range.mp hi)
    have h2 := hn i (Finset.mem_range.mp hi)
    omega
  rw [Finset.sum_eq_sum_iff_of_le hle] at hf
  exact fun i hi => hf i (Finset.mem_range.mpr hi)

/-- A packed item type is in some bin. -/
theorem packed_in_bin {p : Packing} {i : Nat} (h : itemCopies p i ≠ 0) :
    ∃ b ∈ p, ∃ q ∈ b.items, q.itemTypeId = i := by
  by_contra hno
  apply h
  unfold itemCopies
  have : ∀ b ∈ p, b.copies * count b.items i = 0 := by
    intro b hb
    have : count b.items i = 0 := by
      unfold count
      rw [Int.natCast_eq_zero, List.countP_eq_zero]
      intro q hq
      simp only [decide_eq_true_eq]
      exact fun hqi => hno ⟨b, hb, q, hq, hqi⟩
    rw [this, Int.mul_zero]
  rw [List.map_congr_left this]
  simp

end PackingSolver.Rect.Reduction
