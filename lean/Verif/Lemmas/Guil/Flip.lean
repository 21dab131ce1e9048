import Verif.Lemmas.Guil.InstCopy
import Verif.Props.Guil.InstanceCopy
import Verif.Model.Guil.Flipper
import Verif.Spec.GuillotineFlip

/-!
# Lemmas: flipping a guillotine instance
-/

namespace PackingSolver.Guil

open InstanceBuilder
open Guil.Spec hiding IsMaxWithZero
open PackingSolver.OneDim (getD_mem)
open PackingSolver.OneDim.CopyLemmas (itemConsumption_sched)
open PackingSolver.ResourceLemmas (sched)

/-- The bin type that the flipper adds. -/
def flipBin (t : BinType) : BinType :=
  { w := t.h
    h := t.w
    cost := t.cost
    copies := t.copies
    copiesMin := t.copiesMin
    leftTrim := t.bottomTrim
    leftTrimType := t.bottomTrimType
    rightTrim := t.topTrim
    rightTrimType := t.topTrimType
    bottomTrim := t.leftTrim
    bottomTrimType := t.leftTrimType
    topTrim := t.rightTrim
    topTrimType := t.rightTrimType
    defects := t.defects.map Flipper.flipDefect
    resources := t.resources.map bare }

/-- The item type that the flipper adds. -/
def flipItem (t : ItemType) : ItemType :=
  { w := t.h
    h := t.w
    profit := t.profit
    copies := t.copies
    copiesMin := -1
    stackId := t.stackId
    oriented := t.oriented }

theorem getD_range_map {α : Type} (g : Nat → α) (d : α) {n k : Nat} (hk : k < n) :
    ((List.range n).map g).getD k d = g k := by
  rw [List.getD_eq_getElem _ _ (by simpa using hk)]
  simp

/-! ### Calls -/

/-- The builder can be reached by calls from `b0`. -/
def Reach (b0 b : InstanceBuilder) : Prop := ∃ ops : List BuilderOp, ops.foldlM step b0 = .ok b

theorem Reach.refl (b : InstanceBuilder) : Reach b b := ⟨[], rfl⟩

theorem Reach.step {b0 b b' : InstanceBuilder} (h : Reach b0 b) (op : BuilderOp)
    (hs : InstanceBuilder.step b op = .ok b') : Reach b0 b' := by
  obtain ⟨ops, h⟩ := h
  exact ⟨ops ++ [op], foldlM_snoc_ok.mpr ⟨b, h, hs⟩⟩

theorem Reach.fold {b0 : InstanceBuilder} {α : Type} {g : InstanceBuilder → α → Except Err InstanceBuilder}
    (hg : ∀ b b' x, Reach b0 b → g b x = .ok b' → Reach b0 b') {l : List α} :
    ∀ {b b' : InstanceBuilder}, Reach b0 b → l.foldlM g b = .ok b' → Reach b0 b' := by
  induction l with
  | nil =>
    intro b b' h e
    simp [pure, Except.pure] at e
    subst e; exact h
  | cons x l ih =>
    intro b b' h e
    obtain ⟨b1, h1, h2⟩ := foldlM_cons_ok.mp e
    exact ih (hg _ _ _ h h1) h2

variable {a : Instance}

theorem flip_addBin_reach {b0 b b' : InstanceBuilder} {i : Nat} (h : Reach b0 b)
    (e : Flipper.addBin a b i = .ok b') : Reach b0 b' := by
  unfold Flipper.addBin at e
  dsimp only at e
  obtain ⟨b1, h1, e⟩ := bind_ok.mp e
  obtain ⟨b2, h2, e⟩ := bind_ok.mp e
  obtain ⟨b3, h3, e⟩ := bind_ok.mp e
  obtain ⟨b4, h4, e⟩ := bind_ok.mp e
  obtain ⟨b5, h5, e⟩ := bind_ok.mp e
  obtain ⟨b6, h6, e⟩ := bind_ok.mp e
  have r5 := ((((h.step (.addBinType _ _) h1).step (.setBinTypeCost _ _) h2).step
    (.setBinTypeCopies _ _) h3).step (.setBinTypeCopiesMin _ _) h4).step (.addTrims _ _) h5
  have r6 := Reach.fold (fun b b' (d : Defect) hb hd => hb.step (.addDefect _ _ _ _ _) hd) r5 h6
  exact Reach.fold (fun b b' (r : Resource) hb hd => hb.step (.addBinTypeResource _ _ _ _) hd) r6 e

theorem flip_addItem_reach {b0 b b' : InstanceBuilder} {i : Nat} (h : Reach b0 b)
    (e : Flipper.addItem a b i = .ok b') : Reach b0 b' := by
  unfold Flipper.addItem at e
  dsimp only at e
  obtain ⟨b1, h1, e⟩ := bind_ok.mp e
  obtain ⟨b2, h2, e⟩ := bind_ok.mp e
  exact ((h.step (.addItemType _ _ _ _) h1).step (.setItemTypeProfit _ _) h2).step
    (.setItemTypeCopies _ _) e

theorem flip_consumptions_reach {b0 b b' : InstanceBuilder} (h : Reach b0 b)
    (e : Flipper.copyConsumptions a b = .ok b') : Reach b0 b' := by
  unfold Flipper.copyConsumptions at e
  refine Reach.fold (fun b b' t hb hd => ?_) h e
  refine Reach.fold (fun b b' r hb hd => ?_) hb hd
  refine Reach.fold (fun b b' i hb hd => ?_) hb hd
  unfold writeSchedule at hd
  exact Reach.fold (fun b b' c hb hd => hb.step (.addResourceConsumption _ _ _ _ _) hd) hb hd

/-! ### Effects -/

theorem flip_addBin_ok {b b' : InstanceBuilder} {i : Nat} (hc : 0 < (a.binType i).cost)
    (h : Flipper.addBin a b i = .ok b') :
    b' = withBinTypes b (b.inst.binTypes ++ [flipBin (a.binType i)]) := by
  unfold Flipper.addBin at h
  dsimp only at h
  obtain ⟨b1, h1, h⟩ := bind_ok.mp h
  obtain ⟨b2, h2, h⟩ := bind_ok.mp h
  obtain ⟨b3, h3, h⟩ := bind_ok.mp h
  obtain ⟨b4, h4, h⟩ := bind_ok.mp h
  obtain ⟨b5, h5, h⟩ := bind_ok.mp h
  obtain ⟨b6, h6, h7⟩ := bind_ok.mp h
  clear h
  unfold addBinType at h1
  split_ifs at h1 with hl1 hl2
  cases h1
  change setBinTypeCost (withBinTypes b (b.inst.binTypes ++ [_])) _ _ = _ at h2
  obtain ⟨y2, hy2, rfl⟩ := modifyBin_last h2
  have hc1 : (a.binType i).cost ≠ -1 := by intro e; rw [e] at hc; norm_num at hc
  rw [if_neg (by intro hh; exact absurd hc (not_lt.mpr hh.1)), if_neg hc1] at hy2
  cases hy2
  obtain ⟨y3, hy3, rfl⟩ := modifyBin_last h3
  split_ifs at hy3 with hc1
  cases hy3
  obtain ⟨y4, hy4, rfl⟩ := modifyBin_last h4
  split_ifs at hy4 with hc1
  cases hy4
  obtain ⟨y5, hy5, rfl⟩ := modifyBin_last h5
  split_ifs at hy5
  cases hy5
  rw [addDefects_last h6] at h7
  rw [addResources_last h7]
  simp [flipBin, Flipper.flipTrims]

theorem flip_addItem_ok {b b' : InstanceBuilder} {i : Nat}
    (h : Flipper.addItem a b i = .ok b') :
    b' = withItemTypes b (b.inst.itemTypes ++ [flipItem (a.itemType i)]) := by
  unfold Flipper.addItem at h
  dsimp only at h
  obtain ⟨b1, h1, h⟩ := bind_ok.mp h
  obtain ⟨b2, h2, h3⟩ := bind_ok.mp h
  clear h
  unfold addItemType at h1
  split_ifs at h1 with hl1 hl2
  cases h1
  change setItemTypeProfit (withItemTypes b (b.inst.itemTypes ++ [_])) _ _ = _ at h2
  obtain ⟨y2, hy2, rfl⟩ := modifyItem_last h2
  cases hy2
  obtain ⟨y3, hy3, rfl⟩ := modifyItem_last h3
  split_ifs at hy3 with hc1
  cases hy3
  rfl

theorem flip_bins_ok {b b' : InstanceBuilder}
    (hc : ∀ k, k < a.numberOfBinTypes → 0 < (a.binType k).cost) (hb : b.inst.binTypes = [])
    (h : (List.range a.numberOfBinTypes).foldlM (Flipper.addBin a) b = .ok b') :
    b' = withBinTypes b ((List.range a.numberOfBinTypes).map fun k => flipBin (a.binType k)) := by
  refine foldlM_range_inv (n := a.numberOfBinTypes) (P := fun n x =>
    x = withBinTypes b ((List.range n).map fun k => flipBin (a.binType k))) ?_ ?_ h
  · rw [List.range_zero, List.map_nil, ← hb]; rfl
  · intro k x y hk hx hs
    rw [flip_addBin_ok (hc k hk) hs, hx, List.range_succ, List.map_append]
    rfl

theorem flip_items_ok {b b' : InstanceBuilder} (hb : b.inst.itemTypes = [])
    (h : (List.range a.numberOfItemTypes).foldlM (Flipper.addItem a) b = .ok b') :
    b' = withItemTypes b ((List.range a.numberOfItemTypes).map fun k => flipItem (a.itemType k)) := by
  refine foldlM_range_inv (n := a.numberOfItemTypes) (P := fun n x =>
    x = withItemTypes b ((List.range n).map fun k => flipItem (a.itemType k))) ?_ ?_ h
  · rw [List.range_zero, List.map_nil, ← hb]; rfl
  · intro k x y hk hx hs
    rw [flip_addItem_ok hs, hx, List.range_succ, List.map_append]
    rfl

theorem bsched_out {l : List BinType} {k r j : Nat}
    (h : (l.getD k default).resources.length ≤ r
      ∨ ((l.getD k default).resources.getD r {}).itemConsumptions.length ≤ j) :
    bsched l k r j = [] := by
  unfold bsched sched
  rcases h with h | h
  · rw [List.getD_eq_default _ _ h]; rfl
  · rw [List.getD_eq_default _ _ h]

theorem flip_consumptions_ok {b b' : InstanceBuilder}
    (h0 : ∀ k s j, bsched b.inst.binTypes k s j = [])
    (h : Flipper.copyConsumptions a b = .ok b') :
    ∃ l, b' = withBinTypes b l ∧ SameShape b.inst.binTypes l
      ∧ ∀ k s j, bsched l k s j = if k < a.numberOfBinTypes then bsched a.binTypes k s j else [] := by
  unfold Flipper.copyConsumptions at h
  refine foldlM_range_inv (n := a.numberOfBinTypes) (P := fun n x =>
    ∃ l, x = withBinTypes b l ∧ SameShape b.inst.binTypes l
      ∧ ∀ k s j, bsched l k s j = if k < n then bsched a.binTypes k s j else []) ?_ ?_ h
  · exact ⟨_, rfl, SameShape.refl _, fun k s j => by rw [h0, if_neg (by omega)]⟩
  intro T x y hT ⟨l, hx, hsh, hl⟩ hs
  obtain ⟨l2, e2, hsh2, hl2⟩ := foldlM_range_inv (n := (a.binType T).resources.length)
    (P := fun n x => ∃ l, x = withBinTypes b l ∧ SameShape b.inst.binTypes l
      ∧ ∀ k s j, bsched l k s j = if k < T ∨ (k = T ∧ s < n) then bsched a.binTypes k s j else [])
    ⟨l, hx, hsh, fun k s j => by
      rw [hl]
      by_cases hk : k < T
      · rw [if_pos hk, if_pos (.inl hk)]
      · rw [if_neg hk, if_neg (by omega)]⟩ (by
      intro R x y hR ⟨l, hx, hsh, hl⟩ hs
      obtain ⟨l3, e3, hsh3, hl3⟩ := foldlM_range_inv
        (n := ((a.binType T).resources.getD R {}).itemConsumptions.length)
        (P := fun n x => ∃ l, x = withBinTypes b l ∧ SameShape b.inst.binTypes l
          ∧ ∀ k s j, bsched l k s j
            = if k < T ∨ (k = T ∧ (s < R ∨ (s = R ∧ j < n))) then bsched a.binTypes k s j else [])
        ⟨l, hx, hsh, fun k s j => by
          rw [hl]
          by_cases hk : k < T ∨ (k = T ∧ s < R)
          · rw [if_pos hk, if_pos (by omega)]
          · rw [if_neg hk, if_neg (by omega)]⟩ (by
          intro I x y hI ⟨l, hx, hsh, hl⟩ hs
          subst hx
          obtain ⟨l4, rfl, hsh4, hl4⟩ := writeSchedule_ok (b := withBinTypes b l)
            (by show bsched l T R I = []; rw [hl, if_neg (by omega)]) hs
          refine ⟨l4, rfl, hsh.trans hsh4, fun k s j => ?_⟩
          rw [hl4]
          by_cases hk : k = T ∧ s = R ∧ j = I
          · rw [if_pos hk, if_pos (by omega), hk.1, hk.2.1, hk.2.2]
            rfl
          · rw [if_neg hk]
            show bsched l k s j = _
            rw [hl]
            by_cases hk2 : k < T ∨ (k = T ∧ (s < R ∨ (s = R ∧ j < I)))
            · rw [if_pos hk2, if_pos (by omega)]
            · rw [if_neg hk2, if_neg (by omega)]) hs
      refine ⟨l3, e3, hsh3, fun k s j => ?_⟩
      rw [hl3]
      by_cases hk : k < T ∨ (k = T ∧ s < R + 1)
      · rw [if_pos hk]
        by_cases hk2 : k < T ∨ (k = T ∧ (s < R ∨ (s = R ∧
            j < ((a.binType T).resources.getD R {}).itemConsumptions.length)))
        · rw [if_pos hk2]
        · rw [if_neg hk2]
          obtain ⟨rfl, rfl⟩ : k = T ∧ s = R := by omega
          exact (bsched_out (.inr (by
            have : ¬ j < ((a.binType k).resources.getD s {}).itemConsumptions.length := by
              intro hh; exact hk2 (.inr ⟨rfl, .inr ⟨rfl, hh⟩⟩)
            exact Nat.not_lt.mp this))).symm
      · rw [if_neg hk, if_neg (by omega)]) hs
  refine ⟨l2, e2, hsh2, fun k s j => ?_⟩
  rw [hl2]
  by_cases hk : k < T + 1
  · rw [if_pos hk]
    by_cases hk2 : k < T ∨ (k = T ∧ s < (a.binType T).resources.length)
    · rw [if_pos hk2]
    · rw [if_neg hk2]
      obtain rfl : k = T := by omega
      exact (bsched_out (.inl (by
        have : ¬ s < (a.binType k).resources.length := fun hh => hk2 (.inr ⟨rfl, hh⟩)
        exact Nat.not_lt.mp this))).symm
  · rw [if_neg hk, if_neg (by omega)]

/-- The builder just before `build`. -/
structure Flipping (o : Objective) (a : Instance) (b : InstanceBuilder) : Prop where
  reach : Reach (new o) b
  objective : b.inst.objective
    = if a.objective = .openDimensionY then .openDimensionX else a.objective
  parameters : b.inst.parameters = { a.parameters with firstStageOrientation := .vertical }
  callback : b.inst.callback = (new o).inst.callback
  items : b.inst.itemTypes = (List.range a.numberOfItemTypes).map fun k => flipItem (a.itemType k)
  shape : SameShape ((List.range a.numberOfBinTypes).map fun k => flipBin (a.binType k))
    b.inst.binTypes
  sched : ∀ k s j, bsched b.inst.binTypes k s j
    = if k < a.numberOfBinTypes then bsched a.binTypes k s j else []

theorem flipping {o : Objective} {f : Instance}
    (hc : ∀ k, k < a.numberOfBinTypes → 0 < (a.binType k).cost) (h : Flipper.flip o a = .ok f) :
    ∃ b, Flipping o a b ∧ b.build = .ok f := by
  unfold Flipper.flip at h
  dsimp only at h
  obtain ⟨b1, h1, h⟩ := bind_ok.mp h
  obtain ⟨b2, h2, h⟩ := bind_ok.mp h
  obtain ⟨b3, h3, h⟩ := bind_ok.mp h
  have r0 : Reach (new o) (((new o).setObjective
      (if a.objective = .openDimensionY then .openDimensionX else a.objective)).setParameters
      { a.parameters with firstStageOrientation := .vertical }) :=
    ((Reach.refl _).step (.setObjective _) rfl).step (.setParameters _) rfl
  have r1 := Reach.fold (fun _ _ _ hb hd => flip_addBin_reach hb hd) r0 h1
  have r2 := Reach.fold (fun _ _ _ hb hd => flip_addItem_reach hb hd) r1 h2
  have r3 := flip_consumptions_reach r2 h3
  have e1 := flip_bins_ok hc rfl h1
  have e2 := flip_items_ok (by rw [e1]; rfl) h2
  have hb2 : b2.inst.binTypes = (List.range a.numberOfBinTypes).map fun k => flipBin (a.binType k) := by
    rw [e2, e1]; rfl
  obtain ⟨l, e3, hsh, hl⟩ := flip_consumptions_ok (b := b2) (by
    intro k s j
    rw [hb2]
    apply bsched_out
    by_cases hk : k < a.numberOfBinTypes
    · rw [getD_range_map _ _ hk]
      by_cases hs : s < (a.binType k).resources.length
      · right
        show ((List.map bare (a.binType k).resources).getD s {}).itemConsumptions.length ≤ j
        rw [List.getD_eq_getElem _ _ (by simpa using hs), List.getElem_map]
        exact Nat.zero_le _
      · left
        show (List.map bare (a.binType k).resources).length ≤ s
        rw [List.length_map]
        omega
    · left
      rw [List.getD_eq_default _ _ (by simpa using hk)]
      exact Nat.zero_le _) h3
  refine ⟨b3, ⟨r3, ?_, ?_, ?_, ?_, ?_, ?_⟩, h⟩
  · rw [e3, e2, e1]; rfl
  · rw [e3, e2, e1]; rfl
  · rw [e3, e2, e1]; rfl
  · rw [e3, e2]; rfl
  · rw [e3, ← hb2]; exact hsh
  · rw [e3]; exact hl

end PackingSolver.Guil
