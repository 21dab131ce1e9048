import Verif.Lemmas.Rect.TreeTotals

/-! Helper lemmas: the quantities the rectangle branching scheme prunes by. -/

namespace PackingSolver.Rect.TreeSearch

open Rect.Spec FlipLemmas OneDim.Spec
open PackingSolver.OneDim (getD_mem forall_mem_snoc)

variable {s : Scheme} {n n' m : Node} {i : Insertion}

theorem area_fold_eq (xsMax : Int) (l : List UncoveredItem) : ∀ st : AreaState,
    (l.foldl (areaStep false xsMax) st).currentArea = st.currentArea + skyArea l := by
  induction l with
  | nil => intro st; simp [skyArea]
  | cons u l ih =>
    intro st
    rw [List.foldl_cons, ih, skyArea_cons]
    unfold areaStep
    dsimp only
    rw [if_neg (by simp)]
    ring

theorem yeMax_fold (stair : Bool) (xsMax : Int) (l : List UncoveredItem) : ∀ st : AreaState,
    st.yeMax ≤ (l.foldl (areaStep stair xsMax) st).yeMax
    ∧ (∀ u ∈ l, 0 < u.xe → u.ye ≤ (l.foldl (areaStep stair xsMax) st).yeMax)
    ∧ ((l.foldl (areaStep stair xsMax) st).yeMax = st.yeMax
      ∨ ∃ u ∈ l, 0 < u.xe ∧ (l.foldl (areaStep stair xsMax) st).yeMax = u.ye) := by
  induction l with
  | nil => intro st; exact ⟨le_refl _, by simp, Or.inl rfl⟩
  | cons u l ih =>
    intro st
    rw [List.foldl_cons]
    obtain ⟨h1, h2, h3⟩ := ih (areaStep stair xsMax st u)
    have e : (areaStep stair xsMax st u).yeMax
        = if u.xe > 0 ∧ st.yeMax < u.ye then u.ye else st.yeMax := rfl
    generalize hr : (l.foldl (areaStep stair xsMax) (areaStep stair xsMax st u)).yeMax = r at *
    by_cases hc : u.xe > 0 ∧ st.yeMax < u.ye
    · rw [if_pos hc] at e
      refine ⟨by omega, ?_, ?_⟩
      · intro v hv h0
        rcases List.mem_cons.mp hv with rfl | hv
        · omega
        · exact h2 v hv h0
      · rcases h3 with h3 | ⟨v, hv, h3⟩
        · exact Or.inr ⟨u, List.mem_cons_self, hc.1, by omega⟩
        · exact Or.inr ⟨v, List.mem_cons_of_mem _ hv, h3⟩
    · rw [if_neg hc] at e
      refine ⟨by omega, ?_, ?_⟩
      · intro v hv h0
        rcases List.mem_cons.mp hv with rfl | hv
        · omega
        · exact h2 v hv h0
      · rcases h3 with h3 | ⟨v, hv, h3⟩
        · exact Or.inl (by omega)
        · exact Or.inr ⟨v, List.mem_cons_of_mem _ hv, h3⟩

/-- Further values computed by `child`. -/
structure ChildMore (s : Scheme) (n : Node) (J : Instance) (b : Nat) (newBin : Bool) (bins : Nat)
    (n' : Node) : Prop where
  yeMax0 : (if newBin then 0 else n.yeMax) ≤ n'.yeMax
  yeMax1 : ∀ u ∈ n'.uncoveredItems, 0 < u.xe → u.ye ≤ n'.yeMax
  yeMax2 : n'.yeMax = (if newBin then 0 else n.yeMax)
    ∨ ∃ u ∈ n'.uncoveredItems, 0 < u.xe ∧ n'.yeMax = u.ye
  leftover : n'.leftoverValue = match J.parameters.leftoverMode with
    | .area => (J.binType b).area - n'.xeMax * n'.yeMax
    | _ => (J.binType b).x - n'.xeMax
  waste : s.parameters.staircase = false →
    ¬ (bins < J.numberOfBins ∧ J.itemArea - n'.itemArea < (J.binType b).area) →
    n'.waste = max ((if n'.numberOfItems = J.numberOfItems
        then s.previousBinsArea.getD (bins - 1) 0 + n'.xeMax * (J.binType b).y
        else s.previousBinsArea.getD (bins - 1) 0 + skyArea n'.uncoveredItems) - n'.itemArea)
      (s.previousBinsArea.getD (bins - 1) 0 + n'.xeMax * (J.binType b).y - J.itemArea)

theorem child_more {ins : Insertion} (h : child s n ins = .ok n') :
    ChildMore s n (s.instanceOf (nextDir n ins)) (s.binTypeIds.getD (nextBins n ins - 1) 0)
      (decide (ins.newBin > 0)) (nextBins n ins) n' := by
  rw [child_eq] at h
  generalize s.instanceOf (nextDir n ins) = J at h ⊢
  generalize s.binTypeIds.getD (nextBins n ins - 1) 0 = b at h ⊢
  generalize nextBins n ins = bins at h ⊢
  generalize nextDir n ins = dir at h ⊢
  generalize decide (ins.newBin > 0) = nb at h ⊢
  unfold childCore at h
  dsimp only at h
  by_cases hr : bins = 0 ∨ bins > s.binTypeIds.length ∨ ins.itemTypeId ≥ J.numberOfItemTypes
  · rw [if_pos hr] at h; simp at h
  rw [if_neg hr] at h
  generalize skyOf J b n nb (insItem ins) = sky at h
  obtain ⟨l, pos⟩ := sky
  cases pos with
  | none => simp at h
  | some pos =>
    dsimp only at h
    obtain ⟨-, h⟩ := ite_run h
    simp only [Except.ok.injEq] at h
    subst h
    generalize (if nb = true then ins.x else max n.xsMax ins.x) = xsMax
    generalize updateDominance _ _ _ _ = us
    obtain ⟨h1, h2, h3⟩ := yeMax_fold s.parameters.staircase xsMax us.reverse
      { currentArea := s.previousBinsArea.getD (bins - 1) 0
        guideArea := s.previousBinsArea.getD (bins - 1) 0 + xsMax * (J.binType b).y
        yeMax := if nb = true then 0 else n.yeMax }
    refine ⟨h1, fun u hu => h2 u (List.mem_reverse.mpr hu), ?_, rfl, ?_⟩
    · rcases h3 with h3 | ⟨u, hu, h3⟩
      · exact Or.inl h3
      · exact Or.inr ⟨u, List.mem_reverse.mp hu, h3⟩
    · intro hst hno
      dsimp only at hno ⊢
      rw [if_neg hno, hst, area_fold_eq, skyArea_reverse]

/-- What the values of a node with a bin mean. -/
structure Bnd (s : Scheme) (n : Node) : Prop where
  yeMax : IsMaxWithZero (((inBin n.steps (n.numberOfBins - 1)).map Step.frame).map
    (upperEnd (s.instanceOf n.lastBinDirection))) n.yeMax
  leftover : n.leftoverValue = match (s.instanceOf n.lastBinDirection).parameters.leftoverMode with
    | .area => ((s.instanceOf n.lastBinDirection).binType
        (s.binTypeIds.getD (n.numberOfBins - 1) 0)).area - n.xeMax * n.yeMax
    | _ => ((s.instanceOf n.lastBinDirection).binType
        (s.binTypeIds.getD (n.numberOfBins - 1) 0)).x - n.xeMax
  waste : s.parameters.staircase = false →
    ¬ (n.numberOfBins < s.inst.numberOfBins ∧ s.inst.itemArea - n.itemArea
      < (s.inst.binType (s.binTypeIds.getD (n.numberOfBins - 1) 0)).area) →
    n.waste = max ((if n.numberOfItems = s.inst.numberOfItems
        then s.previousBinsArea.getD (n.numberOfBins - 1) 0
          + n.xeMax * ((s.instanceOf n.lastBinDirection).binType
            (s.binTypeIds.getD (n.numberOfBins - 1) 0)).y
        else s.previousBinsArea.getD (n.numberOfBins - 1) 0 + skyArea n.uncoveredItems) - n.itemArea)
      (s.previousBinsArea.getD (n.numberOfBins - 1) 0
        + n.xeMax * ((s.instanceOf n.lastBinDirection).binType
            (s.binTypeIds.getD (n.numberOfBins - 1) 0)).y - s.inst.itemArea)

theorem Ctx.totals (hc : Ctx s) (d : Direction) :
    (s.instanceOf d).numberOfItems = s.inst.numberOfItems
    ∧ (s.instanceOf d).itemArea = s.inst.itemArea
    ∧ (s.instanceOf d).numberOfBins = s.inst.numberOfBins := by
  unfold Scheme.instanceOf
  by_cases hd : d = .x
  · rw [if_pos hd]; exact ⟨rfl, rfl, rfl⟩
  · rw [if_neg hd]
    have h1 := hc.flipped
    refine ⟨?_, ?_, ?_⟩
    · rw [hc.aggF.numberOfItems, hc.agg.numberOfItems,
        flipped_map_items h1 (·.copies) _ fun t t' e => e.copies]
    · rw [hc.aggF.itemArea, hc.agg.itemArea, flipped_map_items h1 (fun t => t.copies * t.area)]
      intro t t' e
      rw [e.copies, ItemType.area, ItemType.area, e.x, e.y, mul_comm t.y]
    · unfold Instance.numberOfBins
      rw [hc.aggF.binTypeIds, hc.agg.binTypeIds, binPositions_copies, binPositions_copies,
        flipped_map_bins h1 (·.copies) (·.copies) (fun t t' e => e.copies)]

theorem bnd_step (hc : Ctx s) (ho : Offer s n i) (h : Inv s n) (hb : 0 < n.numberOfBins → Bnd s n)
    (hn : child s n i = .ok n') : Bnd s n' := by
  have hC := child_ok hn
  have hM := child_more hn
  have hv' := inv_step hc ho h hn
  have hpos := next_pos ho
  have hle := ho.le
  have hid := hc.id_lt (k := nextBins n i - 1) (by omega)
  have hfr := hc.frame (nextDir n i)
  obtain ⟨t1, t2, t3⟩ := hc.totals (nextDir n i)
  have hL : (inBin n'.steps (n'.numberOfBins - 1)).map Step.frame = binItems n i ++ [insItem i] := by
    rw [hC.steps, hC.numberOfBins, inBin_snoc, if_pos (by dsimp only; omega), List.map_append]
    rfl
  have hcur := hv'.cur (by rw [hC.numberOfBins]; exact hpos)
  rw [hL] at hcur
  refine ⟨?_, ?_, ?_⟩
  · rw [hL, hC.direction]
    rw [hC.direction, hC.numberOfBins] at hcur
    have hold : IsMaxWithZero ((binItems n i).map (upperEnd (s.instanceOf (nextDir n i))))
        (if decide (i.newBin > 0) = true then 0 else n.yeMax) := by
      by_cases h0 : i.newBin = 0
      · rw [if_neg (by simp [h0])]
        unfold binItems
        rw [nextBins_zero h0, nextDir_zero h0]
        exact (hb (ho.cur h0)).yeMax
      · rw [if_pos (by simpa using by omega), binItems_new ho h h0]
        exact ⟨by simp, le_refl _, Or.inl rfl⟩
    have hi : (insItem i).itemTypeId < (s.instanceOf (nextDir n i)).numberOfItemTypes := hC.item
    have hsd := sides hfr.sizes hi (insItem i).rotate
    have hins := hcur.valid.packing.inside (insItem i) (by simp)
    have hy0 : 0 ≤ (insItem i).y := hins.2.2.1
    have hx0 : 0 ≤ (insItem i).x := hins.1
    have htop : upperEnd (s.instanceOf (nextDir n i)) (insItem i)
        ≤ ((s.instanceOf (nextDir n i)).binType (s.binTypeIds.getD (nextBins n i - 1) 0)).y :=
      hins.2.2.2
    have hup : upperEnd (s.instanceOf (nextDir n i)) (insItem i) ≤ n'.yeMax := by
      obtain ⟨u, hu, hu1, hu2⟩ := hcur.sky.tiles.lookup
        (y := upperEnd (s.instanceOf (nextDir n i)) (insItem i) - 1)
        (by rw [upperEnd_eq]; omega) (by omega)
      have hr := hcur.sky.cover u hu (insItem i) (by simp) (by
        unfold UncoveredItem.Meets
        have := upperEnd_eq (s.instanceOf (nextDir n i)) (insItem i)
        omega)
      rw [rightEnd_eq] at hr
      have := hM.yeMax1 u hu (by omega)
      omega
    have hub : ∀ p ∈ binItems n i ++ [insItem i],
        upperEnd (s.instanceOf (nextDir n i)) p ≤ n'.yeMax := by
      intro p hp
      rcases List.mem_append.mp hp with hp | hp
      · exact le_trans (hold.1 _ (List.mem_map.mpr ⟨p, hp, rfl⟩)) hM.yeMax0
      · rw [List.mem_singleton.mp hp]; exact hup
    refine ⟨?_, le_trans hold.2.1 hM.yeMax0, ?_⟩
    · intro y hy
      obtain ⟨p, hp, rfl⟩ := List.mem_map.mp hy
      exact hub p hp
    · rcases hM.yeMax2 with e | ⟨u, hu, h0, e⟩
      · rw [e]
        rcases hold.2.2 with e' | e'
        · exact Or.inl e'
        · rw [List.map_append]
          exact Or.inr (List.mem_append_left _ e')
      · rcases hcur.sky.attained u hu with e' | ⟨p, hp, -, hp2⟩
        · omega
        · have := hub p hp
          exact Or.inr (List.mem_map.mpr ⟨p, hp, by omega⟩)
  · rw [hC.direction, hC.numberOfBins]
    exact hM.leftover
  · intro hst hno
    rw [hC.numberOfBins] at hno ⊢
    rw [hC.direction]
    have := hM.waste hst (by rw [t2, t3]; rwa [show ((s.instanceOf (nextDir n i)).binType
      (s.binTypeIds.getD (nextBins n i - 1) 0)).area = _ from hfr.binArea _ hid])
    rw [t1, t2] at this
    exact this

theorem bnd_reached (hc : Ctx s) (h : Reached s n) : 0 < n.numberOfBins → Bnd s n := by
  induction h with
  | root =>
    have e : s.rootNode = emptyRoot s.inst := by unfold Scheme.rootNode; rw [hc.root]; rfl
    rw [e]
    intro h; exact absurd h (by simp [emptyRoot])
  | child h hl hi hch ih =>
    have hv := inv_reached hc h
    exact fun _ => bnd_step hc (offer_of_mem hc hv.binsLe hv.tiles hl hi) hv ih hch

/-! ### Descendants -/

theorem descends_reached {n m : Node} (hn : Reached s n) (h : Descends s n m) : Reached s m := by
  induction h with
  | self => exact hn
  | child _ hl hi hch ih => exact .child ih hl hi hch

/-- The area closed by a node: the previous bins and the part of the last one left of the
skyline. -/
def closedArea (s : Scheme) (n : Node) : Int :=
  if n.numberOfBins = 0 then 0
  else s.previousBinsArea.getD (n.numberOfBins - 1) 0 + skyArea n.uncoveredItems

/-- What grows from a node to its descendants. -/
structure Grows (s : Scheme) (n m : Node) : Prop where
  bins : n.numberOfBins ≤ m.numberOfBins
  same : n.numberOfBins = m.numberOfBins → 0 < n.numberOfBins →
    m.lastBinDirection = n.lastBinDirection ∧ n.xeMax ≤ m.xeMax ∧ n.yeMax ≤ m.yeMax
  area : closedArea s n - n.itemArea ≤ closedArea s m - m.itemArea

theorem Grows.trans {k : Node} (h : Grows s n m) (h' : Grows s m k) : Grows s n k := by
  have b1 := h.bins
  have b2 := h'.bins
  refine ⟨by omega, fun e h0 => ?_, by have := h.area; have := h'.area; omega⟩
  obtain ⟨d1, x1, y1⟩ := h.same (by omega) h0
  obtain ⟨d2, x2, y2⟩ := h'.same (by omega) (by omega)
  exact ⟨d2.trans d1, by omega, by omega⟩

theorem bin_sky_le (hc : Ctx s) (h : Inv s n) (h0 : 0 < n.numberOfBins) :
    skyArea n.uncoveredItems ≤ n.xeMax * ((s.instanceOf n.lastBinDirection).binType
        (s.binTypeIds.getD (n.numberOfBins - 1) 0)).y
    ∧ n.xeMax * ((s.instanceOf n.lastBinDirection).binType
        (s.binTypeIds.getD (n.numberOfBins - 1) 0)).y
      ≤ (s.inst.binType (s.binTypeIds.getD (n.numberOfBins - 1) 0)).area := by
  have hle := h.binsLe
  have hid := hc.id_lt (k := n.numberOfBins - 1) (by omega)
  have hfr := hc.frame n.lastBinDirection
  have hl := h.cur h0
  obtain ⟨x1, x2, x3⟩ := hl.xeMax
  constructor
  · have h3 := skyArea_le hl.sky.tiles (x := n.xeMax) (by
      intro u hu
      rcases hl.sky.attained u hu with e | ⟨p, hp, e, -⟩
      · rw [e]; exact x2
      · rw [e]; exact x1 _ (List.mem_map.mpr ⟨p, hp, rfl⟩))
    rwa [sub_zero] at h3
  · rw [← hfr.binArea _ hid]
    apply mul_le_mul_of_nonneg_right _ (le_of_lt (hfr.binPos _ hid).2)
    rcases x3 with e | e
    · rw [e]; exact le_of_lt (hfr.binPos _ hid).1
    · obtain ⟨p, hp, e⟩ := List.mem_map.mp e
      rw [← e]; exact (hl.valid.packing.inside p hp).2.1

theorem grows_step (hc : Ctx s) (ho : Offer s n i) (h : Inv s n)
    (hn : child s n i = .ok n') : Grows s n n' := by
  have hC := child_ok hn
  have hM := child_more hn
  have hv' := inv_step hc ho h hn
  have hpos := next_pos ho
  have hle := ho.le
  have hfr := hc.frame (nextDir n i)
  have hi := offer_item hc ho
  obtain ⟨pos, h1, h2, h3⟩ := offer_sky (L := binItems n i) (a := insItem i) ho.tried rfl hfr.sizes
    (hfr.nItems ▸ hi) ho.y (fun h0 => ⟨(binItems_old ho h h0).valid, (binItems_old ho h h0).sky⟩)
    (fun h0 => binItems_new ho h h0)
  have harea := skyArea_core hC.sky
  refine ⟨?_, ?_, ?_⟩
  · rw [hC.numberOfBins]
    by_cases h0 : i.newBin = 0
    · rw [nextBins_zero h0]
    · exact le_of_lt (ho.new h0)
  · intro e hb0
    have h0 : i.newBin = 0 := by
      by_contra h0
      have := ho.new h0
      rw [hC.numberOfBins] at e
      omega
    refine ⟨by rw [hC.direction, nextDir_zero h0], ?_, ?_⟩
    · have hold := (h.cur hb0).xeMax
      have hnew := (hv'.cur (by omega)).xeMax
      rw [hC.direction, hC.numberOfBins, hC.steps, inBin_snoc, if_pos (by dsimp only; omega),
        List.map_append, List.map_append, nextDir_zero h0, nextBins_zero h0] at hnew
      rcases hold.2.2 with e | e
      · rw [e]; exact hnew.2.1
      · exact hnew.1 _ (List.mem_append_left _ e)
    · have := hM.yeMax0
      rwa [if_neg (by simp [h0])] at this
  · unfold closedArea
    rw [hC.numberOfBins, hC.itemArea, harea, if_neg (show ¬ nextBins n i = 0 by omega)]
    have h3' : (if i.newBin = 0 then skyArea n.uncoveredItems else 0)
        + ((s.instanceOf (nextDir n i)).itemType (insItem i).itemTypeId).area
      ≤ skyArea (skyOf (s.instanceOf (nextDir n i)) (s.binTypeIds.getD (nextBins n i - 1) 0) n
        (decide (i.newBin > 0)) (insItem i)).1 := h3
    generalize skyArea (skyOf (s.instanceOf (nextDir n i)) (s.binTypeIds.getD (nextBins n i - 1) 0) n
      (decide (i.newBin > 0)) (insItem i)).1 = A at h3' ⊢
    by_cases h0 : i.newBin = 0
    · have hb0 := ho.cur h0
      rw [if_pos h0] at h3'
      rw [if_neg (show ¬ n.numberOfBins = 0 by omega), nextBins_zero h0]
      omega
    · have hnw := ho.new h0
      rw [if_neg h0] at h3'
      by_cases hb0 : n.numberOfBins = 0
      · rw [if_pos hb0]
        have := hc.prev_nonneg (k := nextBins n i - 1) (by omega)
        omega
      · rw [if_neg hb0]
        have := hc.prev_le (j := n.numberOfBins - 1) (k := nextBins n i - 1) (by omega) (by omega)
        obtain ⟨q1, q2⟩ := bin_sky_le hc h (by omega)
        omega

theorem grows_descends (hc : Ctx s) (hn : Reached s n) (h : Descends s n m) : Grows s n m := by
  induction h with
  | self => exact ⟨le_refl _, fun _ _ => ⟨rfl, le_refl _, le_refl _⟩, le_refl _⟩
  | child hd hl hi hch ih =>
    have hv := inv_reached hc (descends_reached hn hd)
    exact ih.trans (grows_step hc (offer_of_mem hc hv.binsLe hv.tiles hl hi) hv hch)

end PackingSolver.Rect.TreeSearch

namespace PackingSolver.Rect.TreeSearch

open Rect.Spec FlipLemmas OneDim.Spec
open PackingSolver.OneDim (getD_mem forall_mem_snoc)

variable {s : Scheme} {n n' m : Node} {i : Insertion}

/-! ### The bounds -/

theorem binsForArea_le (l : List Int) : ∀ (a : Int) (k j : Nat), a ≤ (l.take j).sum →
    ∃ r, binsForArea l a k = some r ∧ r ≤ k + j := by
  induction l with
  | nil =>
    intro a k j h
    have : ¬ a > 0 := by simpa using h
    unfold binsForArea
    rw [if_neg this]
    exact ⟨k, rfl, by omega⟩
  | cons x l ih =>
    intro a k j h
    unfold binsForArea
    by_cases ha : a > 0
    · rw [if_pos ha]
      cases j with
      | zero => simp at h; omega
      | succ j =>
        rw [List.take_succ_cons, List.sum_cons] at h
        obtain ⟨r, h1, h2⟩ := ih (a - x) (k + 1) j (by omega)
        exact ⟨r, h1, by omega⟩
    · rw [if_neg ha]
      exact ⟨k, rfl, by omega⟩

/-- The total area of the bins of a node. -/
def binsArea (s : Scheme) (k : Nat) : Int :=
  ((s.binTypeIds.map fun b => (s.inst.binType b).area).take k).sum

theorem binsArea_succ (hc : Ctx s) {k : Nat} (hk : k < s.binTypeIds.length) :
    binsArea s (k + 1) = s.previousBinsArea.getD k 0
      + (s.inst.binType (s.binTypeIds.getD k 0)).area := by
  unfold binsArea
  rw [hc.prev_eq hk, ← List.map_take, List.take_add_one, List.getElem?_eq_getElem hk,
    List.map_append, List.sum_append, List.getD_eq_getElem _ _ hk]
  simp

theorem binsArea_mono (hc : Ctx s) {j k : Nat} (h : j ≤ k) : binsArea s j ≤ binsArea s k := by
  unfold binsArea
  obtain ⟨d, rfl⟩ : ∃ d, k = j + d := ⟨k - j, by omega⟩
  rw [List.take_add, List.sum_append]
  have : 0 ≤ (List.take d (List.drop j (s.binTypeIds.map fun b => (s.inst.binType b).area))).sum := by
    apply List.sum_nonneg
    intro x hx
    obtain ⟨b, hb, rfl⟩ := List.mem_map.mp (List.mem_of_mem_drop (List.mem_of_mem_take hx))
    rw [hc.ids] at hb
    exact hc.binPos (mem_ids hb)
  omega

theorem closedArea_le (hc : Ctx s) (h : Inv s n) : closedArea s n ≤ binsArea s n.numberOfBins := by
  unfold closedArea
  by_cases h0 : n.numberOfBins = 0
  · rw [if_pos h0, h0]; exact le_refl _
  · rw [if_neg h0]
    obtain ⟨K, hK⟩ : ∃ K, n.numberOfBins = K + 1 := ⟨n.numberOfBins - 1, by omega⟩
    have hle := h.binsLe
    obtain ⟨q1, q2⟩ := bin_sky_le hc h (by omega)
    rw [hK] at q1 q2 ⊢
    rw [Nat.add_sub_cancel] at q1 q2 ⊢
    rw [binsArea_succ hc (by omega)]
    omega

theorem sum_steps (l : List Step) (N : Nat) (f : Nat → Int) (h : ∀ st ∈ l, st.itemTypeId < N) :
    (l.map fun st => f st.itemTypeId).sum
      = ∑ i ∈ Finset.range N, count (l.map Step.frame) i * f i := by
  induction l using List.reverseRecOn with
  | nil => simp [count]
  | append_singleton l a ih =>
    have e : ∀ i ∈ Finset.range N, count ((l ++ [a]).map Step.frame) i * f i
        = count (l.map Step.frame) i * f i + if a.itemTypeId = i then f i else 0 := by
      intro i _
      rw [List.map_append, List.map_singleton, count_snoc]
      have : (Step.frame a).itemTypeId = a.itemTypeId := rfl
      rw [this]
      split_ifs <;> ring
    rw [Finset.sum_congr rfl e, Finset.sum_add_distrib,
      ← ih fun st hst => h st (List.mem_append_left _ hst), Finset.sum_ite_eq,
      if_pos (Finset.mem_range.mpr (h a (by simp)))]
    simp

theorem sum_types (I : Instance) (f : ItemType → Int) : (I.itemTypes.map f).sum
    = ∑ i ∈ Finset.range I.numberOfItemTypes, f (I.itemType i) := by
  unfold Instance.numberOfItemTypes Instance.itemType
  induction I.itemTypes using List.reverseRecOn with
  | nil => rfl
  | append_singleton l a ih =>
    rw [List.map_append, List.sum_append, ih, List.length_append, List.length_singleton,
      Finset.sum_range_succ]
    congr 1
    · apply Finset.sum_congr rfl
      intro i hi
      rw [List.getD_append _ _ _ _ (Finset.mem_range.mp hi)]
    · simp

/-- A leaf contains the area of all items. -/
theorem leaf_area (hc : Ctx s) (h : Inv s n) (ht : Totals s n) (hl : leaf s n = true) :
    n.itemArea = s.inst.itemArea := by
  rw [ht.area, hc.agg.itemArea, sum_types,
    sum_steps n.steps s.inst.numberOfItemTypes (fun i => (s.inst.itemType i).area) h.items]
  apply Finset.sum_congr rfl
  intro i hi
  rw [← itemCopies_packing h, (leaf_iff hc h).mp hl i (Finset.mem_range.mp hi)]

theorem reached_zero (hc : Ctx s) (hn : Reached s n) (h0 : n.numberOfBins = 0) :
    n = emptyRoot s.inst := by
  cases hn with
  | root => unfold Scheme.rootNode; rw [hc.root]; rfl
  | child h hl hi hch =>
    have := (child_ok hch).bins0
    rw [(child_ok hch).numberOfBins] at h0
    omega

/-- The waste of a node is a lower bound on the waste of the leaves below it, unless an extra bin
has been detected. -/
theorem waste_bound (hc : Ctx s) (hst : s.parameters.staircase = false) (hn : Reached s n)
    (hd : Descends s n m) (hl : leaf s m = true)
    (hex : 0 < n.numberOfBins → ¬ (n.numberOfBins < s.inst.numberOfBins
      ∧ s.inst.itemArea - n.itemArea < (s.inst.binType (s.binTypeIds.getD (n.numberOfBins - 1) 0)).area)) (U : Int)
    (hU1 : closedArea s m ≤ U)
    (hU2 : 0 < n.numberOfBins → s.previousBinsArea.getD (n.numberOfBins - 1) 0
      + n.xeMax * ((s.instanceOf n.lastBinDirection).binType
            (s.binTypeIds.getD (n.numberOfBins - 1) 0)).y ≤ U) :
    s.inst.itemArea + n.waste ≤ U := by
  have hm := descends_reached hn hd
  have hg := (grows_descends hc hn hd).area
  have ha := leaf_area hc (inv_reached hc hm) (totals_reached hc hm) hl
  by_cases h0 : n.numberOfBins = 0
  · have e := reached_zero hc hn h0
    have e1 : closedArea s n = 0 := by unfold closedArea; rw [if_pos h0]
    have e2 : n.itemArea = 0 := by rw [e]; rfl
    have e3 : n.waste = 0 := by rw [e]; rfl
    omega
  · have hB := (bnd_reached hc hn (by omega)).waste hst (hex (by omega))
    have h2 := hU2 (by omega)
    rw [hB]
    have : closedArea s n = s.previousBinsArea.getD (n.numberOfBins - 1) 0
        + skyArea n.uncoveredItems := by unfold closedArea; rw [if_neg h0]
    by_cases hln : n.numberOfItems = s.inst.numberOfItems
    · rw [if_pos hln]
      have := leaf_area hc (inv_reached hc hn) (totals_reached hc hn) (by unfold leaf; simpa using hln)
      omega
    · rw [if_neg hln]
      omega

end PackingSolver.Rect.TreeSearch
