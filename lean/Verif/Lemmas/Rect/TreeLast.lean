import Verif.Lemmas.Rect.TreeChild
import Verif.Lemmas.Rect.Unflip

/-! Helper lemmas: the last bin of a node of the rectangle branching scheme. -/

namespace PackingSolver.Rect.TreeSearch

open Rect.Spec
open PackingSolver.OneDim (getD_mem forall_mem_snoc)
open PackingSolver.OneDim.Spec (IsMaxWithZero)

/-- What holds of the last bin of a node; `J` is the instance in the direction of the bin, `b` its
type and `L` its items. -/
structure LastOk (J : Instance) (b : Nat) (L : List PlacedItem) (n : Node) : Prop where
  valid : BinValid J b L
  res : 0 < (J.binType b).resources.length →
    Res J b L n.lastBinItemNumberOfCopies n.lastBinResourceConsumption
  sky : Sky J b L n.uncoveredItems
  grp : Grp J L n.groups
  unloading : (J.parameters.unloadingConstraint = .increasingX → (J.binType b).defects = []) →
    UnloadingOk J.parameters.unloadingConstraint J L
  xeMax : IsMaxWithZero (L.map (rightEnd J)) n.xeMax

variable {s : Scheme} {n n' : Node} {J : Instance} {b newBin bins : Nat} {L : List PlacedItem}
  {a : PlacedItem} {dir : Direction} {ins : Insertion} {newBinPos : Option Nat}

theorem sides {J : Instance} (hs : Sizes J) {i : Nat} (hi : i < J.numberOfItemTypes) (r : Bool) :
    0 < (J.itemType i).width r ∧ 0 < (J.itemType i).height r
    ∧ (J.itemType i).width r * (J.itemType i).height r = (J.itemType i).area := by
  have := hs.items _ (getD_mem default hi)
  obtain ⟨h1, h2, -⟩ := this
  unfold Instance.itemType
  cases r
  · exact ⟨h1, h2, rfl⟩
  · exact ⟨h2, h1, mul_comm _ _⟩

theorem offer_unloading (hT : Tried s n a.itemTypeId a.rotate newBin newBinPos a.y ins J b) :
    Supported J.parameters.unloadingConstraint
    ∧ (J.parameters.unloadingConstraint = .onlyXMovements → ∀ u ∈ n.uncoveredItems,
      u.Meets a.y (upperEnd J a) → ∀ i, u.itemTypeId = some i →
        groupOf J a ≤ (J.itemType i).groupId)
    ∧ (J.parameters.unloadingConstraint = .increasingX → (J.binType b).defects = [] →
      ∀ g, g < J.numberOfGroups → (groupOf J a < g → (n.groups.getD g {}).xMax ≤ ins.x)
        ∧ (g < groupOf J a → ins.x ≤ (n.groups.getD g {}).xMin)) := by
  obtain ⟨x0, hx0, hu⟩ := hT.unloading
  unfold unloadingOk at hu
  generalize hc : J.parameters.unloadingConstraint = c at hu ⊢
  cases c with
  | none => exact ⟨Or.inl rfl, fun h => by simp at h, fun h => by simp at h⟩
  | increasingY => simp at hu
  | onlyYMovements => simp at hu
  | onlyXMovements =>
    refine ⟨Or.inr (Or.inl rfl), fun _ u hm hme i hi => ?_, fun h => by simp at h⟩
    simp only [Except.ok.injEq, List.all_eq_true] at hu
    have := hu u hm
    unfold UncoveredItem.Meets at hme
    rw [upperEnd_eq] at hme
    rw [if_neg hme, hi] at this
    simpa [groupOf] using this
  | increasingX =>
    refine ⟨Or.inr (Or.inr rfl), fun h => by simp at h, fun _ hd g hg => ?_⟩
    simp only [Except.ok.injEq, List.all_eq_true] at hu
    have := hu g (List.mem_range.mpr hg)
    rw [hx0 hd] at this
    simp only [Bool.and_eq_true, Bool.not_eq_true', Bool.and_eq_false_iff, decide_eq_false_iff_not,
      not_lt] at this
    unfold groupOf
    refine ⟨fun h => ?_, fun h => ?_⟩
    · rcases this.1 with h' | h' <;> omega
    · rcases this.2 with h' | h' <;> omega

/-- The skyline after an offered insertion. -/
theorem offer_sky (hT : Tried s n a.itemTypeId a.rotate newBin newBinPos a.y ins J b)
    (hx : a.x = ins.x) (hs : Sizes J) (hi : a.itemTypeId < J.numberOfItemTypes) (hy : 0 ≤ a.y)
    (hold : newBin = 0 → BinValid J b L ∧ Sky J b L n.uncoveredItems) (hnew : newBin ≠ 0 → L = []) :
    ∃ pos, (skyOf J b n (decide (newBin > 0)) a).2 = some pos
    ∧ Sky J b (L ++ [a]) (skyOf J b n (decide (newBin > 0)) a).1
    ∧ (if newBin = 0 then skyArea n.uncoveredItems else 0) + (J.itemType a.itemTypeId).area
      ≤ skyArea (skyOf J b n (decide (newBin > 0)) a).1 := by
  obtain ⟨s1, s2, s3⟩ := sides hs hi a.rotate
  have hx0 := hT.x
  rw [← hx] at hx0
  have htop : upperEnd J a ≤ (J.binType b).y := by rw [upperEnd_eq]; exact hT.top
  have hh : a.y < upperEnd J a := by rw [upperEnd_eq]; omega
  by_cases h0 : newBin = 0
  · subst h0
    obtain ⟨hv, hsk⟩ := hold rfl
    have hL : ∀ p ∈ L, p.y < upperEnd J p := fun p hp => by
      have := (sides hs (hv.packing.exist p hp) p.rotate).2.1
      rw [upperEnd_eq]; omega
    obtain ⟨e1, e2, e3⟩ := sky_same hsk hL hy hh htop (by rw [rightEnd_eq]; omega)
      (fun u hu hm => by rw [hx]; exact hT.over rfl u hu (by rwa [upperEnd_eq] at hm))
      (fun hu => (offer_unloading hT).2.1 hu)
    have e : skyOf J b n (decide (0 > 0)) a = sameBinSkyline n.uncoveredItems (newUncovered J a) := rfl
    rw [e, e1]
    refine ⟨_, rfl, e2, ?_⟩
    have : (rightEnd J a - a.x) * (upperEnd J a - a.y) = (J.itemType a.itemTypeId).area := by
      rw [rightEnd_eq, upperEnd_eq, ← s3]; ring
    rw [if_pos rfl]
    dsimp only
    omega
  · rw [hnew h0, List.nil_append, if_neg h0]
    obtain ⟨e1, e2, e3⟩ := sky_new hy hh htop
    have e : skyOf J b n (decide (newBin > 0)) a = newBinSkyline a.itemTypeId a.x (rightEnd J a) a.y
        (upperEnd J a) (J.binType b).y := by
      unfold skyOf; rw [if_pos (by simpa using by omega)]
    rw [e]
    refine ⟨_, e2, e1, ?_⟩
    rw [e3, ← s3, rightEnd_eq, upperEnd_eq]
    have : (J.itemType a.itemTypeId).width a.rotate * (J.itemType a.itemTypeId).height a.rotate
        ≤ (a.x + (J.itemType a.itemTypeId).width a.rotate)
          * (J.itemType a.itemTypeId).height a.rotate :=
      mul_le_mul_of_nonneg_right (by omega) (by omega)
    have e4 : a.y + (J.itemType a.itemTypeId).height a.rotate - a.y
        = (J.itemType a.itemTypeId).height a.rotate := by omega
    rw [e4]
    omega

theorem separated_of_meets {d : Defect} {J : Instance} {a : PlacedItem}
    (h : meetsDefect d a.x ((J.itemType a.itemTypeId).width a.rotate) a.y
      (a.y + (J.itemType a.itemTypeId).height a.rotate) = false) :
    Separated (occupies J a) ⟨d.posX, d.posY, d.x, d.y⟩ := by
  have h' : ¬ (meetsDefect d a.x ((J.itemType a.itemTypeId).width a.rotate) a.y
      (a.y + (J.itemType a.itemTypeId).height a.rotate) = true) := by rw [h]; simp
  rw [meetsDefect_iff] at h'
  unfold Separated occupies
  simp only
  omega

/-- The packing after an offered insertion. -/
theorem offer_packing (hT : Tried s n a.itemTypeId a.rotate newBin newBinPos a.y ins J b)
    (hx : a.x = ins.x) (hs : Sizes J) (hi : a.itemTypeId < J.numberOfItemTypes) (hy : 0 ≤ a.y)
    (hrot : a.rotate = true → (J.itemType a.itemTypeId).oriented = false)
    (hold : newBin = 0 → BinValid J b L ∧ Sky J b L n.uncoveredItems) (hnew : newBin ≠ 0 → L = []) :
    BinPacking J b (L ++ [a]) ∧ AvoidsDefects J b (L ++ [a])
    ∧ ∀ p ∈ L, ShareRow (occupies J p) (occupies J a) →
      (occupies J p).x + (occupies J p).w ≤ (occupies J a).x := by
  obtain ⟨s1, s2, s3⟩ := sides hs hi a.rotate
  have hx0 := hT.x
  rw [← hx] at hx0
  have hr := hT.right
  have ht := hT.top
  rw [← hx] at hr
  have hin : Inside (J.binType b).x (J.binType b).y (occupies J a) := ⟨hx0, hr, hy, ht⟩
  have hda : ∀ d ∈ (J.binType b).defects, Separated (occupies J a) ⟨d.posX, d.posY, d.x, d.y⟩ :=
    fun d hd => separated_of_meets (by rw [hx]; exact hT.defects d hd)
  by_cases h0 : newBin = 0
  · obtain ⟨hv, hsk⟩ := hold h0
    have hclear : ∀ p ∈ L, ShareRow (occupies J p) (occupies J a) →
        (occupies J p).x + (occupies J p).w ≤ (occupies J a).x := by
      intro p hp hrow
      have hph := (sides hs (hv.packing.exist p hp) p.rotate).2.1
      have := row_clear hsk (y := a.y) (ye := upperEnd J a) (x := a.x) hy (by rw [upperEnd_eq]; omega)
        (fun u hu hm => by rw [hx]; exact hT.over h0 u hu (by rwa [upperEnd_eq] at hm)) hp hrow.1
        hrow.2 (by rw [upperEnd_eq]; omega) (by rw [upperEnd_eq]; omega)
      exact this.1
    refine ⟨⟨?_, ?_, ?_, ?_⟩, ?_, hclear⟩
    · exact forall_mem_snoc.mpr ⟨hv.packing.exist, hi⟩
    · exact forall_mem_snoc.mpr ⟨hv.packing.rotation, hrot⟩
    · exact forall_mem_snoc.mpr ⟨hv.packing.inside, hin⟩
    · rw [List.pairwise_append]
      refine ⟨hv.packing.separated, List.pairwise_singleton _ _, ?_⟩
      intro p hp q hq
      rw [List.mem_singleton.mp hq]
      by_cases hrow : ShareRow (occupies J p) (occupies J a)
      · exact Or.inl (hclear p hp hrow)
      · unfold ShareRow at hrow
        unfold Separated
        omega
    · exact forall_mem_snoc.mpr ⟨hv.defects, hda⟩
  · rw [hnew h0]
    simp only [List.nil_append]
    exact ⟨⟨by simpa using hi, by simpa using hrot, by simpa using hin, List.pairwise_singleton _ _⟩,
      by intro p hp; rw [List.mem_singleton.mp hp]; exact hda, by simp⟩

/-- The resources after an insertion. -/
theorem child_res (hC : ChildOf s n J b (decide (newBin > 0)) dir bins a n') (hb : b < J.numberOfBinTypes)
    (hR : ResourceIdsOk J) (hr : 0 < (J.binType b).resources.length)
    (hold : newBin = 0 → Res J b L n.lastBinItemNumberOfCopies n.lastBinResourceConsumption)
    (hnew : newBin ≠ 0 → L = []) :
    Res J b (L ++ [a]) n'.lastBinItemNumberOfCopies n'.lastBinResourceConsumption := by
  rw [hC.resCopies, hC.resCons]
  unfold childResources
  rw [if_pos hr]
  by_cases h0 : newBin = 0
  · rw [if_neg (by simp [h0])]
    exact res_step (hold h0) hb hR hC.item
  · rw [if_pos (by simpa using by omega), hnew h0]
    have h1 := res_step (profit := n.profit + (J.itemType a.itemTypeId).profit) (res_nil J b) hb hR
      hC.item
    have hids := hR a.itemTypeId hC.item b hb
    have hz : (List.replicate J.numberOfItemTypes 0).getD a.itemTypeId 0 = 0 := by
      have := hC.item
      simp [List.getD_eq_getElem?_getD, this]
    rw [hz] at h1
    have h2 := (newBinFold_eq (J.binType b) a.itemTypeId _ hids.1
      ⟨List.replicate (J.binType b).resources.length 0,
        n.profit + (J.itemType a.itemTypeId).profit⟩ (by
        intro r hr
        have := ((hids.2 r).mp hr).1
        simp [List.getD_eq_getElem?_getD, this])).1
    dsimp only
    rw [h2]
    have e : (List.replicate J.numberOfItemTypes 0).set a.itemTypeId 1
        = (List.replicate J.numberOfItemTypes 0).modify a.itemTypeId (· + 1) := by
      have := hC.item
      rw [List.modify_eq_set_getElem?]
      simp [this]
    rw [e]
    exact h1

/-- The hard resources after an offered insertion. -/
theorem offer_hard (hT : Tried s n a.itemTypeId a.rotate newBin newBinPos a.y ins J b)
    (hi : a.itemTypeId < J.numberOfItemTypes) (hb : b < J.numberOfBinTypes) (hR : ResourceIdsOk J)
    (hc : CapacitiesNonneg J) (hr : 0 < (J.binType b).resources.length)
    (hold : newBin = 0 → HardOk J b L
      ∧ Res J b L n.lastBinItemNumberOfCopies n.lastBinResourceConsumption)
    (hnew : newBin ≠ 0 → L = []) : HardOk J b (L ++ [a]) := by
  have hres := hT.resources
  unfold resourcesOk at hres
  rw [if_pos hr, List.all_eq_true] at hres
  have hids := hR a.itemTypeId hi b hb
  refine hardOk_step ?_ hb hR hi ?_
  · by_cases h0 : newBin = 0
    · exact (hold h0).1
    · rw [hnew h0]; exact hardOk_nil hb hc
  · intro r hr' hpen
    have h1 := hres r hr'
    have hrl := ((hids.2 r).mp hr').1
    change ((resAt (J.binType b) r).penalize || _) = true at h1
    rw [hpen, Bool.false_or] at h1
    simp only [Bool.not_eq_true', decide_eq_false_iff_not, not_lt] at h1
    rw [consumption_snoc _ _ _ _ hi]
    refine le_trans (le_of_eq ?_) h1
    by_cases h0 : newBin = 0
    · rw [if_neg (by simp [h0]), (hold h0).2.cons r hrl, (hold h0).2.copies _ hi]
    · rw [if_pos (by simp [h0]), hnew h0, consumption_nil, zero_add]
      rfl

/-- The weight after an offered insertion. -/
theorem offer_weight (hT : Tried s n a.itemTypeId a.rotate newBin newBinPos a.y ins J b)
    (hold : newBin = 0 → (n.groups.getD 0 {}).lastBinWeight = binWeight J L)
    (hnew : newBin ≠ 0 → L = []) (m : ℚ) (hm : (J.binType b).maximumWeight = .fin m) :
    binWeight J (L ++ [a]) ≤ m * (1 + 1 / 10 ^ 9) := by
  have h := hT.weight
  rw [hm] at h
  unfold ExtQ.exceeded at h
  simp only [decide_eq_false_iff_not, not_lt] at h
  change _ ≤ m * (1 + 1 / 10 ^ 9) at h
  refine le_trans (le_of_eq ?_) h
  rw [binWeight_snoc]
  by_cases h0 : newBin = 0
  · rw [if_pos h0, ← hold h0]; rfl
  · rw [if_neg h0, hnew h0]; simp [binWeight]

/-- The unloading constraint after an offered insertion. -/
theorem offer_unloadingOk (hT : Tried s n a.itemTypeId a.rotate newBin newBinPos a.y ins J b)
    (hx : a.x = ins.x) (hs : Sizes J) (hi : a.itemTypeId < J.numberOfItemTypes) (hy : 0 ≤ a.y)
    (hd : J.parameters.unloadingConstraint = .increasingX → (J.binType b).defects = [])
    (hg : ∀ i, i < J.numberOfItemTypes → (J.itemType i).groupId < J.numberOfGroups)
    (hold : newBin = 0 → BinValid J b L ∧ Sky J b L n.uncoveredItems ∧ Grp J L n.groups
      ∧ UnloadingOk J.parameters.unloadingConstraint J L)
    (hnew : newBin ≠ 0 → L = []) : UnloadingOk J.parameters.unloadingConstraint J (L ++ [a]) := by
  obtain ⟨hsup, h1, h2⟩ := offer_unloading hT
  obtain ⟨s1, s2, s3⟩ := sides hs hi a.rotate
  have hr := hT.right
  have ht := hT.top
  by_cases h0 : newBin = 0
  · obtain ⟨hv, hsk, hgr, hun⟩ := hold h0
    generalize hc : J.parameters.unloadingConstraint = c at *
    rcases hsup with rfl | rfl | rfl
    · trivial
    · unfold UnloadingOk at hun ⊢
      dsimp only at hun ⊢
      have hcl : ∀ p ∈ L, ShareRow (occupies J p) (occupies J a) →
          (occupies J p).x + (occupies J p).w ≤ (occupies J a).x ∧ groupOf J a ≤ groupOf J p := by
        intro p hp hrow
        have hph := (sides hs (hv.packing.exist p hp) p.rotate).2.1
        obtain ⟨r1, u, hu, hm, hm'⟩ := row_clear hsk (y := a.y) (ye := upperEnd J a) (x := a.x) hy
          (by rw [upperEnd_eq]; omega)
          (fun u hu hm => by rw [hx]; exact hT.over h0 u hu (by rwa [upperEnd_eq] at hm)) hp hrow.1
          hrow.2 (by rw [upperEnd_eq]; omega) (by rw [upperEnd_eq]; omega)
        obtain ⟨i, e, hgi⟩ := hsk.item u hu p hp hm'
        exact ⟨r1, le_trans (h1 rfl u hu hm i e) (hgi hc)⟩
      intro p hp q hq hrow hpq
      rcases List.mem_append.mp hp with hp | hp <;> rcases List.mem_append.mp hq with hq | hq
      · exact hun p hp q hq hrow hpq
      · rw [List.mem_singleton.mp hq] at hrow ⊢
        exact (hcl p hp hrow).2
      · rw [List.mem_singleton.mp hp] at hrow hpq
        have := (hcl q hq ⟨hrow.2, hrow.1⟩).1
        have hw := (sides hs (hv.packing.exist q hq) q.rotate).1
        unfold occupies at this hpq
        dsimp only at this hpq
        omega
      · rw [List.mem_singleton.mp hp, List.mem_singleton.mp hq]
    · unfold UnloadingOk at hun ⊢
      dsimp only at hun ⊢
      have h3 := h2 rfl (hd rfl)
      have ha : (occupies J a).x = ins.x := hx
      intro p hp q hq hpq
      rcases List.mem_append.mp hp with hp | hp <;> rcases List.mem_append.mp hq with hq | hq
      · exact hun p hp q hq hpq
      · rw [List.mem_singleton.mp hq] at hpq ⊢
        rw [ha]
        exact le_trans ((h3 _ (hg _ (hv.packing.exist p hp))).2 hpq) (hgr.bounds hc p hp).1
      · rw [List.mem_singleton.mp hp] at hpq ⊢
        rw [ha]
        exact le_trans (hgr.bounds hc q hq).2 ((h3 _ (hg _ (hv.packing.exist q hq))).1 hpq)
      · rw [List.mem_singleton.mp hp, List.mem_singleton.mp hq] at hpq
        omega
  · rw [hnew h0, List.nil_append]
    generalize hc : J.parameters.unloadingConstraint = c at *
    rcases hsup with rfl | rfl | rfl
    · trivial
    · intro p hp q hq _ _
      rw [List.mem_singleton.mp hp, List.mem_singleton.mp hq]
    · intro p hp q hq _
      rw [List.mem_singleton.mp hp, List.mem_singleton.mp hq]

/-- The largest right end of the skyline is that of the items. -/
theorem sky_max (hs : Sizes J) (hv : BinPacking J b L) (h : Sky J b L n.uncoveredItems)
    (hm : IsMaxWithZero (n.uncoveredItems.map (·.xe)) n.xeMax) :
    IsMaxWithZero (L.map (rightEnd J)) n.xeMax := by
  obtain ⟨h1, h2, h3⟩ := hm
  refine ⟨?_, h2, ?_⟩
  · intro x hx
    obtain ⟨p, hp, rfl⟩ := List.mem_map.mp hx
    have hi := hv.inside p hp
    have hph := (sides hs (hv.exist p hp) p.rotate).2.1
    obtain ⟨i1, i2, i3, i4⟩ := hi
    change 0 ≤ p.y at i3
    change p.y + (J.itemType p.itemTypeId).height p.rotate ≤ _ at i4
    obtain ⟨u, hu, hu1, hu2⟩ := h.tiles.lookup (y := p.y) i3 (by omega)
    refine le_trans (h.cover u hu p hp ?_) (h1 _ (List.mem_map.mpr ⟨u, hu, rfl⟩))
    unfold UncoveredItem.Meets
    rw [upperEnd_eq]
    omega
  · rcases h3 with h3 | h3
    · exact Or.inl h3
    · obtain ⟨u, hu, e⟩ := List.mem_map.mp h3
      rcases h.attained u hu with h4 | ⟨p, hp, h4, -⟩
      · exact Or.inl (e ▸ h4)
      · exact Or.inr (List.mem_map.mpr ⟨p, hp, by rw [← e, h4]⟩)

/-- The last bin of a child. -/
theorem last_step (hT : Tried s n a.itemTypeId a.rotate newBin newBinPos a.y ins J b)
    (hC : ChildOf s n J b (decide (newBin > 0)) dir bins a n') (hx : a.x = ins.x)
    (hag : Aggregates J) (hs : Sizes J) (hcap : CapacitiesNonneg J) (hy : 0 ≤ a.y)
    (hb : b < J.numberOfBinTypes)
    (hrot : a.rotate = true → (J.itemType a.itemTypeId).oriented = false)
    (hgl : n.groups.length = J.numberOfGroups)
    (hold : newBin = 0 → LastOk J b L n) (hnew : newBin ≠ 0 → L = []) :
    LastOk J b (L ++ [a]) n' := by
  have hi := hC.item
  have hgrp : ∀ i, i < J.numberOfItemTypes → (J.itemType i).groupId < J.numberOfGroups :=
    fun i hi => hag.numberOfGroups.1 _ (getD_mem default hi)
  have hex : ∀ p ∈ L, p.itemTypeId < J.numberOfItemTypes := by
    by_cases h0 : newBin = 0
    · exact (hold h0).valid.packing.exist
    · rw [hnew h0]; simp
  have hg0 : 0 < J.numberOfGroups := by have := hgrp _ hi; omega
  obtain ⟨hp, hd, -⟩ := offer_packing hT hx hs hi hy hrot
    (fun h0 => ⟨(hold h0).valid, (hold h0).sky⟩) hnew
  obtain ⟨pos, -, hsky, -⟩ := offer_sky hT hx hs hi hy
    (fun h0 => ⟨(hold h0).valid, (hold h0).sky⟩) hnew
  have hsky' : Sky J b (L ++ [a]) n'.uncoveredItems := hsky.congr hC.sky
  have hhard : HardOk J b (L ++ [a]) := by
    by_cases hr : 0 < (J.binType b).resources.length
    · exact offer_hard hT hi hb hag.resourceIds hcap hr
        (fun h0 => ⟨(hold h0).valid.resources, (hold h0).res hr⟩) hnew
    · intro r hr'
      have : (J.binType b).resources = [] := by
        rw [← List.length_eq_zero_iff]; omega
      rw [this] at hr'; simp at hr'
  refine ⟨⟨hp, hd, fun _ m hm => offer_weight hT (fun h0 => (hold h0).grp.weight hg0) hnew m hm,
    hhard⟩, fun hr => child_res hC hb hag.resourceIds hr (fun h0 => (hold h0).res hr) hnew, hsky',
    ?_, fun hd => ?_, sky_max hs hp hsky' hC.xeMax⟩
  · rw [hC.groups]
    refine grp_step hgl (fun h0 => (hold (by simpa using h0)).grp) (fun h0 => hnew ?_) (hgrp _ hi)
      (fun p hp => hgrp _ (hex p hp))
    simp at h0
    omega
  · exact offer_unloadingOk hT hx hs hi hy hd hgrp (fun h0 => ⟨(hold h0).valid, (hold h0).sky,
      (hold h0).grp, (hold h0).unloading hd⟩) hnew

end PackingSolver.Rect.TreeSearch
