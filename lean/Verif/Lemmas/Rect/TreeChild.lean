import Verif.Lemmas.Rect.TreeOffer

/-! Helper lemmas: the child of a node of the rectangle branching scheme. -/

namespace PackingSolver.Rect.TreeSearch

open Rect.Spec
open PackingSolver.OneDim.Spec (IsMaxWithZero)

/-! ### Areas -/

theorem area_fold (stair : Bool) (xsMax : Int) (l : List UncoveredItem)
    (hl : ∀ u ∈ l, u.ys ≤ u.ye) : ∀ st : AreaState,
    st.currentArea + skyArea l ≤ (l.foldl (areaStep stair xsMax) st).currentArea := by
  induction l with
  | nil => intro st; simp [skyArea]
  | cons u l ih =>
    intro st
    rw [List.foldl_cons]
    have h1 := ih (fun v hv => hl v (List.mem_cons_of_mem _ hv)) (areaStep stair xsMax st u)
    have h2 := hl u List.mem_cons_self
    have h3 : st.currentArea + u.xe * (u.ye - u.ys) ≤ (areaStep stair xsMax st u).currentArea := by
      unfold areaStep
      dsimp only
      have : u.xe ≤ if stair = true then max st.x u.xe else u.xe := by split_ifs <;> omega
      have := mul_le_mul_of_nonneg_right this (show 0 ≤ u.ye - u.ys by omega)
      omega
    rw [skyArea_cons]
    omega

theorem xeMax_fold (stair : Bool) (xsMax : Int) (l : List UncoveredItem) : ∀ st : AreaState,
    st.x ≤ st.xeMax →
    st.xeMax ≤ (l.foldl (areaStep stair xsMax) st).xeMax
    ∧ (∀ u ∈ l, u.xe ≤ (l.foldl (areaStep stair xsMax) st).xeMax)
    ∧ ((l.foldl (areaStep stair xsMax) st).xeMax = st.xeMax
      ∨ ∃ u ∈ l, (l.foldl (areaStep stair xsMax) st).xeMax = u.xe) := by
  induction l with
  | nil => intro st _; exact ⟨le_refl _, by simp, Or.inl rfl⟩
  | cons u l ih =>
    intro st hx
    rw [List.foldl_cons]
    have hs : (areaStep stair xsMax st u).x ≤ (areaStep stair xsMax st u).xeMax
        ∧ st.xeMax ≤ (areaStep stair xsMax st u).xeMax ∧ u.xe ≤ (areaStep stair xsMax st u).xeMax
        ∧ ((areaStep stair xsMax st u).xeMax = st.xeMax
          ∨ (areaStep stair xsMax st u).xeMax = u.xe) := by
      unfold areaStep
      dsimp only
      cases stair
      · simp only [Bool.false_eq_true, if_false]; split_ifs <;> omega
      · simp only [if_true]; split_ifs <;> omega
    obtain ⟨h1, h2, h3⟩ := ih _ hs.1
    refine ⟨by omega, ?_, ?_⟩
    · intro v hv
      rcases List.mem_cons.mp hv with rfl | hv
      · omega
      · exact h2 v hv
    · rcases h3 with h3 | ⟨v, hv, h3⟩
      · rcases hs.2.2.2 with h4 | h4
        · exact Or.inl (h3.trans h4)
        · exact Or.inr ⟨u, List.mem_cons_self, h3.trans h4⟩
      · exact Or.inr ⟨v, List.mem_cons_of_mem _ hv, h3⟩

theorem le_extraBinWaste (J : Instance) (copies : List Int) (us : List UncoveredItem)
    (xi yi yj p w : Int) (l : List ItemType) : ∀ i,
    w ≤ extraBinWaste J copies us xi yi yj p w i l := by
  induction l with
  | nil => intro i; exact le_refl _
  | cons it l ih =>
    intro i
    unfold extraBinWaste
    by_cases h1 : copies.getD i 0 = it.copies
    · rw [if_pos h1]; exact ih _
    rw [if_neg h1]
    by_cases h2 : remainingItemFits it us xi yi yj = true
    · rw [if_pos h2]; exact ih _
    rw [if_neg h2]
    exact le_max_left _ _

/-! ### Fields of a child -/

/-- The bins of a child. -/
def nextBins (n : Node) (ins : Insertion) : Nat :=
  if decide (ins.newBin > 0) then (match ins.newBinPos with
    | some p => p + 1
    | none => n.numberOfBins + 1) else n.numberOfBins

/-- The direction of the last bin of a child. -/
def nextDir (n : Node) (ins : Insertion) : Direction :=
  if decide (ins.newBin > 0) then Scheme.newBinDirection ins.newBin else n.lastBinDirection

/-- The item placed by an insertion, in the frame of its bin. -/
def insItem (ins : Insertion) : PlacedItem := ⟨ins.itemTypeId, ins.x, ins.y, ins.rotate⟩

/-- The skyline of a child before the update of the dominance marks. -/
def skyOf (J : Instance) (b : Nat) (n : Node) (newBin : Bool) (a : PlacedItem) :
    List UncoveredItem × Option Nat :=
  if newBin then newBinSkyline a.itemTypeId a.x (rightEnd J a) a.y (upperEnd J a) (J.binType b).y
  else sameBinSkyline n.uncoveredItems (newUncovered J a)

/-- `child` once the bin is known. -/
def childCore (s : Scheme) (n : Node) (ins : Insertion) (newBin : Bool) (numberOfBins : Nat)
    (dir : Direction) (inst : Instance) (bin : Nat) : Except Err Node :=
  if numberOfBins = 0 ∨ numberOfBins > s.binTypeIds.length
      ∨ ins.itemTypeId ≥ inst.numberOfItemTypes then .error .ub
  else
  let binPos := numberOfBins - 1
  let bt := inst.binType bin
  let it := inst.itemType ins.itemTypeId
  let xj := it.width ins.rotate
  let yj := it.height ins.rotate
  let xe := ins.x + xj
  let sky := skyOf inst bin n newBin (insItem ins)
  match sky.2 with
  | none => .error .ub
  | some pos =>
    let us := updateDominance sky.1 pos bt.y inst.smallestItemHeight
    let copies := addAt n.itemNumberOfCopies ins.itemTypeId 1
    let numberOfItems := n.numberOfItems + 1
    let itemArea := n.itemArea + it.area
    let res := childResources inst bt bin ins.itemTypeId newBin n (n.profit + it.profit)
    let axle := (List.range inst.numberOfGroups).foldl (axleStep inst bt)
      { groups := childGroupWeights n newBin it ins.x xe }
    let xsMax := if newBin then ins.x else max n.xsMax ins.x
    let previous := s.previousBinsArea.getD binPos 0
    let area := us.reverse.foldl (areaStep s.parameters.staircase xsMax)
      { currentArea := previous
        guideArea := previous + xsMax * bt.y
        yeMax := if newBin then 0 else n.yeMax }
    let currentArea := if numberOfItems = inst.numberOfItems then previous + area.xeMax * bt.y
      else area.currentArea
    let waste := max (currentArea - itemArea) (previous + area.xeMax * bt.y - inst.itemArea)
    let waste :=
      if numberOfBins < inst.numberOfBins ∧ inst.itemArea - itemArea < bt.area then
        extraBinWaste inst copies us bt.x bt.y yj (s.previousBinsArea.getD (binPos + 1) 0) waste 0
          inst.itemTypes
      else waste
    if waste < 0 then .error .runtimeError
    else .ok {
      steps := n.steps ++ [⟨ins.itemTypeId, ins.rotate, ins.x, ins.y, dir,
        numberOfBins⟩]
      lastBinDirection := dir
      uncoveredItems := us
      itemNumberOfCopies := copies
      numberOfBins := numberOfBins
      numberOfItems := numberOfItems
      itemArea := itemArea
      itemWeight := n.itemWeight + it.weight
      currentArea := currentArea
      waste := waste
      leftoverValue := match inst.parameters.leftoverMode with
        | .area => bt.area - area.xeMax * area.yeMax
        | _ => bt.x - area.xeMax
      guideArea := area.guideArea
      xeMax := area.xeMax
      yeMax := area.yeMax
      xsMax := xsMax
      profit := res.2.profit
      groups := childGroupBounds inst axle.groups it.groupId ins.x
      middleAxleOverweight := axle.middle
      rearAxleOverweight := axle.rear
      lastBinItemNumberOfCopies := res.1
      lastBinResourceConsumption := res.2.consumption }

theorem child_eq (s : Scheme) (n : Node) (ins : Insertion) : child s n ins
    = childCore s n ins (decide (ins.newBin > 0)) (nextBins n ins) (nextDir n ins)
      (s.instanceOf (nextDir n ins)) (s.binTypeIds.getD (nextBins n ins - 1) 0) := rfl

/-- What `child` computes. -/
structure ChildOf (s : Scheme) (n : Node) (J : Instance) (b : Nat) (newBin : Bool) (dir : Direction)
    (bins : Nat) (a : PlacedItem) (n' : Node) : Prop where
  bins0 : 0 < bins
  binsLe : bins ≤ s.binTypeIds.length
  item : a.itemTypeId < J.numberOfItemTypes
  steps : n'.steps = n.steps ++ [⟨a.itemTypeId, a.rotate, a.x, a.y, dir, bins⟩]
  direction : n'.lastBinDirection = dir
  numberOfBins : n'.numberOfBins = bins
  sky : n'.uncoveredItems.map core = (skyOf J b n newBin a).1.map core
  copies : n'.itemNumberOfCopies = addAt n.itemNumberOfCopies a.itemTypeId 1
  numberOfItems : n'.numberOfItems = n.numberOfItems + 1
  itemArea : n'.itemArea = n.itemArea + (J.itemType a.itemTypeId).area
  itemWeight : n'.itemWeight = n.itemWeight + (J.itemType a.itemTypeId).weight
  resCopies : n'.lastBinItemNumberOfCopies = (childResources J (J.binType b) b a.itemTypeId newBin n
    (n.profit + (J.itemType a.itemTypeId).profit)).1
  resCons : n'.lastBinResourceConsumption = (childResources J (J.binType b) b a.itemTypeId newBin n
    (n.profit + (J.itemType a.itemTypeId).profit)).2.consumption
  profit : n'.profit = (childResources J (J.binType b) b a.itemTypeId newBin n
    (n.profit + (J.itemType a.itemTypeId).profit)).2.profit
  groups : n'.groups = childGroups J (J.binType b) n newBin a
  xeMax : IsMaxWithZero (n'.uncoveredItems.map (·.xe)) n'.xeMax
  waste : 0 ≤ n'.waste

theorem ite_run {c : Prop} [Decidable c] {x : Node} {e : Err} {y : Node}
    (h : (if c then .error e else .ok x : Except Err Node) = .ok y) :
    ¬ c ∧ (.ok x : Except Err Node) = .ok y := by
  by_cases hc : c
  · rw [if_pos hc] at h; simp at h
  · rw [if_neg hc] at h; exact ⟨hc, h⟩

theorem child_ok {s : Scheme} {n n' : Node} {ins : Insertion} (h : child s n ins = .ok n') :
    ChildOf s n (s.instanceOf (nextDir n ins)) (s.binTypeIds.getD (nextBins n ins - 1) 0)
      (decide (ins.newBin > 0)) (nextDir n ins) (nextBins n ins) (insItem ins) n' := by
  rw [child_eq] at h
  generalize s.instanceOf (nextDir n ins) = J at h ⊢
  generalize s.binTypeIds.getD (nextBins n ins - 1) 0 = b at h ⊢
  generalize nextBins n ins = bins at h ⊢
  generalize nextDir n ins = dir at h ⊢
  generalize decide (ins.newBin > 0) = nb at h ⊢
  unfold childCore at h
  dsimp only at h
  by_cases hr : bins = 0 ∨ bins > s.binTypeIds.length ∨ ins.itemTypeId ≥ J.numberOfItemTypes
  · rw [if_pos hr] at h; simp at h
  rw [if_neg hr] at h
  push Not at hr
  generalize hsky : skyOf J b n nb (insItem ins) = sky at h ⊢
  obtain ⟨l, pos⟩ := sky
  cases pos with
  | none => simp at h
  | some pos =>
    dsimp only at h
    obtain ⟨hw0, h⟩ := ite_run h
    simp only [Except.ok.injEq] at h
    subst h
    refine ⟨by omega, by omega, hr.2.2, rfl, rfl, rfl, ?_, rfl, rfl, rfl,
      rfl, rfl, rfl, rfl, rfl, ?_, not_lt.mp hw0⟩
    · rw [hsky]; exact core_updateDominance _ _ _ _
    dsimp only
    generalize (if nb = true then ins.x else max n.xsMax ins.x) = xsMax
    generalize updateDominance _ _ _ _ = us
    obtain ⟨h1, h2, h3⟩ := xeMax_fold s.parameters.staircase xsMax us.reverse
      { currentArea := s.previousBinsArea.getD (bins - 1) 0
        guideArea := s.previousBinsArea.getD (bins - 1) 0 + xsMax * (J.binType b).y
        yeMax := if nb = true then 0 else n.yeMax } (le_refl _)
    refine ⟨?_, h1, ?_⟩
    · intro x hx
      obtain ⟨u, hu, rfl⟩ := List.mem_map.mp hx
      exact h2 u (List.mem_reverse.mpr hu)
    · rcases h3 with h3 | ⟨u, hu, h3⟩
      · exact Or.inl h3
      · exact Or.inr (List.mem_map.mpr ⟨u, List.mem_reverse.mp hu, h3.symm⟩)

theorem skyArea_reverse (us : List UncoveredItem) : skyArea us.reverse = skyArea us := by
  unfold skyArea; rw [List.map_reverse, List.sum_reverse]

theorem ite_extra {c : Prop} [Decidable c] {J : Instance} {copies : List Int}
    {us : List UncoveredItem} {xi yi yj p w : Int} {i : Nat} {l : List ItemType} (h : 0 ≤ w) :
    0 ≤ if c then extraBinWaste J copies us xi yi yj p w i l else w := by
  by_cases hc : c
  · rw [if_pos hc]; exact le_trans h (le_extraBinWaste _ _ _ _ _ _ _ _ _ _)
  · rw [if_neg hc]; exact h

/-- `child` succeeds when the accesses are in range and the items fit into the area. -/
theorem child_accepts {s : Scheme} {n : Node} {ins : Insertion} {J : Instance} {b : Nat}
    (hJ : s.instanceOf (nextDir n ins) = J) (hb : s.binTypeIds.getD (nextBins n ins - 1) 0 = b)
    (h0 : 0 < nextBins n ins) (h1 : nextBins n ins ≤ s.binTypeIds.length)
    (hi : ins.itemTypeId < J.numberOfItemTypes) {pos : Nat}
    (hpos : (skyOf J b n (decide (ins.newBin > 0)) (insItem ins)).2 = some pos)
    (ht : Tiles 0 (skyOf J b n (decide (ins.newBin > 0)) (insItem ins)).1 (J.binType b).y)
    (ha : n.itemArea + (J.itemType ins.itemTypeId).area
      ≤ s.previousBinsArea.getD (nextBins n ins - 1) 0
        + skyArea (skyOf J b n (decide (ins.newBin > 0)) (insItem ins)).1) :
    ∃ n', child s n ins = .ok n' := by
  rw [child_eq, hJ, hb]
  generalize nextBins n ins = bins at *
  generalize nextDir n ins = dir at *
  generalize decide (ins.newBin > 0) = nb at *
  unfold childCore
  dsimp only
  rw [if_neg (by omega)]
  generalize hsky : skyOf J b n nb (insItem ins) = sky at *
  obtain ⟨l, pos'⟩ := sky
  simp only at hpos
  subst hpos
  dsimp only at ht ha ⊢
  rw [if_neg]
  · exact ⟨_, rfl⟩
  · rw [not_lt]
    apply ite_extra
    apply le_trans _ (le_max_left _ _)
    have hcore := core_updateDominance l pos (J.binType b).y J.smallestItemHeight
    have harea := skyArea_core hcore
    have htiles := (Tiles.core_iff hcore).mpr ht
    generalize updateDominance l pos (J.binType b).y J.smallestItemHeight = us at *
    generalize (if nb = true then ins.x else max n.xsMax ins.x) = xsMax
    generalize hst : ({ currentArea := s.previousBinsArea.getD (bins - 1) 0
                        guideArea := s.previousBinsArea.getD (bins - 1) 0 + xsMax * (J.binType b).y
                        yeMax := if nb = true then 0 else n.yeMax } : AreaState) = st
    have e1 : st.currentArea = s.previousBinsArea.getD (bins - 1) 0 := by rw [← hst]
    have e2 : st.x ≤ st.xeMax := by rw [← hst]
    have a1 := area_fold s.parameters.staircase xsMax us.reverse
      (fun u hu => le_of_lt (htiles.mem u (List.mem_reverse.mp hu)).2.1) st
    rw [skyArea_reverse] at a1
    obtain ⟨-, a2, -⟩ := xeMax_fold s.parameters.staircase xsMax us.reverse st e2
    have a3 := skyArea_le htiles (fun u hu => a2 u (List.mem_reverse.mpr hu))
    rw [sub_zero] at a3
    split_ifs <;> omega

end PackingSolver.Rect.TreeSearch
