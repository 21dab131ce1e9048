import Verif.Lemmas.Box.Built
import Verif.Lemmas.Guil.InstTotal

/-! Helper lemmas: when `build` of a box instance succeeds. -/

namespace PackingSolver.Box

open InstanceBuilder Spec
open PackingSolver.OneDim (getD_mem getD_map_take_drop)

theorem itemLoop_cases {volumeMax : Int} {inst : Instance} (hF : BFresh inst)
    (ha : ∀ t ∈ inst.itemTypes, t.volume ≠ 0) (hc : ∀ t ∈ inst.itemTypes, 0 ≤ t.copies) :
    (∃ s, (List.range inst.itemTypes.length).foldlM (buildItem volumeMax) (itemStart inst) = .ok s
      ∧ ItemInv volumeMax inst inst.itemTypes.length s
      ∧ ∀ t ∈ inst.itemTypes, t.copiesMin = -1 ∨ t.copiesMin ≤ t.copies)
    ∨ ((List.range inst.itemTypes.length).foldlM (buildItem volumeMax) (itemStart inst)
        = .error .invalidArgument
      ∧ ¬ ∀ t ∈ inst.itemTypes, t.copiesMin = -1 ∨ t.copiesMin ≤ t.copies) := by
  have key : ∀ t : ItemType, 0 ≤ t.copies →
      ((resolveItem inst.objective t).copiesMin > (resolveItem inst.objective t).copies ↔
        ¬ (t.copiesMin = -1 ∨ t.copiesMin ≤ t.copies)) := by
    intro t ht
    unfold resolveItem
    split_ifs with h1 h2 <;> simp <;> omega
  rcases Guil.foldlM_range_or (n := inst.itemTypes.length) (f := buildItem volumeMax)
    (s := itemStart inst) (e := Err.invalidArgument)
    (Q := ¬ ∀ t ∈ inst.itemTypes, t.copiesMin = -1 ∨ t.copiesMin ≤ t.copies)
    (fun k a => ItemInv volumeMax inst k a) (itemInv_zero hF) (by
      intro k a hk hi
      have hget : a.itemType k = inst.itemType k := by
        unfold Instance.itemType
        rw [hi.itemTypes, getD_map_take_drop _ _ _ _ hk]
      have hmem : inst.itemType k ∈ inst.itemTypes := getD_mem _ hk
      by_cases h1 : (resolveItem inst.objective (inst.itemType k)).copiesMin
          > (resolveItem inst.objective (inst.itemType k)).copies
      · right
        refine ⟨?_, fun hall => (key _ (hc _ hmem)).mp h1 (hall _ hmem)⟩
        unfold buildItem
        dsimp only
        rw [hget, hi.objective, if_pos h1]
      · left
        cases hs : buildItem volumeMax a k with
        | ok b => exact ⟨b, rfl, itemInv_step hk hi hs⟩
        | error e =>
          exfalso
          unfold buildItem at hs
          dsimp only at hs
          rw [hget, hi.objective, if_neg h1, if_neg (by
            rw [(resolve_fields _ _).2.2.2.2.2.2]; exact ha _ hmem)] at hs
          cases hs) with ⟨s, h1, h2⟩ | h
  · refine Or.inl ⟨s, h1, h2, fun t ht => ?_⟩
    by_contra hn
    have h3 := h2.copiesMin t (by rw [List.take_length]; exact ht)
    have h4 := (key t (hc t ht)).mpr hn
    rw [(resolve_fields _ _).1] at h4
    omega
  · exact Or.inr h

theorem computeResourceIds_defined {inst : Instance}
    (h : ∀ t ∈ inst.binTypes, ∀ r ∈ t.resources,
      r.itemConsumptions.length ≤ inst.itemTypes.length) :
    ∃ inst', computeResourceIds inst = .ok inst' := by
  unfold computeResourceIds
  obtain ⟨its, h1, -⟩ := Guil.foldlM_range_ok (n := inst.binTypes.length)
    (f := fun its b => (List.range (inst.binType b).resources.length).foldlM
      (fun its r =>
        let ic := ((inst.binType b).resources.getD r {}).itemConsumptions
        (List.range ic.length).foldlM
          (fun its i => if ic.getD i [] = [] then .ok its else pushResourceId b r its i) its)
      its)
    (s := inst.itemTypes.map fun t =>
      { t with resourceIds := growTo [] inst.binTypes.length t.resourceIds })
    (fun _ (its : List ItemType) => its.length = inst.itemTypes.length) (by rw [List.length_map])
    (by
      intro b its hb hl
      refine Guil.foldlM_range_ok
        (fun _ (its : List ItemType) => its.length = inst.itemTypes.length) hl ?_
      intro r its hr hl
      dsimp only
      refine Guil.foldlM_range_ok
        (fun _ (its : List ItemType) => its.length = inst.itemTypes.length) hl ?_
      intro i its hi hl
      by_cases h0 : (((inst.binType b).resources.getD r {}).itemConsumptions.getD i []) = []
      · exact ⟨its, by rw [if_pos h0], hl⟩
      · have h2 := h (inst.binType b) (getD_mem _ hb) _ (getD_mem {} hr)
        refine ⟨_, by rw [if_neg h0]; unfold pushResourceId; rw [if_pos (by omega)], ?_⟩
        rw [List.length_modify]; exact hl)
  exact ⟨_, bind_ok.mpr ⟨its, h1, rfl⟩⟩

theorem computeCopiesFixed_defined {inst : Instance}
    (hf : ∀ t ∈ inst.binTypes, t.fixedItems = []) : ∃ inst', computeCopiesFixed inst = .ok inst' := by
  unfold computeCopiesFixed
  suffices h : ∀ (f : List ItemType → BinType → Except Err (List ItemType)),
      (∀ its t, t.fixedItems = [] → f its t = .ok its) →
      ∀ (l : List BinType) (its : List ItemType), (∀ t ∈ l, t.fixedItems = []) →
        l.foldlM f its = .ok its by
    refine ⟨_, bind_ok.mpr ⟨_, h _ (fun its t ht => ?_) _ _ hf, rfl⟩⟩
    rw [ht]
    simp [pure, Except.pure]
  intro f hf2 l
  induction l with
  | nil => intro its _; rfl
  | cons t l ih =>
    intro its hl
    exact foldlM_cons_ok.mpr ⟨its, hf2 _ _ (hl t (by simp)), ih its fun u hu => hl u (by simp [hu])⟩

theorem positions_length (l : List BinType) : ∀ k,
    (l.zipIdx k |>.flatMap fun q => List.replicate q.1.copies.toNat q.2).length
      = (l.map fun t => t.copies.toNat).sum := by
  induction l with
  | nil => intro k; rfl
  | cons a l ih => intro k; simp [ih]

theorem binPositions_length {l : List BinType} (h : ∀ t ∈ l, 0 ≤ t.copies) :
    ((binPositions l).length : Int) = (l.map (·.copies)).sum := by
  unfold binPositions
  rw [positions_length]
  induction l with
  | nil => rfl
  | cons a l ih =>
    rw [List.map_cons, List.sum_cons, List.map_cons, List.sum_cons,
      ← ih fun t ht => h t (by simp [ht])]
    have := h a (by simp)
    omega

/-- When `build` succeeds. -/
theorem build_cases {b : InstanceBuilder} (hF : BFresh b.inst) (hW : WellFormed b.inst) :
    (Buildable b.inst ∧ ∃ inst, b.build = .ok inst)
    ∨ (¬ Buildable b.inst ∧ b.build = .error .invalidArgument) := by
  have hF0 := fresh_withRotations hF
  have hall : ∀ (P : ItemType → Prop), (∀ t, P (defaultRotation t) ↔ P t) →
      ((∀ t ∈ (withRotations b.inst).itemTypes, P t) ↔ ∀ t ∈ b.inst.itemTypes, P t) := by
    intro P hP
    unfold withRotations
    simp only [List.mem_map, forall_exists_index, and_imp, forall_apply_eq_imp_iff₂, hP]
  have hlen : (withRotations b.inst).itemTypes.length = b.inst.itemTypes.length := by
    simp [withRotations]
  have hvol : ∀ t ∈ (withRotations b.inst).itemTypes, t.volume ≠ 0 := by
    rw [hall (fun t => t.volume ≠ 0) (fun t => by
      unfold ItemType.volume; rw [(defaultRotation_fields t).2.1])]
    intro t ht
    obtain ⟨h1, h2, h3⟩ := hW.sides t ht
    exact mul_ne_zero (mul_ne_zero h1 h2) h3
  have hcop : ∀ t ∈ (withRotations b.inst).itemTypes, 0 ≤ t.copies :=
    (hall (fun t => 0 ≤ t.copies) (fun t => by rw [(defaultRotation_fields t).1])).mpr hW.copies
  have hmin := hall (fun t => t.copiesMin = -1 ∨ t.copiesMin ≤ t.copies) (fun t => by
    rw [(defaultRotation_fields t).1, (defaultRotation_fields t).2.2.2.2.1])
  have hsum : (withRotations b.inst).itemTypes.map (·.copies) = b.inst.itemTypes.map (·.copies) := by
    unfold withRotations
    rw [List.map_map]
    apply List.map_congr_left
    intro t _
    exact (defaultRotation_fields t).1
  have hbins : (withRotations b.inst).binTypes = b.inst.binTypes := rfl
  have hobj : (withRotations b.inst).objective = b.inst.objective := rfl
  have hstart : ∀ k, (List.range (withRotations b.inst).itemTypes.length).foldlM
      (buildItem (binTypesVolumeMax (withRotations b.inst))) (itemStart (withRotations b.inst)) = k →
      b.build = k >>= fun inst => (do
        let inst := { noSmallest inst with binVolume := 0, binArea := 0 }
        let inst := ((List.range inst.binTypes.length).foldl buildBin (inst, 0)).1
        checkOpenDimension inst
        let inst ← computeCopiesFixed inst
        computeResourceIds inst) := by
    rintro k rfl
    rfl
  generalize withRotations b.inst = i0 at *
  rcases itemLoop_cases (volumeMax := binTypesVolumeMax i0) hF0 hvol hcop with
    ⟨i1, h1, hI, c3⟩ | ⟨h1, c3⟩
  swap
  · right
    refine ⟨fun h => c3 (hmin.mpr h.minima), ?_⟩
    rw [hstart _ h1]; rfl
  obtain ⟨sx, sy, sz, es⟩ := noSmallest_eq i1
  have hB := binLoop (inst0 := noSmallest i1)
    (by rw [es]; change i1.binTypeIds = _; rw [hI.binTypeIds]; exact hF0.underived.binTypeIds)
    (by
      rw [es]; change i1.previousBinsVolume = _; rw [hI.previousBinsVolume]
      exact hF0.underived.previousBinsVolume)
    (by
      rw [es]; change i1.largestBinCost = _; rw [hI.largestBinCost]
      exact hF0.underived.largestBinCost)
  generalize hst : (List.range (noSmallest i1).binTypes.length).foldl buildBin
    ({ noSmallest i1 with binVolume := 0, binArea := 0 }, 0) = st at hB
  obtain ⟨_, _, _, _, _, _, est⟩ := hB.rest
  have hitems1 : st.1.itemTypes.length = b.inst.itemTypes.length := by
    have e : st.1.itemTypes = i1.itemTypes := by rw [est, es]
    rw [e, hI.itemTypes, ← hlen]; simp
  have en : (noSmallest i1).numberOfItems = i1.numberOfItems := by rw [es]
  have eb : (noSmallest i1).binTypes = b.inst.binTypes := by
    rw [es]; exact hI.binTypes.trans hbins
  have hbins1 : st.1.binTypes = b.inst.binTypes.map (resolveBin i1.numberOfItems) := by
    rw [hB.binTypes, en, eb]; simp
  have hfix : ∀ t ∈ st.1.binTypes, t.fixedItems = [] := by
    rw [hbins1]
    intro t ht
    obtain ⟨u, hu, rfl⟩ := List.mem_map.mp ht
    rw [(resolveBin_fields _ _).2.2.2.2.2.1]
    exact (hF.bins u hu).fixedItems
  obtain ⟨i2, h2⟩ := computeCopiesFixed_defined (inst := st.1) hfix
  have e2 := computeCopiesFixed_ok hfix h2
  rw [e2] at h2
  obtain ⟨i3, h3⟩ := computeResourceIds_defined (inst := st.1) (by
    rw [hbins1, hitems1]
    intro t ht r hr
    obtain ⟨u, hu, rfl⟩ := List.mem_map.mp ht
    rw [(resolveBin_fields _ _).2.2.2.2.1] at hr
    exact hW.consumptions u hu r hr)
  have hn1 : i1.numberOfItems = (b.inst.itemTypes.map (·.copies)).sum := by
    rw [hI.numberOfItems, List.take_length, hsum]
  have hn0 : 0 ≤ (b.inst.itemTypes.map (·.copies)).sum := by
    have : ∀ l : List ItemType, (∀ t ∈ l, 0 ≤ t.copies) → 0 ≤ (l.map (·.copies)).sum := by
      intro l
      induction l with
      | nil => intro _; exact le_refl _
      | cons t l ih =>
        intro hl
        rw [List.map_cons, List.sum_cons]
        have h1 := hl t (by simp)
        have h2 := ih fun u hu => hl u (by simp [hu])
        omega
    exact this _ hW.copies
  have hbc : (st.1.numberOfBins : Int) = (b.inst.binTypes.map fun t =>
      if t.copies = -1 then (b.inst.itemTypes.map (·.copies)).sum else t.copies).sum := by
    have e : st.1.binTypeIds = binPositions st.1.binTypes := by
      rw [hB.binTypeIds, hbins1, en, eb, List.take_length]
    unfold Instance.numberOfBins
    rw [e, binPositions_length, hbins1, List.map_map]
    · congr 1
      apply List.map_congr_left
      intro t ht
      simp only [Function.comp]
      unfold resolveBin
      rw [hn1]
      split_ifs <;> rfl
    · rw [hbins1]
      intro t ht
      obtain ⟨u, hu, rfl⟩ := List.mem_map.mp ht
      unfold resolveBin
      rw [hn1]
      split_ifs with h4
      · exact hn0
      · rcases (hF.bins u hu).copies with h5 | h5
        · exact absurd h5 h4
        · exact le_of_lt h5
  have hobj2 : st.1.objective = b.inst.objective := by
    rw [est, es]
    change i1.objective = _
    rw [hI.objective, hobj]
  have hchain : b.build = (checkOpenDimension st.1 >>= fun _ => computeResourceIds st.1) := by
    rw [hstart _ h1]
    change (checkOpenDimension ((List.range (noSmallest i1).binTypes.length).foldl buildBin
      ({ noSmallest i1 with binVolume := 0, binArea := 0 }, 0)).1 >>= _) = _
    rw [hst]
    congr 1
    funext u
    rw [h2]; rfl
  by_cases c4 : b.inst.objective = .openDimensionX ∨ b.inst.objective = .openDimensionY →
    (b.inst.binTypes.map fun t =>
      if t.copies = -1 then (b.inst.itemTypes.map (·.copies)).sum else t.copies).sum = 1
  · left
    refine ⟨⟨hmin.mp c3, c4⟩, i3, ?_⟩
    have : checkOpenDimension st.1 = .ok () := by
      unfold checkOpenDimension
      rw [hobj2, if_neg, if_neg]
      · rintro ⟨h5, h6⟩
        have := c4 (Or.inr h5)
        omega
      · rintro ⟨h5, h6⟩
        have := c4 (Or.inl h5)
        omega
    rw [hchain, this]
    exact h3
  · right
    refine ⟨fun h => c4 h.openDimension, ?_⟩
    have : checkOpenDimension st.1 = .error .invalidArgument := by
      unfold checkOpenDimension
      push Not at c4
      obtain ⟨h5, h6⟩ := c4
      rw [hobj2]
      by_cases h7 : b.inst.objective = .openDimensionX
      · rw [if_pos ⟨h7, by omega⟩]
      · rw [if_neg (fun h => h7 h.1), if_pos ⟨by tauto, by omega⟩]
    rw [hchain, this]; rfl

end PackingSolver.Box
