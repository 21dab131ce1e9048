import Verif.Lemmas.Guil.InstStacks

/-! Helper lemmas: when `build` of a guillotine instance succeeds. -/

namespace PackingSolver.Guil

open InstanceBuilder
open Guil.Spec hiding IsMaxWithZero
open PackingSolver.OneDim (getD_mem getD_map_take_drop)

/-- A loop whose iterations succeed, or fail with `e` for a reason `Q`. -/
theorem foldlM_range_or {β ε : Type} {f : β → Nat → Except ε β} {n : Nat} {s : β} {e : ε}
    {Q : Prop} (P : Nat → β → Prop) (h0 : P 0 s)
    (hstep : ∀ k a, k < n → P k a → (∃ b, f a k = .ok b ∧ P (k + 1) b) ∨ (f a k = .error e ∧ Q)) :
    (∃ s', (List.range n).foldlM f s = .ok s' ∧ P n s')
    ∨ ((List.range n).foldlM f s = .error e ∧ Q) := by
  induction n with
  | zero => exact Or.inl ⟨s, rfl, h0⟩
  | succ n ih =>
    rw [List.range_succ, List.foldlM_append]
    rcases ih (fun k a hk => hstep k a (by omega)) with ⟨s1, h1, h2⟩ | ⟨h1, h2⟩
    · rw [h1]
      rcases hstep n s1 (by omega) h2 with ⟨b, h3, h4⟩ | ⟨h3, h4⟩
      · exact Or.inl ⟨b, by simp [bind, Except.bind, h3, pure, Except.pure], h4⟩
      · exact Or.inr ⟨by simp [bind, Except.bind, h3], h4⟩
    · rw [h1]
      exact Or.inr ⟨rfl, h2⟩

theorem checkParameters_iff {p : Parameters} :
    (checkParameters p = .ok () ∧
      (p.numberOfStages = 2 → p.minimumDistance2Cuts = 0 ∧ p.maximumDistance2Cuts = -1
        ∧ p.maximumNumber2Cuts = -1) ∧ p.maximumNumber1Cuts ≠ 0 ∧ p.maximumNumber2Cuts ≠ 0)
    ∨ (checkParameters p = .error .invalidArgument ∧
      ¬ ((p.numberOfStages = 2 → p.minimumDistance2Cuts = 0 ∧ p.maximumDistance2Cuts = -1
        ∧ p.maximumNumber2Cuts = -1) ∧ p.maximumNumber1Cuts ≠ 0 ∧ p.maximumNumber2Cuts ≠ 0)) := by
  unfold checkParameters
  split_ifs with h1 h2 h3 h4 h5
  · exact Or.inr ⟨rfl, fun h => h1.2 (h.1 h1.1).1⟩
  · exact Or.inr ⟨rfl, fun h => h2.2 (h.1 h2.1).2.1⟩
  · exact Or.inr ⟨rfl, fun h => h3.2 (h.1 h3.1).2.2⟩
  · exact Or.inr ⟨rfl, fun h => h.2.1 h4⟩
  · exact Or.inr ⟨rfl, fun h => h.2.2 h5⟩
  · exact Or.inl ⟨rfl, fun h => ⟨by tauto, by tauto, by tauto⟩, h4, h5⟩

theorem itemLoop_cases {areaMax : Int} {inst : Instance} (hF : BFresh inst)
    (ha : ∀ t ∈ inst.itemTypes, t.area ≠ 0) (hc : ∀ t ∈ inst.itemTypes, 0 ≤ t.copies) :
    (∃ s, (List.range inst.itemTypes.length).foldlM (buildItem areaMax) (itemStart inst) = .ok s
      ∧ ItemInv areaMax inst inst.itemTypes.length s
      ∧ ∀ t ∈ inst.itemTypes, t.copiesMin = -1 ∨ t.copiesMin ≤ t.copies)
    ∨ ((List.range inst.itemTypes.length).foldlM (buildItem areaMax) (itemStart inst)
        = .error .invalidArgument
      ∧ ¬ ∀ t ∈ inst.itemTypes, t.copiesMin = -1 ∨ t.copiesMin ≤ t.copies) := by
  have key : ∀ t : ItemType, 0 ≤ t.copies →
      ((resolveItem inst.objective t).copiesMin > (resolveItem inst.objective t).copies ↔
        ¬ (t.copiesMin = -1 ∨ t.copiesMin ≤ t.copies)) := by
    intro t ht
    unfold resolveItem
    split_ifs with h1 h2 <;> simp <;> omega
  rcases foldlM_range_or (n := inst.itemTypes.length) (f := buildItem areaMax)
    (s := itemStart inst) (e := Err.invalidArgument)
    (Q := ¬ ∀ t ∈ inst.itemTypes, t.copiesMin = -1 ∨ t.copiesMin ≤ t.copies)
    (fun k a => ItemInv areaMax inst k a) (itemInv_zero hF) (by
      intro k a hk hi
      have hget : a.itemType k = inst.itemType k := by
        unfold Instance.itemType
        rw [hi.itemTypes, getD_map_take_drop _ _ _ _ hk]
      have hmem : inst.itemType k ∈ inst.itemTypes := getD_mem _ hk
      by_cases h1 : (resolveItem inst.objective (inst.itemType k)).copiesMin
          > (resolveItem inst.objective (inst.itemType k)).copies
      · right
        refine ⟨?_, fun hall => (key _ (hc _ hmem)).mp h1 (hall _ hmem)⟩
        unfold buildItem
        dsimp only
        rw [hget, hi.objective, if_pos h1]
      · left
        cases hs : buildItem areaMax a k with
        | ok b => exact ⟨b, rfl, itemInv_step hk hi hs⟩
        | error e =>
          exfalso
          unfold buildItem at hs
          dsimp only at hs
          rw [hget, hi.objective, if_neg h1, if_neg (by
            rw [(resolve_fields _ _).2.2.2.2.2.2.2.2.2]; exact ha _ hmem)] at hs
          cases hs) with ⟨s, h1, h2⟩ | h
  · refine Or.inl ⟨s, h1, h2, fun t ht => ?_⟩
    by_contra hn
    have h3 := h2.copiesMin t (by rw [List.take_length]; exact ht)
    have h4 := (key t (hc t ht)).mpr hn
    rw [(resolve_fields _ _).1] at h4
    omega
  · exact Or.inr h

theorem computeResourceIds_defined {inst : Instance}
    (h : ∀ t ∈ inst.binTypes, ∀ r ∈ t.resources,
      r.itemConsumptions.length ≤ inst.itemTypes.length) :
    ∃ inst', computeResourceIds inst = .ok inst' := by
  unfold computeResourceIds
  obtain ⟨its, h1, -⟩ := foldlM_range_ok (n := inst.binTypes.length)
    (f := fun its b => (List.range (inst.binType b).resources.length).foldlM
      (fun its r =>
        let ic := ((inst.binType b).resources.getD r {}).itemConsumptions
        (List.range ic.length).foldlM
          (fun its i => if ic.getD i [] = [] then .ok its else pushResourceId b r its i) its)
      its)
    (s := inst.itemTypes.map fun t =>
      { t with resourceIds := growTo [] inst.binTypes.length t.resourceIds })
    (fun _ (its : List ItemType) => its.length = inst.itemTypes.length) (by rw [List.length_map])
    (by
      intro b its hb hl
      refine foldlM_range_ok
        (fun _ (its : List ItemType) => its.length = inst.itemTypes.length) hl ?_
      intro r its hr hl
      dsimp only
      refine foldlM_range_ok
        (fun _ (its : List ItemType) => its.length = inst.itemTypes.length) hl ?_
      intro i its hi hl
      by_cases h0 : (((inst.binType b).resources.getD r {}).itemConsumptions.getD i []) = []
      · exact ⟨its, by rw [if_pos h0], hl⟩
      · have h2 := h (inst.binType b) (getD_mem _ hb) _ (getD_mem {} hr)
        refine ⟨_, by rw [if_neg h0]; unfold pushResourceId; rw [if_pos (by omega)], ?_⟩
        rw [List.length_modify]; exact hl)
  exact ⟨_, bind_ok.mpr ⟨its, h1, rfl⟩⟩

theorem computeCopiesFixed_defined {inst : Instance}
    (hf : ∀ t ∈ inst.binTypes, t.fixedItems = []) : ∃ inst', computeCopiesFixed inst = .ok inst' := by
  unfold computeCopiesFixed
  suffices h : ∀ (f : List ItemType → BinType → Except Err (List ItemType)),
      (∀ its t, t.fixedItems = [] → f its t = .ok its) →
      ∀ (l : List BinType) (its : List ItemType), (∀ t ∈ l, t.fixedItems = []) →
        l.foldlM f its = .ok its by
    refine ⟨_, bind_ok.mpr ⟨_, h _ (fun its t ht => ?_) _ _ hf, rfl⟩⟩
    rw [ht]
    simp [pure, Except.pure]
  intro f hf2 l
  induction l with
  | nil => intro its _; rfl
  | cons t l ih =>
    intro its hl
    exact foldlM_cons_ok.mpr ⟨its, hf2 _ _ (hl t (by simp)), ih its fun u hu => hl u (by simp [hu])⟩

theorem positions_length (l : List BinType) : ∀ k,
    (l.zipIdx k |>.flatMap fun q => List.replicate q.1.copies.toNat q.2).length
      = (l.map fun t => t.copies.toNat).sum := by
  induction l with
  | nil => intro k; rfl
  | cons a l ih => intro k; simp [ih]

theorem binPositions_length {l : List BinType} (h : ∀ t ∈ l, 0 ≤ t.copies) :
    ((binPositions l).length : Int) = (l.map (·.copies)).sum := by
  unfold binPositions
  rw [positions_length]
  induction l with
  | nil => rfl
  | cons a l ih =>
    rw [List.map_cons, List.sum_cons, List.map_cons, List.sum_cons,
      ← ih fun t ht => h t (by simp [ht])]
    have := h a (by simp)
    omega

/-- When `build` succeeds. -/
theorem build_cases {b : InstanceBuilder} (hF : BFresh b.inst) (hW : WellFormed b.inst) :
    (Buildable b.inst ∧ ∃ inst, b.build = .ok inst)
    ∨ (¬ Buildable b.inst ∧ b.build = .error .invalidArgument) := by
  rcases checkParameters_iff (p := b.inst.parameters) with ⟨hp, c1⟩ | ⟨hp, c1⟩
  swap
  · right
    refine ⟨fun h => c1 ⟨h.twoStages, h.numbers⟩, ?_⟩
    unfold InstanceBuilder.build
    rw [hp]; rfl
  have hstacks : (((∀ t ∈ b.inst.itemTypes, 0 ≤ t.stackId) ∨ (∀ t ∈ b.inst.itemTypes, t.stackId < 0))
      ∧ ∃ i0, buildStacks b.inst = .ok i0)
      ∨ (¬ ((∀ t ∈ b.inst.itemTypes, 0 ≤ t.stackId) ∨ (∀ t ∈ b.inst.itemTypes, t.stackId < 0))
      ∧ buildStacks b.inst = .error .invalidArgument) := by
    rcases buildStacks_cases (inst := b.inst) hW.copies with
      ⟨⟨t, ht, h1⟩, ⟨u, hu, h2⟩, h3⟩ | ⟨h1, _, i, h3, _⟩ | ⟨h1, i, h3, _⟩
    · refine Or.inr ⟨?_, h3⟩
      rintro (h | h)
      · have := h u hu; omega
      · have := h t ht; omega
    · exact Or.inl ⟨Or.inl h1, i, h3⟩
    · exact Or.inl ⟨Or.inr h1, i, h3⟩
  rcases hstacks with ⟨c2, i0, h0⟩ | ⟨c2, h0⟩
  swap
  · right
    refine ⟨fun h => c2 h.stacksGiven, ?_⟩
    unfold InstanceBuilder.build
    rw [hp, h0]; rfl
  obtain ⟨its, ids, offs, e0, hunst⟩ := buildStacks_ok h0
  have hF0 : BFresh i0 := by rw [e0]; exact fresh_of_unstack hF hunst
  have hits : i0.itemTypes = its := by rw [e0]
  have hobj : i0.objective = b.inst.objective := by rw [e0]
  have hbins : i0.binTypes = b.inst.binTypes := by rw [e0]
  have hg : ∀ {β : Type} (g : ItemType → β), (∀ t, g (unstack t) = g t) →
      i0.itemTypes.map g = b.inst.itemTypes.map g := by
    intro β g hg
    have h := congrArg (List.map g) hunst
    rw [List.map_map, List.map_map] at h
    have e : g ∘ unstack = g := funext hg
    rw [e] at h
    rw [hits]; exact h
  have hall : ∀ (P : ItemType → Prop), (∀ t, P (unstack t) ↔ P t) →
      ((∀ t ∈ i0.itemTypes, P t) ↔ ∀ t ∈ b.inst.itemTypes, P t) := by
    intro P hP
    have h := hg P (fun t => propext (hP t))
    have e : ∀ l : List ItemType, (∀ t ∈ l, P t) ↔ ∀ p ∈ l.map P, p := fun l =>
      ⟨fun h p hp => by obtain ⟨t, ht, rfl⟩ := List.mem_map.mp hp; exact h t ht,
        fun h t ht => h _ (List.mem_map.mpr ⟨t, ht, rfl⟩)⟩
    rw [e, h, ← e]
  have hlen : i0.itemTypes.length = b.inst.itemTypes.length := by
    have := congrArg List.length (hg (fun t => t.w) (fun _ => rfl))
    simpa using this
  have harea : ∀ t ∈ i0.itemTypes, t.area ≠ 0 := by
    rw [hall (fun t => t.area ≠ 0) (fun _ => Iff.rfl)]
    intro t ht
    unfold ItemType.area
    exact mul_ne_zero (hW.sides t ht).1 (hW.sides t ht).2
  have hcop : ∀ t ∈ i0.itemTypes, 0 ≤ t.copies :=
    (hall (fun t => 0 ≤ t.copies) (fun _ => Iff.rfl)).mpr hW.copies
  have hmin : (∀ t ∈ i0.itemTypes, t.copiesMin = -1 ∨ t.copiesMin ≤ t.copies)
      ↔ ∀ t ∈ b.inst.itemTypes, t.copiesMin = -1 ∨ t.copiesMin ≤ t.copies :=
    hall (fun t => t.copiesMin = -1 ∨ t.copiesMin ≤ t.copies) (fun _ => Iff.rfl)
  rcases itemLoop_cases (areaMax := binTypesAreaMax i0) hF0 harea hcop with
    ⟨i1, h1, hI, c3⟩ | ⟨h1, c3⟩
  swap
  · right
    refine ⟨fun h => c3 (hmin.mpr h.minima), ?_⟩
    unfold InstanceBuilder.build
    rw [hp, h0]
    change ((List.range i0.itemTypes.length).foldlM (buildItem (binTypesAreaMax i0))
      (itemStart i0) >>= _) = _
    rw [h1]; rfl
  have hB := binLoop (inst0 := i1) (by rw [hI.binTypeIds]; exact hF0.underived.binTypeIds)
    (by rw [hI.previousBinsArea]; exact hF0.underived.previousBinsArea)
    (by rw [hI.largestBinCost]; exact hF0.underived.largestBinCost)
    (by rw [hI.numberOfDefects]; exact hF0.underived.numberOfDefects)
  generalize hst : (List.range i1.binTypes.length).foldl buildBin ({ i1 with binArea := 0 }, 0)
    = st at hB
  obtain ⟨_, _, _, _, _, _, est⟩ := hB.rest
  have hitems1 : st.1.itemTypes.length = b.inst.itemTypes.length := by
    have e : st.1.itemTypes = i1.itemTypes := by rw [est]
    rw [e, hI.itemTypes, ← hlen]; simp
  have hbins1 : st.1.binTypes = b.inst.binTypes.map (resolveBin i1.numberOfItems) := by
    rw [hB.binTypes, hI.binTypes, hbins]; simp
  obtain ⟨i2, h2⟩ := computeResourceIds_defined (inst := st.1) (by
    rw [hbins1, hitems1]
    intro t ht r hr
    obtain ⟨u, hu, rfl⟩ := List.mem_map.mp ht
    rw [(resolveBin_fields _ _).2.2.2.2.2.1] at hr
    exact hW.consumptions u hu r hr)
  have e2 : ∃ its2, i2 = { st.1 with itemTypes := its2 } := by
    unfold computeResourceIds at h2
    obtain ⟨its2, -, h3⟩ := bind_ok.mp h2
    cases h3
    exact ⟨its2, rfl⟩
  obtain ⟨its2, e2⟩ := e2
  obtain ⟨i3, h3⟩ := computeCopiesFixed_defined (inst := i2) (by
    rw [e2]
    change ∀ t ∈ st.1.binTypes, _
    rw [hbins1]
    intro t ht
    obtain ⟨u, hu, rfl⟩ := List.mem_map.mp ht
    rw [(resolveBin_fields _ _).2.2.2.2.2.2.1]
    exact (hF.bins u hu).fixedItems)
  have hn1 : i1.numberOfItems = (b.inst.itemTypes.map (·.copies)).sum := by
    rw [hI.numberOfItems, List.take_length, hg (·.copies) (fun _ => rfl)]
  have hn0 : 0 ≤ (b.inst.itemTypes.map (·.copies)).sum := by
    have : ∀ l : List ItemType, (∀ t ∈ l, 0 ≤ t.copies) → 0 ≤ (l.map (·.copies)).sum := by
      intro l
      induction l with
      | nil => intro _; exact le_refl _
      | cons t l ih =>
        intro hl
        rw [List.map_cons, List.sum_cons]
        have h1 := hl t (by simp)
        have h2 := ih fun u hu => hl u (by simp [hu])
        omega
    exact this _ hW.copies
  have hbc : (i2.numberOfBins : Int) = (b.inst.binTypes.map fun t =>
      if t.copies = -1 then (b.inst.itemTypes.map (·.copies)).sum else t.copies).sum := by
    have e : i2.binTypeIds = binPositions st.1.binTypes := by
      rw [e2]
      change st.1.binTypeIds = _
      rw [hB.binTypeIds, hbins1, hI.binTypes, hbins, List.take_length]
    unfold Instance.numberOfBins
    rw [e, binPositions_length, hbins1, List.map_map]
    · congr 1
      apply List.map_congr_left
      intro t ht
      simp only [Function.comp]
      unfold resolveBin
      rw [hn1]
      split_ifs <;> rfl
    · rw [hbins1]
      intro t ht
      obtain ⟨u, hu, rfl⟩ := List.mem_map.mp ht
      unfold resolveBin
      rw [hn1]
      split_ifs with h4
      · exact hn0
      · rcases (hF.bins u hu).copies with h5 | h5
        · exact absurd h5 h4
        · exact le_of_lt h5
  have hobj2 : i2.objective = b.inst.objective := by
    rw [e2]
    change st.1.objective = _
    rw [est]
    change i1.objective = _
    rw [hI.objective, hobj]
  have hchain : b.build = (checkOpenDimension i2 >>= fun _ => computeCopiesFixed i2) := by
    unfold InstanceBuilder.build
    rw [hp, h0]
    change ((List.range i0.itemTypes.length).foldlM (buildItem (binTypesAreaMax i0))
      (itemStart i0) >>= _) = _
    rw [h1]
    change (computeResourceIds ((List.range i1.binTypes.length).foldl buildBin
      ({ i1 with binArea := 0 }, 0)).1 >>= _) = _
    rw [hst, h2]; rfl
  by_cases c4 : b.inst.objective = .openDimensionX ∨ b.inst.objective = .openDimensionY →
    (b.inst.binTypes.map fun t =>
      if t.copies = -1 then (b.inst.itemTypes.map (·.copies)).sum else t.copies).sum = 1
  · left
    refine ⟨⟨c1.1, c1.2, c2, hmin.mp c3, c4⟩, i3, ?_⟩
    have : checkOpenDimension i2 = .ok () := by
      unfold checkOpenDimension
      rw [hobj2, if_neg, if_neg]
      · rintro ⟨h5, h6⟩
        have := c4 (Or.inr h5)
        omega
      · rintro ⟨h5, h6⟩
        have := c4 (Or.inl h5)
        omega
    rw [hchain, this]
    exact h3
  · right
    refine ⟨fun h => c4 h.openDimension, ?_⟩
    have : checkOpenDimension i2 = .error .invalidArgument := by
      unfold checkOpenDimension
      push Not at c4
      obtain ⟨h5, h6⟩ := c4
      rw [hobj2]
      by_cases h7 : b.inst.objective = .openDimensionX
      · rw [if_pos ⟨h7, by omega⟩]
      · rw [if_neg (fun h => h7 h.1), if_pos ⟨by tauto, by omega⟩]
    rw [hchain, this]; rfl

end PackingSolver.Guil
