import Verif.Lemmas.Stacks.Loop

/-! Helper lemmas: the loop over the stacks of a bin. -/

namespace PackingSolver.Stacks

open Spec
open PackingSolver.Box (Rotation)

variable {inst : Instance} {t : Nat} {c : Int} {last : Bool}

/-- The loop over the stacks. -/
abbrev runPiles (inst : Instance) (t : Nat) (c : Int) (last : Bool) (st : PileLoop)
    (l : List SolutionStack) : PileLoop := l.foldl (pileStep inst t c last) st

theorem runPiles_snoc (st : PileLoop) (l : List SolutionStack) (a : SolutionStack) :
    runPiles inst t c last st (l ++ [a]) = pileStep inst t c last (runPiles inst t c last st l) a :=
  List.foldl_append

/-- The extents after a list of stacks. -/
def runExtents (inst : Instance) (t : Nat) (last : Bool) (s : Solution) (l : List SolutionStack) :
    Solution := l.foldl (fun s p => extentStep (inst.binType t) last p.xEnd p.yEnd s) s

theorem runExtents_snoc (s : Solution) (l : List SolutionStack) (a : SolutionStack) :
    runExtents inst t last s (l ++ [a])
      = extentStep (inst.binType t) last a.xEnd a.yEnd (runExtents inst t last s l) :=
  List.foldl_append

/-- The items of a list of stacks. -/
abbrev pileItems (l : List SolutionStack) : List (Nat × Rotation) :=
  l.flatMap fun p => p.items.map viewItem

/-- The volume counted for the items of a stack. -/
def countedVolume (inst : Instance) (p : SolutionStack) : Int :=
  (p.items.map fun i => itemHeight inst (viewItem i)
    * ((p.xEnd - p.xStart) * (p.yEnd - p.yStart))).sum

theorem extentStep_comm (bt : BinType) (x y : Int) (s : Solution)
    (n a m v : Int) (ic : List Int) (w pr : ℚ) :
    extentStep bt last x y { s with
        numberOfStacks := n
        stackArea := a
        numberOfItems := m
        itemCopies := ic
        itemVolume := v
        itemWeight := w
        itemProfit := pr }
      = { extentStep bt last x y s with
        numberOfStacks := n
        stackArea := a
        numberOfItems := m
        itemCopies := ic
        itemVolume := v
        itemWeight := w
        itemProfit := pr } := by
  unfold extentStep
  split_ifs <;> rfl

/-- The totals of the solution after a list of stacks. -/
theorem runPiles_sol (st : PileLoop) (l : List SolutionStack) :
    (runPiles inst t c last st l).sol = { runExtents inst t last st.sol l with
      numberOfStacks := st.sol.numberOfStacks + c * (l.length : Int)
      stackArea := st.sol.stackArea + c * ((l.map fun p => floorArea (viewPile p)).sum)
      numberOfItems := st.sol.numberOfItems + c * ((pileItems l).length : Int)
      itemCopies := addItems st.sol.itemCopies c (pileItems l)
      itemVolume := st.sol.itemVolume + c * (l.map (countedVolume inst)).sum
      itemWeight := st.sol.itemWeight
        + (c : ℚ) * ((pileItems l).map fun i => (inst.itemType i.1).weight).sum
      itemProfit := st.sol.itemProfit + (c : ℚ) * itemsProfit inst (pileItems l) } := by
  induction l using List.reverseRecOn with
  | nil => simp [addItems, itemsProfit, runExtents]
  | append_singleton l a ih =>
    have hpi : pileItems (l ++ [a]) = pileItems l ++ a.items.map viewItem := by simp [pileItems]
    have e1 : ((l ++ [a]).map fun p => floorArea (viewPile p)).sum
        = (l.map fun p => floorArea (viewPile p)).sum + floorArea (viewPile a) := by simp
    have e2 : ((l ++ [a]).map (countedVolume inst)).sum
        = (l.map (countedVolume inst)).sum + countedVolume inst a := by simp
    have e3 : itemsProfit inst (pileItems (l ++ [a]))
        = itemsProfit inst (pileItems l)
          + (a.items.map fun i => (inst.itemType i.itemTypeId).profit).sum := by
      rw [hpi]; simp [itemsProfit, Function.comp_def]
    have e4 : ((pileItems (l ++ [a])).map fun i => (inst.itemType i.1).weight).sum
        = ((pileItems l).map fun i => (inst.itemType i.1).weight).sum
          + (a.items.map fun i => (inst.itemType i.itemTypeId).weight).sum := by
      rw [hpi]; simp [Function.comp_def]
    rw [hpi] at e3 e4
    rw [runPiles_snoc]
    simp only [pileStep]
    have := runItems_sol (inst := inst) (c := c)
    rw [this]
    simp only [ih, extentStep_comm, runExtents_snoc, e1, e2, e3, e4, hpi, addItems_append,
      List.length_append, List.length_cons, List.length_nil, List.length_map]
    congr 1
    · push_cast; ring
    · push_cast; ring
    · rw [floorArea, viewPile]; ring
    · rw [countedVolume]; ring
    · ring
    · ring

theorem runExtents_frame (s : Solution) (l : List SolutionStack) :
    ∃ x y v, runExtents inst t last s l = { s with xMax := x, yMax := y, volume := v } := by
  induction l using List.reverseRecOn with
  | nil => exact ⟨s.xMax, s.yMax, s.volume, rfl⟩
  | append_singleton l a ih =>
    obtain ⟨x, y, v, ih⟩ := ih
    rw [runExtents_snoc, ih]
    cases last
    · exact ⟨_, _, _, rfl⟩
    · exact ⟨_, _, _, rfl⟩

theorem runExtents_max (s : Solution) (hx : s.xMax = 0) (hy : s.yMax = 0) (l : List SolutionStack) :
    OneDim.Spec.IsMaxWithZero (l.map (·.xEnd)) (runExtents inst t true s l).xMax
    ∧ OneDim.Spec.IsMaxWithZero (l.map (·.yEnd)) (runExtents inst t true s l).yMax := by
  induction l using List.reverseRecOn with
  | nil => simp [runExtents, hx, hy, OneDim.Spec.IsMaxWithZero]
  | append_singleton l a ih =>
    rw [runExtents_snoc]
    obtain ⟨⟨h1, h2, h3⟩, ⟨g1, g2, g3⟩⟩ := ih
    simp only [extentStep, if_true, List.map_append, List.map_cons, List.map_nil]
    constructor
    · refine ⟨?_, ?_, ?_⟩
      · intro x hx
        simp only [List.mem_append, List.mem_singleton] at hx
        rcases hx with hx | rfl
        · have := h1 x hx
          split_ifs <;> omega
        · split_ifs <;> omega
      · split_ifs <;> omega
      · split_ifs
        · exact .inr (by simp)
        · rcases h3 with e | e
          · exact .inl e
          · exact .inr (List.mem_append_left _ e)
    · refine ⟨?_, ?_, ?_⟩
      · intro x hx
        simp only [List.mem_append, List.mem_singleton] at hx
        rcases hx with hx | rfl
        · have := g1 x hx
          split_ifs <;> omega
        · split_ifs <;> omega
      · split_ifs <;> omega
      · split_ifs
        · exact .inr (by simp)
        · rcases g3 with e | e
          · exact .inl e
          · exact .inr (List.mem_append_left _ e)

/-- `volume_` after the stacks of the last bin. -/
theorem runExtents_volume (s : Solution) (l : List SolutionStack) :
    (l ≠ [] → (runExtents inst t true s l).volume = s.binVolume - (inst.binType t).box.z
      * max (((inst.binType t).box.x - (runExtents inst t true s l).xMax) * (inst.binType t).box.y)
        ((inst.binType t).box.y
          - (runExtents inst t true s l).yMax * (inst.binType t).box.x))
    ∧ (l = [] → (runExtents inst t true s l).volume = s.volume) := by
  refine ⟨fun hne => ?_, fun h => by rw [h]; rfl⟩
  rcases List.eq_nil_or_concat l with e | ⟨l', a, rfl⟩
  · exact absurd e hne
  · rw [List.concat_eq_append, runExtents_snoc]
    obtain ⟨x, y, v, e⟩ := runExtents_frame (inst := inst) (t := t) (last := true) s l'
    rw [e]
    simp [extentStep]

theorem runExtents_other (s : Solution) (l : List SolutionStack) :
    runExtents inst t false s l = s := by
  induction l using List.reverseRecOn with
  | nil => rfl
  | append_singleton l a ih => rw [runExtents_snoc, ih]; simp [extentStep]

/-! ### What is written into the stacks -/

/-- The attributes of a stack are those of its items. -/
structure PileGood (inst : Instance) (p : SolutionStack) : Prop where
  height : p.zEnd = pileHeight inst (p.items.map viewItem)
  bottoms : ∀ k (hk : k < p.items.length), p.items[k].zStart + itemHeight inst (viewItem p.items[k])
    = pileHeight inst ((p.items.map viewItem).take (k + 1))
  weightLen : p.weight.length = inst.numberOfGroups
  momentLen : p.weightWeightedSum.length = inst.numberOfGroups
  weight : ∀ g, g < inst.numberOfGroups →
    p.weight.getD g 0 = weightFrom inst g (p.items.map viewItem)
  moment : ∀ g, g < inst.numberOfGroups → p.weightWeightedSum.getD g 0
    = ((p.xStart + p.xEnd : Int) : ℚ) / 2 * weightFrom inst g (p.items.map viewItem)
  profit : p.profit = itemsProfit inst (p.items.map viewItem)

theorem replicate_getD (n g : Nat) : (List.replicate n (0 : ℚ)).getD g 0 = 0 := by
  rw [List.getD_eq_getElem?_getD, List.getElem?_replicate]
  split_ifs <;> rfl

theorem weightFrom_append (g : Nat) (l m : List (Nat × Rotation)) :
    weightFrom inst g (l ++ m) = weightFrom inst g l + weightFrom inst g m := by
  simp [weightFrom]

theorem itemsProfit_append (l m : List (Nat × Rotation)) :
    itemsProfit inst (l ++ m) = itemsProfit inst l + itemsProfit inst m := by
  simp [itemsProfit]

/-- The stacks and the weights of the bin after the loop. -/
theorem runPiles_bin (st : PileLoop) (hw : st.weight = List.replicate inst.numberOfGroups 0)
    (hm : st.weightWeightedSum = List.replicate inst.numberOfGroups 0) (hp : st.profit = 0)
    (hl : st.piles = []) (l : List SolutionStack) :
    (runPiles inst t c last st l).piles.map viewPile = l.map viewPile
    ∧ (∀ p ∈ (runPiles inst t c last st l).piles, PileGood inst p)
    ∧ (runPiles inst t c last st l).weight.length = inst.numberOfGroups
    ∧ (runPiles inst t c last st l).weightWeightedSum.length = inst.numberOfGroups
    ∧ (∀ g, g < inst.numberOfGroups → (runPiles inst t c last st l).weight.getD g 0
        = weightFrom inst g (pileItems l))
    ∧ (∀ g, g < inst.numberOfGroups → (runPiles inst t c last st l).weightWeightedSum.getD g 0
        = (l.map fun s => ((s.xStart + s.xEnd : Int) : ℚ) / 2
            * weightFrom inst g (s.items.map viewItem)).sum)
    ∧ (runPiles inst t c last st l).profit = itemsProfit inst (pileItems l) := by
  induction l using List.reverseRecOn with
  | nil => simp [hw, hm, hp, hl, weightFrom, itemsProfit]
  | append_singleton l a ih =>
    obtain ⟨i1, i2, i3, i4, i5, i6, i7⟩ := ih
    have hpi : pileItems (l ++ [a]) = pileItems l ++ a.items.map viewItem := by simp [pileItems]
    rw [runPiles_snoc]
    simp only [pileStep]
    set R := runPiles inst t c last st l with hR
    set sol0 : Solution := { extentStep (inst.binType t) last a.xEnd a.yEnd R.sol with
      numberOfStacks := (extentStep (inst.binType t) last a.xEnd a.yEnd R.sol).numberOfStacks + c
      stackArea := (extentStep (inst.binType t) last a.xEnd a.yEnd R.sol).stackArea
        + c * (a.xEnd - a.xStart) * (a.yEnd - a.yStart) }
    set st0 : ItemLoop := { sol := sol0
                            binWeight := R.weight
                            binWeightWeightedSum := R.weightWeightedSum
                            binProfit := R.profit
                            pile := { a with
                              items := []
                              weight := List.replicate inst.numberOfGroups 0
                              weightWeightedSum := List.replicate inst.numberOfGroups 0
                              profit := 0
                              zEnd := 0 } } with hst0
    obtain ⟨w1, w2, w3, w4, w5, w6, w7, w8, w9, w10⟩ :=
      runItems_weights (inst := inst) (c := c) st0 a.items _ rfl
    obtain ⟨p1, p2, p3, p4⟩ := runItems_place (inst := inst) (c := c) st0 a.items
    have hit := runItems_items (inst := inst) (c := c) st0 a.items
    have hht := runItems_heights (inst := inst) (c := c) st0 rfl rfl rfl a.items
    have hit' : (runItems inst c st0 a.items).pile.items.map viewItem = a.items.map viewItem := by
      simpa [hst0] using hit
    refine ⟨?_, ?_, by rw [w1]; exact i3, by rw [w2]; exact i4, ?_, ?_, ?_⟩
    · rw [List.map_append, i1, List.map_append]
      congr 1
      simp only [List.map_cons, List.map_nil, viewPile, List.cons.injEq, and_true]
      rw [p1, p2, p3, p4]
      exact congrArg _ hit'
    · intro p hpm
      rw [List.mem_append, List.mem_singleton] at hpm
      rcases hpm with hpm | rfl
      · exact i2 p hpm
      · constructor
        · rw [hit']; exact hht.1
        · rw [hit']; exact hht.2
        · rw [w3]; simp [hst0]
        · rw [w4]; simp [hst0]
        · intro g hg
          rw [hit', w7 g (by simpa [hst0] using hg)]
          simp only [hst0, replicate_getD, zero_add]
        · intro g hg
          rw [hit', w8 g (by simpa [hst0] using hg), p1, p2]
          simp only [hst0, replicate_getD, zero_add]
        · rw [hit', w10]; simp [hst0]
    · intro g hg
      rw [w5 g (by rw [← i3] at hg; exact hg), hpi, weightFrom_append, ← i5 g hg]
    · intro g hg
      rw [w6 g (by rw [← i4] at hg; exact hg), List.map_append, List.sum_append, ← i6 g hg]
      simp [hst0]
    · rw [w9, hpi, itemsProfit_append, ← i7]

end PackingSolver.Stacks
