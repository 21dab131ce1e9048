import Verif.Lemmas.Stacks.Piles

/-! Helper lemmas: the indicators of a boxstacks solution are functions of its bins. -/

namespace PackingSolver.Stacks

open Spec
open PackingSolver.Box (Rotation)
open PackingSolver.OneDim (foldl_count forall_mem_snoc)

theorem binItems_view (b : SolutionBin) : binItems (viewBin b) = pileItems b.piles := by
  simp [binItems, viewBin, viewPile, pileItems, List.flatMap_map]

/-- The volume counted for the items of a stack. -/
def packedVolume (inst : Instance) (s : PackedStack) : Int :=
  (s.items.map fun i => itemHeight inst i * floorArea s).sum

theorem countedVolume_view (inst : Instance) (p : SolutionStack) :
    countedVolume inst p = packedVolume inst (viewPile p) := by
  simp [countedVolume, packedVolume, viewPile, floorArea, viewItem, Function.comp_def]

/-- The state of the loop over the stacks at the end. -/
def endLoop (inst : Instance) (s : Solution) (k : Nat) : PileLoop :=
  runPiles inst (s.bins.getD k default).binTypeId (s.bins.getD k default).copies
    (decide (k + 1 = s.bins.length)) (s.startBin inst k) (s.bins.getD k default).piles

theorem countInfeasibleMin_eq (inst : Instance) (v : List Int) (p : Packing)
    (h : ∀ i, i < inst.numberOfItemTypes → v.getD i 0 = itemCopies p i) :
    countInfeasibleMin inst v = missing inst p := by
  unfold countInfeasibleMin missing
  rw [foldl_count, zero_add]
  congr 1
  apply List.countP_congr
  intro i hi
  rw [h i (List.mem_range.mp hi)]

theorem missing_eq_zero (inst : Instance) (p : Packing) :
    missing inst p = 0 ↔
      ∀ i, i < inst.numberOfItemTypes → (inst.itemType i).copiesMin ≤ itemCopies p i := by
  unfold missing
  rw [Int.natCast_eq_zero, List.countP_eq_zero]
  constructor
  · intro h i hi
    have := h i (List.mem_range.mpr hi)
    simpa using this
  · intro h i hi
    simpa using h i (List.mem_range.mp hi)

theorem withinCopies_iff (inst : Instance) (v : List Int) (p : Packing)
    (h : ∀ i, i < inst.numberOfItemTypes → v.getD i 0 = itemCopies p i) :
    withinCopies inst v = true ↔
      ∀ i, i < inst.numberOfItemTypes → itemCopies p i ≤ (inst.itemType i).copies := by
  unfold withinCopies
  rw [List.all_eq_true]
  constructor
  · intro h1 i hi
    have := h1 i (List.mem_range.mpr hi)
    rw [h i hi] at this
    simpa using this
  · intro h1 i hi
    have hi' := List.mem_range.mp hi
    rw [h i hi']
    simpa using h1 i hi'

/-! ### The invariant -/

/-- All the totals of `s` are those of the list of bins `done`. -/
structure Indic (inst : Instance) (s : Solution) (done : Packing) : Prop where
  numberOfBins : s.numberOfBins = Spec.numberOfBins done
  numberOfStacks : s.numberOfStacks = Spec.numberOfStacks done
  numberOfItems : s.numberOfItems = Spec.numberOfItems done
  binArea : s.binArea = Spec.binArea inst done
  binVolume : s.binVolume = Spec.binVolume inst done
  stackArea : s.stackArea = Spec.stackArea done
  itemVolume : s.itemVolume = (done.map fun b => b.copies * (b.piles.map (packedVolume inst)).sum).sum
  itemWeight : s.itemWeight = Spec.itemWeight inst done
  itemProfit : s.itemProfit = Spec.itemProfit inst done
  cost : s.binCost = Spec.cost inst done
  binCopiesLen : s.binCopies.length = inst.numberOfBinTypes
  binCopies : ∀ t, t < inst.numberOfBinTypes → s.binCopies.getD t 0 = Spec.binCopies done t
  itemCopiesLen : s.itemCopies.length = inst.numberOfItemTypes
  itemCopies : ∀ i, i < inst.numberOfItemTypes → s.itemCopies.getD i 0 = Spec.itemCopies done i
  missing : s.numberOfInfeasibleItemCopiesMin = Spec.missing inst done
  itemCopiesFeasible : done ≠ [] → (s.itemCopiesFeasible = true ↔
    ∀ i, i < inst.numberOfItemTypes → Spec.itemCopies done i ≤ (inst.itemType i).copies)

theorem indic_init (inst : Instance) : Indic inst (Solution.init inst) [] := by
  have hz : ∀ n i, (List.replicate n (0 : Int)).getD i 0 = 0 := by
    intro n i
    rw [List.getD_eq_getElem?_getD, List.getElem?_replicate]
    split_ifs <;> rfl
  constructor
  case missing =>
    apply countInfeasibleMin_eq
    intro i _
    rw [hz]; simp [Spec.itemCopies]
  case binCopies => intro t _; simp only [Solution.init]; rw [hz]; simp [Spec.binCopies]
  case itemCopies => intro t _; simp only [Solution.init]; rw [hz]; simp [Spec.itemCopies]
  all_goals simp [Solution.init, Spec.numberOfBins, Spec.numberOfItems, Spec.binArea,
    Spec.binVolume, Spec.itemWeight, Spec.cost, Spec.itemProfit, Spec.numberOfStacks,
    Spec.stackArea]

/-- Changing only the list of bins or the feasibility keeps the totals. -/
theorem Indic.withBins {inst : Instance} {s : Solution} {done : Packing}
    (h : Indic inst s done) (bins : List SolutionBin) (f : Bool) :
    Indic inst { s with bins := bins, feasible := f } done :=
  ⟨h.numberOfBins, h.numberOfStacks, h.numberOfItems, h.binArea, h.binVolume, h.stackArea, h.itemVolume,
    h.itemWeight, h.itemProfit, h.cost, h.binCopiesLen, h.binCopies, h.itemCopiesLen, h.itemCopies,
    h.missing, h.itemCopiesFeasible⟩

theorem end_sol (inst : Instance) (s : Solution) (k : Nat) :
    ∃ x y v, (endLoop inst s k).sol = { (s.startBin inst k).sol with
      xMax := x
      yMax := y
      volume := v
      numberOfStacks := s.numberOfStacks + (s.bins.getD k default).copies
        * ((viewBin (s.bins.getD k default)).piles.length : Int)
      stackArea := s.stackArea + (s.bins.getD k default).copies
        * ((viewBin (s.bins.getD k default)).piles.map floorArea).sum
      numberOfItems := s.numberOfItems + (s.bins.getD k default).copies
        * ((binItems (viewBin (s.bins.getD k default))).length : Int)
      itemCopies := addItems s.itemCopies (s.bins.getD k default).copies
        (binItems (viewBin (s.bins.getD k default)))
      itemVolume := s.itemVolume + (s.bins.getD k default).copies
        * ((viewBin (s.bins.getD k default)).piles.map (packedVolume inst)).sum
      itemWeight := s.itemWeight + ((s.bins.getD k default).copies : ℚ)
        * ((binItems (viewBin (s.bins.getD k default))).map fun i => (inst.itemType i.1).weight).sum
      itemProfit := s.itemProfit + ((s.bins.getD k default).copies : ℚ)
        * itemsProfit inst (binItems (viewBin (s.bins.getD k default))) } := by
  unfold endLoop
  rw [runPiles_sol]
  obtain ⟨x, y, v, e⟩ := runExtents_frame (inst := inst) (t := (s.bins.getD k default).binTypeId)
    (last := decide (k + 1 = s.bins.length)) (s.startBin inst k).sol (s.bins.getD k default).piles
  refine ⟨x, y, v, ?_⟩
  rw [e, binItems_view]
  have e1 : ((viewBin (s.bins.getD k default)).piles.map floorArea)
      = (s.bins.getD k default).piles.map fun p => floorArea (viewPile p) := by
    simp [viewBin, Function.comp_def]
  have e2 : ((viewBin (s.bins.getD k default)).piles.map (packedVolume inst))
      = (s.bins.getD k default).piles.map (countedVolume inst) := by
    simp [viewBin, Function.comp_def, countedVolume_view]
  have e3 : (viewBin (s.bins.getD k default)).piles.length
      = (s.bins.getD k default).piles.length := by simp [viewBin]
  rw [e1, e2, e3]
  rfl

theorem itemCopies_snoc (p : Packing) (b : PackedBin) (i : Nat) :
    Spec.itemCopies (p ++ [b]) i = Spec.itemCopies p i + b.copies * count (binItems b) i := by
  simp [Spec.itemCopies]

theorem binCopies_snoc (p : Packing) (b : PackedBin) (t : Nat) :
    Spec.binCopies (p ++ [b]) t = Spec.binCopies p t + if b.binTypeId = t then b.copies else 0 := by
  simp [Spec.binCopies]

theorem upd_bins (inst : Instance) (s : Solution) (k : Nat) :
    (s.updateTotals inst k).bins = s.bins.set k { s.bins.getD k default with
      piles := (endLoop inst s k).piles
      weight := (endLoop inst s k).weight
      weightWeightedSum := (endLoop inst s k).weightWeightedSum
      profit := (endLoop inst s k).profit } := rfl

/-- One call of `update_indicators` adds the bin to the totals. -/
theorem indic_step {inst : Instance} {s : Solution} {done : Packing} (k : Nat)
    (h : Indic inst s done) :
    Indic inst (s.updateTotals inst k) (done ++ [viewBin (s.bins.getD k default)]) := by
  obtain ⟨x, y, v, e⟩ := end_sol inst s k
  have hT : s.updateTotals inst k = { (endLoop inst s k).sol with
      bins := (s.updateTotals inst k).bins
      numberOfInfeasibleItemCopiesMin := countInfeasibleMin inst (endLoop inst s k).sol.itemCopies
      itemCopiesFeasible := withinCopies inst (endLoop inst s k).sol.itemCopies
      callbackFeasible := inst.callback (binsView (s.updateTotals inst k).bins) } := rfl
  have hIC : ∀ i, i < inst.numberOfItemTypes →
      (endLoop inst s k).sol.itemCopies.getD i 0
        = Spec.itemCopies (done ++ [viewBin (s.bins.getD k default)]) i := by
    intro i hi
    rw [e, itemCopies_snoc]
    dsimp only
    rw [addItems_getD _ _ _ _ (by rw [h.itemCopiesLen]; exact hi), h.itemCopies i hi]
    rfl
  have hmiss := countInfeasibleMin_eq _ _ _ hIC
  have hwith := withinCopies_iff _ _ _ hIC
  have hlen : (endLoop inst s k).sol.itemCopies.length = inst.numberOfItemTypes := by
    rw [e]; dsimp only; rw [addItems_length, h.itemCopiesLen]
  rw [hT]
  constructor
  case missing => exact hmiss
  case itemCopiesFeasible => exact fun _ => hwith
  case itemCopies => exact hIC
  case itemCopiesLen => exact hlen
  all_goals rw [e]
  case numberOfBins => simp [Solution.startBin, h.numberOfBins, Spec.numberOfBins, viewBin]
  case numberOfStacks => simp [h.numberOfStacks, Spec.numberOfStacks, viewBin]
  case numberOfItems => simp [h.numberOfItems, Spec.numberOfItems, viewBin]
  case binArea => simp [Solution.startBin, h.binArea, Spec.binArea, viewBin, BinType.area]
  case binVolume =>
    simp [Solution.startBin, h.binVolume, Spec.binVolume, viewBin, BinType.volume, Box.Dims.volume,
      volumeOf]
  case stackArea => simp [h.stackArea, Spec.stackArea, viewBin]
  case itemVolume => simp [h.itemVolume, viewBin]
  case itemWeight => simp [h.itemWeight, Spec.itemWeight, viewBin]
  case itemProfit => simp [h.itemProfit, Spec.itemProfit, viewBin]
  case cost => simp [Solution.startBin, h.cost, Spec.cost, viewBin]
  case binCopiesLen => simp [Solution.startBin, addAt_length, h.binCopiesLen]
  case binCopies =>
    intro t ht
    rw [binCopies_snoc]
    simp only [Solution.startBin]
    rw [addAt_getD _ _ _ _ (by rw [h.binCopiesLen]; exact ht), h.binCopies t ht]
    rfl

/-! ### Extents of the last bin -/

/-- The extents reported for the last bin. -/
structure Extents (inst : Instance) (s : Solution) (p : Packing) : Prop where
  xMax : OneDim.Spec.IsMaxWithZero ((lastPiles p).map (·.xEnd)) s.xMax
  yMax : OneDim.Spec.IsMaxWithZero ((lastPiles p).map (·.yEnd)) s.yMax
  volume : ∀ q b, p = q ++ [b] → b.piles ≠ [] →
    s.volume = Spec.binVolume inst p - (inst.binType b.binTypeId).box.z
      * max (((inst.binType b.binTypeId).box.x - s.xMax) * (inst.binType b.binTypeId).box.y)
        ((inst.binType b.binTypeId).box.y - s.yMax * (inst.binType b.binTypeId).box.x)

theorem lastPiles_snoc (q : Packing) (b : PackedBin) : lastPiles (q ++ [b]) = b.piles := by
  simp [lastPiles]

theorem extents_step {inst : Instance} {s : Solution} {done : Packing} (k : Nat)
    (h : Indic inst s done) (hk : k + 1 = s.bins.length) :
    Extents inst (s.updateTotals inst k) (done ++ [viewBin (s.bins.getD k default)]) := by
  have hd : decide (k + 1 = s.bins.length) = true := decide_eq_true hk
  have e : (endLoop inst s k).sol.xMax
      = (runExtents inst (s.bins.getD k default).binTypeId true (s.startBin inst k).sol
          (s.bins.getD k default).piles).xMax
      ∧ (endLoop inst s k).sol.yMax
      = (runExtents inst (s.bins.getD k default).binTypeId true (s.startBin inst k).sol
          (s.bins.getD k default).piles).yMax
      ∧ (endLoop inst s k).sol.volume
      = (runExtents inst (s.bins.getD k default).binTypeId true (s.startBin inst k).sol
          (s.bins.getD k default).piles).volume := by
    unfold endLoop
    rw [runPiles_sol, hd]
    exact ⟨rfl, rfl, rfl⟩
  have hm := runExtents_max (inst := inst) (t := (s.bins.getD k default).binTypeId)
    (s.startBin inst k).sol rfl rfl (s.bins.getD k default).piles
  have hv := runExtents_volume (inst := inst) (t := (s.bins.getD k default).binTypeId)
    (s.startBin inst k).sol (s.bins.getD k default).piles
  have hx : (s.updateTotals inst k).xMax = (endLoop inst s k).sol.xMax := rfl
  have hy : (s.updateTotals inst k).yMax = (endLoop inst s k).sol.yMax := rfl
  have hvol : (s.updateTotals inst k).volume = (endLoop inst s k).sol.volume := rfl
  constructor
  · rw [lastPiles_snoc, hx, e.1]
    simpa [viewBin, viewPile, Function.comp_def] using hm.1
  · rw [lastPiles_snoc, hy, e.2.1]
    simpa [viewBin, viewPile, Function.comp_def] using hm.2
  · intro q b hq hne
    obtain ⟨rfl, hb⟩ := List.append_inj' hq rfl
    simp only [List.cons.injEq, and_true] at hb
    subst hb
    rw [hx, hy, hvol, e.1, e.2.1, e.2.2, hv.1 (by simpa [viewBin] using hne)]
    have : (s.startBin inst k).sol.binVolume
        = Spec.binVolume inst (done ++ [viewBin (s.bins.getD k default)]) := by
      simp [Solution.startBin, h.binVolume, Spec.binVolume, viewBin, BinType.volume,
        Box.Dims.volume, volumeOf]
    rw [this]
    rfl

/-! ### Attributes of the bins -/

/-- The attributes of a bin are those of its stacks. -/
structure BinGood (inst : Instance) (b : SolutionBin) : Prop where
  piles : ∀ p ∈ b.piles, PileGood inst p
  weightLen : b.weight.length = inst.numberOfGroups
  momentLen : b.weightWeightedSum.length = inst.numberOfGroups
  weight : ∀ g, g < inst.numberOfGroups → b.weight.getD g 0
    = weightFrom inst g (binItems (viewBin b))
  moment : ∀ g, g < inst.numberOfGroups → b.weightWeightedSum.getD g 0
    = momentFrom inst g (viewBin b)
  profit : b.profit = itemsProfit inst (binItems (viewBin b))

/-- The bin after `update_indicators`. -/
theorem upd_bin_good (inst : Instance) (s : Solution) (k : Nat) (hk : k < s.bins.length) :
    viewBin ((s.updateTotals inst k).bins.getD k default) = viewBin (s.bins.getD k default)
    ∧ BinGood inst ((s.updateTotals inst k).bins.getD k default) := by
  have e : (s.updateTotals inst k).bins.getD k default = { s.bins.getD k default with
      piles := (endLoop inst s k).piles
      weight := (endLoop inst s k).weight
      weightWeightedSum := (endLoop inst s k).weightWeightedSum
      profit := (endLoop inst s k).profit } := by
    rw [upd_bins, List.getD_eq_getElem _ _ (by simpa using hk), List.getElem_set_self]
  obtain ⟨h1, h2, h3, h4, h5, h6, h7⟩ := runPiles_bin (inst := inst)
    (t := (s.bins.getD k default).binTypeId) (c := (s.bins.getD k default).copies)
    (last := decide (k + 1 = s.bins.length)) (s.startBin inst k) rfl rfl rfl rfl
    (s.bins.getD k default).piles
  have hv : viewBin ((s.updateTotals inst k).bins.getD k default)
      = viewBin (s.bins.getD k default) := by
    rw [e]; simp only [viewBin]; rw [endLoop, h1]
  refine ⟨hv, ?_⟩
  constructor
  · rw [e]; exact h2
  · rw [e]; exact h3
  · rw [e]; exact h4
  · intro g hg; rw [hv, binItems_view, e]; exact h5 g hg
  · intro g hg
    rw [hv, e]
    unfold momentFrom
    have := h6 g hg
    dsimp only
    rw [endLoop, this]
    simp [viewBin, viewPile, Function.comp_def]
  · rw [hv, binItems_view, e]; exact h7

theorem upd_bin_other (inst : Instance) (s : Solution) (k j : Nat) (hj : j ≠ k) :
    (s.updateTotals inst k).bins.getD j default = s.bins.getD j default := by
  rw [upd_bins, List.getD_eq_getElem?_getD, List.getElem?_set_ne (Ne.symm hj),
    List.getD_eq_getElem?_getD]

theorem upd_length (inst : Instance) (s : Solution) (k : Nat) :
    (s.updateTotals inst k).bins.length = s.bins.length := by
  rw [upd_bins, List.length_set]

/-- `update_indicators` does not change the observable content of the bins. -/
theorem upd_view (inst : Instance) (s : Solution) (k : Nat) :
    binsView (s.updateTotals inst k).bins = binsView s.bins := by
  unfold binsView
  apply List.ext_getElem
  · simp [upd_length]
  · intro n h1 h2
    simp only [List.length_map] at h1 h2
    simp only [List.getElem_map]
    rw [← List.getD_eq_getElem _ default h1, ← List.getD_eq_getElem _ default h2]
    by_cases hn : n = k
    · subst hn; exact (upd_bin_good inst s n h2).1
    · rw [upd_bin_other _ _ _ _ hn]

/-- What a successful call of `update_indicators` does. -/
theorem updateIndicators_ok {inst : Instance} {s s' : Solution} {k : Nat}
    (h : s.updateIndicators inst k = .ok s') :
    s.inRange inst k = true
    ∧ ∃ f, s' = { s.updateTotals inst k with feasible := f }
      ∧ (f = true ↔ feasibleTotalWeight inst s'.bins = true
        ∧ feasibleAxleWeights inst s'.bins = .ok true ∧ s'.callbackFeasible = true
        ∧ s'.itemCopiesFeasible = true ∧ s'.numberOfInfeasibleItemCopiesMin = 0) := by
  unfold Solution.updateIndicators at h
  split_ifs at h with hr
  refine ⟨hr, ?_⟩
  simp only at h
  split_ifs at h with ht
  · cases h
    refine ⟨false, rfl, ?_⟩
    simp only [Bool.false_eq_true, false_iff]
    rintro ⟨h1, -⟩
    simp [h1] at ht
  · split at h
    · simp at h
    · next axle ha =>
      cases h
      refine ⟨_, rfl, ?_⟩
      have ht' : feasibleTotalWeight inst (s.updateTotals inst k).bins = true := by simpa using ht
      simp only [ht', ha, Bool.and_eq_true, decide_eq_true_eq, Except.ok.injEq, true_and, and_assoc]

end PackingSolver.Stacks
