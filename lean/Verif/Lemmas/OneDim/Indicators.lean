import Verif.Lemmas.OneDim.ItemLoop

/-! Helper lemmas: the indicators of a solution are functions of its bins. -/

namespace PackingSolver.OneDim

open Spec

/-- Observable content of a bin. -/
abbrev viewBin (b : SolutionBin) : PackedBin := ⟨b.binTypeId, b.copies, ids b.items⟩

theorem binsView_eq (bins : List SolutionBin) : binsView bins = bins.map viewBin := rfl

/-- The item-loop state at the start of `update_indicators`. -/
def startLoop (inst : Instance) (s : Solution) (bin : SolutionBin) : ItemLoop :=
  { sol := { s with
      binCopies := addAt s.binCopies bin.binTypeId bin.copies
      binCost := s.binCost + (bin.copies : ℚ) * (inst.binType bin.binTypeId).cost
      binLength := s.binLength + bin.copies * (inst.binType bin.binTypeId).length
      numberOfBins := s.numberOfBins + bin.copies }
    endPos := 0
    weight := bin.weight
    maximumNumberOfItems := bin.maximumNumberOfItems
    remainingWeight := bin.remainingWeight
    resourceConsumption := List.replicate (inst.binType bin.binTypeId).resources.length 0
    itemTypeCopiesInBin := List.replicate inst.numberOfItemTypes 0 }

/-- The item-loop state at the end of the loop of `update_indicators`. -/
def endLoop (inst : Instance) (s : Solution) (bin : SolutionBin) : ItemLoop :=
  runItems inst bin.binTypeId bin.copies (startLoop inst s bin) bin.items

theorem startLoop_fresh (inst : Instance) (s : Solution) (bin : SolutionBin)
    (hw : bin.weight = 0) : Fresh inst bin.binTypeId (startLoop inst s bin) :=
  ⟨rfl, hw, rfl, rfl, rfl, rfl⟩

/-- The recomputed bin. -/
def newBin (inst : Instance) (s : Solution) (bin : SolutionBin) : SolutionBin :=
  { bin with
    items := (endLoop inst s bin).itemsDone
    endPos := (endLoop inst s bin).endPos
    weight := (endLoop inst s bin).weight
    maximumNumberOfItems := (endLoop inst s bin).maximumNumberOfItems
    remainingWeight := (endLoop inst s bin).remainingWeight
    resourceConsumption := (endLoop inst s bin).resourceConsumption }

section fields
variable (inst : Instance) (s : Solution) (k : Nat)

local notation "U" => s.updateIndicatorsTotal inst k
local notation "B" => s.bins.getD k default
local notation "E" => endLoop inst s (s.bins.getD k default)

theorem upd_bins : (U).bins = s.bins.set k (newBin inst s B) := by
  unfold Solution.updateIndicatorsTotal; dsimp only; split_ifs <;> rfl
theorem upd_numberOfBins : (U).numberOfBins = (E).sol.numberOfBins := by
  unfold Solution.updateIndicatorsTotal; dsimp only; split_ifs <;> rfl
theorem upd_numberOfItems : (U).numberOfItems = (E).sol.numberOfItems := by
  unfold Solution.updateIndicatorsTotal; dsimp only; split_ifs <;> rfl
theorem upd_binLength : (U).binLength = (E).sol.binLength := by
  unfold Solution.updateIndicatorsTotal; dsimp only; split_ifs <;> rfl
theorem upd_itemLength : (U).itemLength = (E).sol.itemLength := by
  unfold Solution.updateIndicatorsTotal; dsimp only; split_ifs <;> rfl
theorem upd_itemProfit : (U).itemProfit = (E).sol.itemProfit := by
  unfold Solution.updateIndicatorsTotal; dsimp only; split_ifs <;> rfl
theorem upd_binCost : (U).binCost = (E).sol.binCost := by
  unfold Solution.updateIndicatorsTotal; dsimp only; split_ifs <;> rfl
theorem upd_binCopies : (U).binCopies = (E).sol.binCopies := by
  unfold Solution.updateIndicatorsTotal; dsimp only; split_ifs <;> rfl
theorem upd_itemCopies : (U).itemCopies = (E).sol.itemCopies := by
  unfold Solution.updateIndicatorsTotal; dsimp only; split_ifs <;> rfl
theorem upd_capacity : (U).capacityFeasible = (E).sol.capacityFeasible := by
  unfold Solution.updateIndicatorsTotal; dsimp only; split_ifs <;> rfl
theorem upd_weight : (U).weightFeasible = (E).sol.weightFeasible := by
  unfold Solution.updateIndicatorsTotal; dsimp only; split_ifs <;> rfl
theorem upd_stack : (U).stackabilityFeasible = (E).sol.stackabilityFeasible := by
  unfold Solution.updateIndicatorsTotal; dsimp only; split_ifs <;> rfl
theorem upd_weightAfter :
    (U).maximumWeightAfterFeasible = (E).sol.maximumWeightAfterFeasible := by
  unfold Solution.updateIndicatorsTotal; dsimp only; split_ifs <;> rfl
theorem upd_itemCopiesFeasible : (U).itemCopiesFeasible = (E).sol.itemCopiesFeasible := by
  unfold Solution.updateIndicatorsTotal; dsimp only; split_ifs <;> rfl
theorem upd_resource : (U).resourceFeasible = (E).sol.resourceFeasible := by
  unfold Solution.updateIndicatorsTotal; dsimp only; split_ifs <;> rfl
theorem upd_eligibility : (U).eligibilityFeasible = (E).sol.eligibilityFeasible := by
  unfold Solution.updateIndicatorsTotal; dsimp only; split_ifs <;> rfl
theorem upd_missing :
    (U).numberOfInfeasibleItemCopiesMin = countInfeasibleMin inst (U).itemCopies := rfl
theorem upd_callback : (U).callbackFeasible = inst.callback (binsView (U).bins) := rfl
theorem upd_length : (U).length = if (B).items.isEmpty then (E).sol.length else
    (E).sol.binLength - (inst.binType (B).binTypeId).length + (E).endPos := by
  unfold Solution.updateIndicatorsTotal; dsimp only; split_ifs <;> rfl
theorem upd_order : (U).binTypeOrderFeasible
    = if inst.objective = .binPacking ∧ k + 1 = s.bins.length then
        (E).sol.binTypeOrderFeasible && orderOk inst (E).sol.binCopies
      else (E).sol.binTypeOrderFeasible := by
  unfold Solution.updateIndicatorsTotal
  dsimp only
  split_ifs with h1 h2 h3 h4 h5 <;>
    first | rfl | (exfalso; simp only [List.length_set] at *; tauto)
theorem upd_feasible : (U).feasible = ((U).capacityFeasible && (U).weightFeasible
    && (U).stackabilityFeasible && (U).maximumWeightAfterFeasible && (U).itemCopiesFeasible
    && (U).resourceFeasible && (U).eligibilityFeasible && (U).callbackFeasible
    && decide ((U).numberOfInfeasibleItemCopiesMin = 0)) := by
  unfold Solution.updateIndicatorsTotal; dsimp only

end fields

/-! ### Counting item types below their minimum -/

theorem foldl_count {p : Nat → Prop} [DecidablePred p] (l : List Nat) (n : Int) :
    l.foldl (fun n i => if p i then n + 1 else n) n = n + (l.countP fun i => decide (p i) : Nat) := by
  induction l generalizing n with
  | nil => simp
  | cons a l ih =>
    rw [List.foldl_cons, ih, List.countP_cons]
    by_cases h : p a <;> simp [h]; ring

theorem countInfeasibleMin_eq (inst : Instance) (v : List Int) (p : Packing)
    (h : ∀ i, i < inst.numberOfItemTypes → v.getD i 0 = itemCopies p i) :
    countInfeasibleMin inst v = missing inst p := by
  unfold countInfeasibleMin missing
  rw [foldl_count, zero_add]
  congr 1
  apply List.countP_congr
  intro i hi
  rw [h i (List.mem_range.mp hi)]

theorem missing_eq_zero (inst : Instance) (p : Packing) :
    missing inst p = 0 ↔
      ∀ i, i < inst.numberOfItemTypes → (inst.itemType i).copiesMin ≤ itemCopies p i := by
  unfold missing
  rw [Int.natCast_eq_zero, List.countP_eq_zero]
  constructor
  · intro h i hi
    have := h i (List.mem_range.mpr hi)
    simpa using this
  · intro h i hi
    simpa using h i (List.mem_range.mp hi)

/-! ### The length of a packing -/

theorem length_append_empty (inst : Instance) (p : Packing) (b : PackedBin) (h : b.items = []) :
    Spec.length inst (p ++ [b]) = Spec.length inst p := by
  induction p with
  | nil => simp [Spec.length, h]
  | cons a p ih =>
    simp only [List.cons_append, Spec.length, ih]
    have : (∃ b' ∈ p ++ [b], b'.items ≠ []) ↔ ∃ b' ∈ p, b'.items ≠ [] := by
      constructor
      · rintro ⟨b', hb, hne⟩
        rcases List.mem_append.mp hb with hb | hb
        · exact ⟨b', hb, hne⟩
        · rw [List.mem_singleton.mp hb] at hne; exact absurd h hne
      · rintro ⟨b', hb, hne⟩
        exact ⟨b', List.mem_append_left _ hb, hne⟩
    simp only [this]

theorem length_append_nonempty (inst : Instance) (p : Packing) (b : PackedBin)
    (h : b.items ≠ []) :
    Spec.length inst (p ++ [b]) = binLength inst (p ++ [b])
      - (inst.binType b.binTypeId).length + binEnd inst b.items := by
  induction p with
  | nil => simp [Spec.length, h, binLength]; ring
  | cons a p ih =>
    simp only [List.cons_append, Spec.length, ih]
    have : ∃ b' ∈ p ++ [b], b'.items ≠ [] := ⟨b, by simp, h⟩
    rw [if_pos this]
    simp only [binLength, List.map_cons, List.sum_cons]
    ring

/-! ### The invariant -/

/-- All the indicators of `s` are those of the list of bins `done`. -/
structure Indic (inst : Instance) (s : Solution) (done : Packing) : Prop where
  numberOfBins : s.numberOfBins = Spec.numberOfBins done
  numberOfItems : s.numberOfItems = Spec.numberOfItems done
  binLength : s.binLength = Spec.binLength inst done
  itemLength : s.itemLength = Spec.itemLength inst done
  length : s.length = Spec.length inst done
  cost : s.binCost = Spec.cost inst done
  binCopiesLen : s.binCopies.length = inst.numberOfBinTypes
  binCopies : ∀ t, t < inst.numberOfBinTypes → s.binCopies.getD t 0 = Spec.binCopies done t
  itemCopiesLen : s.itemCopies.length = inst.numberOfItemTypes
  itemCopies : ∀ i, i < inst.numberOfItemTypes → s.itemCopies.getD i 0 = Spec.itemCopies done i
  profit : ResourceIdsOk inst → CapacitiesNonneg inst → ConsumptionsNonneg inst →
    s.itemProfit = Spec.profit inst done
  missing : s.numberOfInfeasibleItemCopiesMin = Spec.missing inst done
  capacity : s.capacityFeasible = true ↔ ∀ b ∈ done, Fits inst b.binTypeId b.items
  weight : s.weightFeasible = true ↔ ∀ b ∈ done, WeightOk inst b.binTypeId b.items
  eligible : s.eligibilityFeasible = true ↔ ∀ b ∈ done, EligibleAll inst b.binTypeId b.items
  stack : s.stackabilityFeasible = true ↔ ∀ b ∈ done, StackOk inst b.items
  weightAfter : s.maximumWeightAfterFeasible = true ↔ ∀ b ∈ done, WeightAfterOk inst b.items
  resources : ResourceIdsOk inst → CapacitiesNonneg inst →
    (s.resourceFeasible = true ↔ ∀ b ∈ done, ResourcesOk inst b.binTypeId b.items)
  itemCopiesFeasible : s.itemCopiesFeasible = true ↔ ∀ b ∈ done, ∀ i ∈ b.items,
    Spec.itemCopies done i ≤ (inst.itemType i).copies
  feasible : s.feasible = (s.capacityFeasible && s.weightFeasible
    && s.stackabilityFeasible && s.maximumWeightAfterFeasible && s.itemCopiesFeasible
    && s.resourceFeasible && s.eligibilityFeasible && s.callbackFeasible
    && decide (s.numberOfInfeasibleItemCopiesMin = 0))

theorem indic_init (inst : Instance) : Indic inst (Solution.init inst) [] := by
  have hz : ∀ i, (List.replicate inst.numberOfItemTypes (0 : Int)).getD i 0 = 0 := by
    intro i
    rw [List.getD_eq_getElem?_getD, List.getElem?_replicate]
    split_ifs <;> rfl
  have hz' : ∀ i, (List.replicate inst.numberOfBinTypes (0 : Int)).getD i 0 = 0 := by
    intro i
    rw [List.getD_eq_getElem?_getD, List.getElem?_replicate]
    split_ifs <;> rfl
  constructor
  case missing =>
    apply countInfeasibleMin_eq
    intro i _
    rw [hz]; simp [Spec.itemCopies]
  case binCopies => intro t _; simp only [Solution.init]; rw [hz']; simp [Spec.binCopies]
  case itemCopies => intro t _; simp only [Solution.init]; rw [hz]; simp [Spec.itemCopies]
  case feasible => simp [Solution.init]; rfl
  all_goals simp [Solution.init, Spec.numberOfBins, Spec.numberOfItems, Spec.binLength,
    Spec.itemLength, Spec.cost, Spec.profit, Spec.length]

theorem forall_mem_snoc {α : Type} {l : List α} {a : α} {P : α → Prop} :
    (∀ x ∈ l ++ [a], P x) ↔ (∀ x ∈ l, P x) ∧ P a := by
  simp [or_imp, forall_and]

theorem itemCopies_snoc (p : Packing) (b : PackedBin) (i : Nat) :
    Spec.itemCopies (p ++ [b]) i = Spec.itemCopies p i + b.copies * (b.items.count i : Int) := by
  simp [Spec.itemCopies]

theorem binCopies_snoc (p : Packing) (b : PackedBin) (t : Nat) :
    Spec.binCopies (p ++ [b]) t = Spec.binCopies p t + if b.binTypeId = t then b.copies else 0 := by
  simp [Spec.binCopies]

theorem binType_mem (inst : Instance) {b : Nat} (hb : b < inst.numberOfBinTypes) :
    inst.binType b ∈ inst.binTypes := by
  unfold Instance.binType
  rw [List.getD_eq_getElem _ _ hb]
  exact List.getElem_mem hb

/-- One call of `update_indicators` on a bin without previous content adds that
bin to the indicators. -/
theorem indic_step {inst : Instance} {s : Solution} {done : Packing} (k : Nat)
    (h : Indic inst s done)
    (hw : (s.bins.getD k default).weight = 0)
    (hb : (s.bins.getD k default).binTypeId < inst.numberOfBinTypes)
    (hc : 0 ≤ (s.bins.getD k default).copies)
    (hl : InTypes inst (ids (s.bins.getD k default).items)) :
    Indic inst (s.updateIndicatorsTotal inst k) (done ++ [viewBin (s.bins.getD k default)]) := by
  generalize hbin : s.bins.getD k default = bin at hw hb hc hl ⊢
  have hf := startLoop_fresh inst s bin hw
  have hframe := runItems_frame (inst := inst) (b := bin.binTypeId) (c := bin.copies)
    (st := startLoop inst s bin) bin.items
  obtain ⟨-, fNB, fL, fBL, fC, fBC, -⟩ := hframe
  have hIC : ∀ i, i < inst.numberOfItemTypes →
      (s.updateIndicatorsTotal inst k).itemCopies.getD i 0
        = Spec.itemCopies (done ++ [viewBin bin]) i := by
    intro i hi
    rw [upd_itemCopies, hbin, endLoop, runItems_itemCopies _ _ (by
      simpa [startLoop, h.itemCopiesLen] using hi), itemCopies_snoc]
    simp only [startLoop]
    rw [h.itemCopies i hi]
  constructor
  case numberOfBins =>
    rw [upd_numberOfBins, hbin, endLoop, fNB]
    simp [startLoop, h.numberOfBins, Spec.numberOfBins]
  case numberOfItems =>
    rw [upd_numberOfItems, hbin, endLoop, runItems_numberOfItems]
    simp [startLoop, h.numberOfItems, Spec.numberOfItems]
  case binLength =>
    rw [upd_binLength, hbin, endLoop, fBL]
    simp [startLoop, h.binLength, Spec.binLength]
  case itemLength =>
    rw [upd_itemLength, hbin, endLoop, runItems_itemLength]
    simp [startLoop, h.itemLength, Spec.itemLength]
  case length =>
    rw [upd_length, hbin, endLoop, fL, fBL, runItems_endPos hf]
    by_cases he : bin.items = []
    · rw [if_pos (by simp [he]), length_append_empty _ _ _ (by simp [ids, he])]
      simpa [startLoop] using h.length
    · rw [if_neg (by simpa using he), length_append_nonempty _ _ _ (by simpa [ids] using he)]
      simp [startLoop, h.binLength, Spec.binLength]
  case cost =>
    rw [upd_binCost, hbin, endLoop, fC]
    simp [startLoop, h.cost, Spec.cost]
  case binCopiesLen =>
    rw [upd_binCopies, hbin, endLoop, fBC]
    simp [startLoop, addAt_length, h.binCopiesLen]
  case binCopies =>
    intro t ht
    rw [upd_binCopies, hbin, endLoop, fBC, binCopies_snoc]
    simp only [startLoop]
    rw [addAt_getD _ _ _ _ (by rw [h.binCopiesLen]; exact ht), h.binCopies t ht]
  case itemCopiesLen =>
    rw [upd_itemCopies, hbin, endLoop, runItems_itemCopies_length]
    simp [startLoop, h.itemCopiesLen]
  case itemCopies => exact hIC
  case profit =>
    intro hR hcap hnn
    rw [upd_itemProfit, hbin, endLoop, runItems_profit hf hb hR (hcap _ (binType_mem inst hb))
      (hnn _ (binType_mem inst hb)) _ hl]
    simp only [startLoop, h.profit hR hcap hnn, Spec.profit, List.map_append, List.map_cons,
      List.map_nil, List.sum_append, List.sum_cons, List.sum_nil]
    ring
  case missing =>
    rw [upd_missing]
    exact countInfeasibleMin_eq _ _ _ hIC
  case capacity =>
    rw [upd_capacity, hbin, endLoop, runItems_capacity hf, forall_mem_snoc]
    exact and_congr_left' h.capacity
  case weight =>
    rw [upd_weight, hbin, endLoop, runItems_weightOk hf, forall_mem_snoc]
    exact and_congr_left' h.weight
  case eligible =>
    rw [upd_eligibility, hbin, endLoop, runItems_eligible, forall_mem_snoc]
    exact and_congr_left' h.eligible
  case stack =>
    rw [upd_stack, hbin, endLoop, runItems_stack hf, forall_mem_snoc]
    exact and_congr_left' h.stack
  case weightAfter =>
    rw [upd_weightAfter, hbin, endLoop, runItems_weightAfter hf, forall_mem_snoc]
    exact and_congr_left' h.weightAfter
  case resources =>
    intro hR hcap
    rw [upd_resource, hbin, endLoop, runItems_resources hf hb hR (hcap _ (binType_mem inst hb)) _ hl,
      forall_mem_snoc]
    exact and_congr_left' (h.resources hR hcap)
  case itemCopiesFeasible =>
    rw [upd_itemCopiesFeasible, hbin, endLoop, runItems_itemCopiesFeasible hc _ (by
      intro i hi; simpa [startLoop, h.itemCopiesLen] using hl i hi)]
    simp only [startLoop]
    rw [h.itemCopiesFeasible, forall_mem_snoc]
    have e : ∀ i ∈ ids bin.items, s.itemCopies.getD i 0 + bin.copies * ((ids bin.items).count i : Int)
        = Spec.itemCopies (done ++ [viewBin bin]) i := by
      intro i hi
      rw [h.itemCopies i (hl i hi), itemCopies_snoc]
    constructor
    · rintro ⟨h1, h2⟩
      refine ⟨fun b' hb' i hi => ?_, fun i hi => by rw [← e i hi]; exact h2 i hi⟩
      by_cases hm : i ∈ ids bin.items
      · rw [← e i hm]; exact h2 i hm
      · rw [itemCopies_snoc]
        have : (viewBin bin).items.count i = 0 := List.count_eq_zero.mpr hm
        rw [this]
        simpa using h1 b' hb' i hi
    · rintro ⟨h1, h2⟩
      refine ⟨fun b' hb' i hi => ?_, fun i hi => by rw [e i hi]; exact h2 i hi⟩
      have h3 := h1 b' hb' i hi
      rw [itemCopies_snoc] at h3
      have : 0 ≤ (viewBin bin).copies * ((viewBin bin).items.count i : Int) :=
        Int.mul_nonneg hc (by omega)
      omega
  case feasible => exact upd_feasible inst s k

/-- `update_indicators` does not change the observable content of the bins. -/
theorem upd_view (inst : Instance) (s : Solution) (k : Nat)
    (hw : (s.bins.getD k default).weight = 0) :
    binsView (s.updateIndicatorsTotal inst k).bins = binsView s.bins := by
  rw [upd_bins, binsView_eq, binsView_eq, List.map_set]
  by_cases hk : k < s.bins.length
  · apply List.ext_getElem
    · simp
    · intro n h1 h2
      rw [List.getElem_set]
      split_ifs with hn
      · subst hn
        have hd : s.bins.getD k default = s.bins[k] := List.getD_eq_getElem _ _ hk
        simp only [List.getElem_map, viewBin, newBin, endLoop]
        rw [runItems_done (startLoop_fresh inst s _ hw), hd]
      · rfl
  · rw [List.set_eq_of_length_le (by simpa using hk)]

end PackingSolver.OneDim
