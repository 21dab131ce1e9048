import Verif.Lemmas.Rect.ItemLoop
import Verif.Lemmas.OneDim.Indicators

/-! Helper lemmas: the indicators of a rectangle solution are functions of its bins. -/

namespace PackingSolver.Rect

open Spec
open PackingSolver.OneDim (foldl_count forall_mem_snoc)

/-- Observable content of a bin. -/
abbrev viewBin (b : SolutionBin) : PackedBin := ⟨b.binTypeId, b.copies, b.items⟩

theorem binsView_eq (bins : List SolutionBin) : binsView bins = bins.map viewBin := rfl

/-- The item-loop state at the end of the loop of `update_indicators`. -/
def endLoop (inst : Instance) (s : Solution) (k : Nat) : ItemLoop :=
  runItems inst (s.bins.getD k default).binTypeId (s.bins.getD k default).copies
    (decide (k + 1 = s.bins.length)) (s.startBin inst k) (s.bins.getD k default).items

theorem startBin_fresh (inst : Instance) (s : Solution) (k : Nat) :
    LoopFresh inst (s.bins.getD k default).binTypeId (s.startBin inst k) := ⟨rfl, rfl⟩

section fields
variable (inst : Instance) (s : Solution) (k : Nat)

local notation "U" => s.updateIndicatorsTotal inst k
local notation "B" => s.bins.getD k default
local notation "E" => endLoop inst s k

theorem upd_bins : (U).bins = s.bins.set k { B with
    weight := (E).weight
    weightWeightedSum := (E).weightWeightedSum
    resourceConsumption := (E).resourceConsumption } := rfl
theorem upd_numberOfBins : (U).numberOfBins = (E).sol.numberOfBins := rfl
theorem upd_numberOfItems : (U).numberOfItems = (E).sol.numberOfItems := rfl
theorem upd_binArea : (U).binArea = (E).sol.binArea := rfl
theorem upd_itemArea : (U).itemArea = (E).sol.itemArea := rfl
theorem upd_itemWeight : (U).itemWeight = (E).sol.itemWeight := rfl
theorem upd_itemProfit : (U).itemProfit = (E).sol.itemProfit := rfl
theorem upd_binCost : (U).binCost = (E).sol.binCost := rfl
theorem upd_binCopies : (U).binCopies = (E).sol.binCopies := rfl
theorem upd_itemCopies : (U).itemCopies = (E).sol.itemCopies := rfl
theorem upd_resource : (U).resourceFeasible = (E).sol.resourceFeasible := rfl
theorem upd_xMax : (U).xMax = (E).sol.xMax := rfl
theorem upd_yMax : (U).yMax = (E).sol.yMax := rfl
theorem upd_area : (U).area = (E).sol.area := rfl
theorem upd_leftover : (U).leftoverValue = (E).sol.leftoverValue := rfl
theorem upd_missing :
    (U).numberOfInfeasibleItemCopiesMin = countInfeasibleMin inst (U).itemCopies := rfl
theorem upd_itemCopiesFeasible : (U).itemCopiesFeasible = withinCopies inst (U).itemCopies := rfl
theorem upd_callback : (U).callbackFeasible = inst.callback (binsView (U).bins) := rfl
theorem upd_feasible : (U).feasible = ((U).itemCopiesFeasible && (U).callbackFeasible
    && (U).resourceFeasible && decide ((U).numberOfInfeasibleItemCopiesMin = 0)) := rfl

end fields

theorem countInfeasibleMin_eq (inst : Instance) (v : List Int) (p : Packing)
    (h : ∀ i, i < inst.numberOfItemTypes → v.getD i 0 = itemCopies p i) :
    countInfeasibleMin inst v = missing inst p := by
  unfold countInfeasibleMin missing
  rw [foldl_count, zero_add]
  congr 1
  apply List.countP_congr
  intro i hi
  rw [h i (List.mem_range.mp hi)]

theorem missing_eq_zero (inst : Instance) (p : Packing) :
    missing inst p = 0 ↔
      ∀ i, i < inst.numberOfItemTypes → (inst.itemType i).copiesMin ≤ itemCopies p i := by
  unfold missing
  rw [Int.natCast_eq_zero, List.countP_eq_zero]
  constructor
  · intro h i hi
    have := h i (List.mem_range.mpr hi)
    simpa using this
  · intro h i hi
    simpa using h i (List.mem_range.mp hi)

theorem withinCopies_iff (inst : Instance) (v : List Int) (p : Packing)
    (h : ∀ i, i < inst.numberOfItemTypes → v.getD i 0 = itemCopies p i) :
    withinCopies inst v = true ↔
      ∀ i, i < inst.numberOfItemTypes → itemCopies p i ≤ (inst.itemType i).copies := by
  unfold withinCopies
  rw [List.all_eq_true]
  constructor
  · intro h1 i hi
    have := h1 i (List.mem_range.mpr hi)
    rw [h i hi] at this
    simpa using this
  · intro h1 i hi
    have hi' := List.mem_range.mp hi
    rw [h i hi']
    simpa using h1 i hi'

/-! ### The invariant -/

/-- All the indicators of `s` are those of the list of bins `done`. -/
structure Indic (inst : Instance) (s : Solution) (done : Packing) : Prop where
  numberOfBins : s.numberOfBins = Spec.numberOfBins done
  numberOfItems : s.numberOfItems = Spec.numberOfItems done
  binArea : s.binArea = Spec.binArea inst done
  itemArea : s.itemArea = Spec.itemArea inst done
  itemWeight : s.itemWeight = Spec.itemWeight inst done
  cost : s.binCost = Spec.cost inst done
  binCopiesLen : s.binCopies.length = inst.numberOfBinTypes
  binCopies : ∀ t, t < inst.numberOfBinTypes → s.binCopies.getD t 0 = Spec.binCopies done t
  itemCopiesLen : s.itemCopies.length = inst.numberOfItemTypes
  itemCopies : ∀ i, i < inst.numberOfItemTypes → s.itemCopies.getD i 0 = Spec.itemCopies done i
  profit : ResourceIdsOk inst → CapacitiesNonneg inst → ConsumptionsNonneg inst →
    s.itemProfit = reportedProfit inst done
  missing : s.numberOfInfeasibleItemCopiesMin = Spec.missing inst done
  resources : ResourceIdsOk inst → CapacitiesNonneg inst →
    (s.resourceFeasible = true ↔ ∀ b ∈ done, ResourcesOk inst b.binTypeId b.items)
  itemCopiesFeasible : done ≠ [] → (s.itemCopiesFeasible = true ↔
    ∀ i, i < inst.numberOfItemTypes → Spec.itemCopies done i ≤ (inst.itemType i).copies)
  itemCopiesNil : done = [] → s.itemCopiesFeasible = true
  feasible : s.feasible = (s.itemCopiesFeasible && s.callbackFeasible
    && s.resourceFeasible && decide (s.numberOfInfeasibleItemCopiesMin = 0))

theorem indic_init (inst : Instance) : Indic inst (Solution.init inst) [] := by
  have hz : ∀ i, (List.replicate inst.numberOfItemTypes (0 : Int)).getD i 0 = 0 := by
    intro i
    rw [List.getD_eq_getElem?_getD, List.getElem?_replicate]
    split_ifs <;> rfl
  have hz' : ∀ i, (List.replicate inst.numberOfBinTypes (0 : Int)).getD i 0 = 0 := by
    intro i
    rw [List.getD_eq_getElem?_getD, List.getElem?_replicate]
    split_ifs <;> rfl
  constructor
  case missing =>
    apply countInfeasibleMin_eq
    intro i _
    rw [hz]; simp [Spec.itemCopies]
  case binCopies => intro t _; simp only [Solution.init]; rw [hz']; simp [Spec.binCopies]
  case itemCopies => intro t _; simp only [Solution.init]; rw [hz]; simp [Spec.itemCopies]
  case feasible => simp [Solution.init]; rfl
  all_goals simp [Solution.init, Spec.numberOfBins, Spec.numberOfItems, Spec.binArea,
    Spec.itemArea, Spec.itemWeight, Spec.cost, reportedProfit]

theorem itemCopies_snoc (p : Packing) (b : PackedBin) (i : Nat) :
    Spec.itemCopies (p ++ [b]) i = Spec.itemCopies p i + b.copies * count b.items i := by
  simp [Spec.itemCopies]

theorem binCopies_snoc (p : Packing) (b : PackedBin) (t : Nat) :
    Spec.binCopies (p ++ [b]) t = Spec.binCopies p t + if b.binTypeId = t then b.copies else 0 := by
  simp [Spec.binCopies]

theorem binType_mem (inst : Instance) {b : Nat} (hb : b < inst.numberOfBinTypes) :
    inst.binType b ∈ inst.binTypes := by
  unfold Instance.binType
  rw [List.getD_eq_getElem _ _ hb]
  exact List.getElem_mem hb

/-- One call of `update_indicators` adds the bin to the indicators. -/
theorem indic_step {inst : Instance} {s : Solution} {done : Packing} (k : Nat)
    (h : Indic inst s done)
    (hb : (s.bins.getD k default).binTypeId < inst.numberOfBinTypes)
    (hl : InTypes inst (s.bins.getD k default).items) :
    Indic inst (s.updateIndicatorsTotal inst k) (done ++ [viewBin (s.bins.getD k default)]) := by
  have hf := startBin_fresh inst s k
  have hframe := runItems_frame (inst := inst) (b := (s.bins.getD k default).binTypeId)
    (c := (s.bins.getD k default).copies) (last := decide (k + 1 = s.bins.length))
    (st := s.startBin inst k) (s.bins.getD k default).items
  obtain ⟨-, fNB, fBA, fC, fBC⟩ := hframe
  have hIC : ∀ i, i < inst.numberOfItemTypes →
      (s.updateIndicatorsTotal inst k).itemCopies.getD i 0
        = Spec.itemCopies (done ++ [viewBin (s.bins.getD k default)]) i := by
    intro i hi
    rw [upd_itemCopies, endLoop, runItems_itemCopies _ _ (by
      simpa [Solution.startBin, h.itemCopiesLen] using hi), itemCopies_snoc]
    simp only [Solution.startBin]
    rw [h.itemCopies i hi]
  constructor
  case numberOfBins =>
    rw [upd_numberOfBins, endLoop, fNB]
    simp [Solution.startBin, h.numberOfBins, Spec.numberOfBins]
  case numberOfItems =>
    rw [upd_numberOfItems, endLoop, runItems_numberOfItems]
    simp [Solution.startBin, h.numberOfItems, Spec.numberOfItems]
  case binArea =>
    rw [upd_binArea, endLoop, fBA]
    simp [Solution.startBin, h.binArea, Spec.binArea, BinType.area]
  case itemArea =>
    rw [upd_itemArea, endLoop, runItems_itemArea]
    simp [Solution.startBin, h.itemArea, Spec.itemArea, ItemType.area]
  case itemWeight =>
    rw [upd_itemWeight, endLoop, runItems_itemWeight]
    simp [Solution.startBin, h.itemWeight, Spec.itemWeight]
  case cost =>
    rw [upd_binCost, endLoop, fC]
    simp [Solution.startBin, h.cost, Spec.cost]
  case binCopiesLen =>
    rw [upd_binCopies, endLoop, fBC]
    simp [Solution.startBin, addAt_length, h.binCopiesLen]
  case binCopies =>
    intro t ht
    rw [upd_binCopies, endLoop, fBC, binCopies_snoc]
    simp only [Solution.startBin]
    rw [addAt_getD _ _ _ _ (by rw [h.binCopiesLen]; exact ht), h.binCopies t ht]
  case itemCopiesLen =>
    rw [upd_itemCopies, endLoop, runItems_itemCopies_length]
    simp [Solution.startBin, h.itemCopiesLen]
  case itemCopies => exact hIC
  case profit =>
    intro hR hcap hnn
    rw [upd_itemProfit, endLoop, runItems_profit hf hb hR (hcap _ (binType_mem inst hb))
      (hnn _ (binType_mem inst hb)) _ hl]
    simp only [Solution.startBin, h.profit hR hcap hnn, reportedProfit, List.map_append,
      List.map_cons, List.map_nil, List.sum_append, List.sum_cons, List.sum_nil]
    ring
  case missing =>
    rw [upd_missing]
    exact countInfeasibleMin_eq _ _ _ hIC
  case resources =>
    intro hR hcap
    rw [upd_resource, endLoop,
      runItems_resources hf hb hR (hcap _ (binType_mem inst hb)) _ hl, forall_mem_snoc]
    exact and_congr_left' (h.resources hR hcap)
  case itemCopiesFeasible =>
    intro _
    rw [upd_itemCopiesFeasible]
    exact withinCopies_iff _ _ _ hIC
  case itemCopiesNil => intro e; simp at e
  case feasible => exact upd_feasible inst s k

/-- `update_indicators` does not change the observable content of the bins. -/
theorem upd_view (inst : Instance) (s : Solution) (k : Nat) :
    binsView (s.updateIndicatorsTotal inst k).bins = binsView s.bins := by
  rw [upd_bins, binsView_eq, binsView_eq, List.map_set]
  by_cases hk : k < s.bins.length
  · apply List.ext_getElem
    · simp
    · intro n h1 h2
      rw [List.getElem_set]
      split_ifs with hn
      · subst hn
        simp [viewBin, List.getElem?_eq_getElem hk]
      · rfl
  · rw [List.set_eq_of_length_le (by simpa using hk)]

/-- The extents reported for the last bin. -/
structure Extents (inst : Instance) (s : Solution) (p : Packing) : Prop where
  xMax : OneDim.Spec.IsMaxWithZero ((lastItems p).map (rightEnd inst)) s.xMax
  yMax : OneDim.Spec.IsMaxWithZero ((lastItems p).map (upperEnd inst)) s.yMax
  area : ∀ q b, p = q ++ [b] → b.items ≠ [] →
    s.area = Spec.binArea inst p - (inst.binType b.binTypeId).area + s.xMax * s.yMax
    ∧ s.leftoverValue = leftover inst (inst.binType b.binTypeId) (Spec.binArea inst p) s.area
        s.xMax s.yMax

theorem lastItems_snoc (q : Packing) (b : PackedBin) : lastItems (q ++ [b]) = b.items := by
  simp [lastItems]

theorem extents_step {inst : Instance} {s : Solution} {done : Packing} (k : Nat)
    (h : Indic inst s done) (hk : k + 1 = s.bins.length) :
    Extents inst (s.updateIndicatorsTotal inst k)
      (done ++ [viewBin (s.bins.getD k default)]) := by
  constructor
  · rw [lastItems_snoc, upd_xMax, endLoop]
    have := runItems_xMax (inst := inst) (b := (s.bins.getD k default).binTypeId)
      (c := (s.bins.getD k default).copies) (last := decide (k + 1 = s.bins.length))
      (st := s.startBin inst k) rfl (s.bins.getD k default).items
    simpa [hk] using this
  · rw [lastItems_snoc, upd_yMax, endLoop]
    have := runItems_yMax (inst := inst) (b := (s.bins.getD k default).binTypeId)
      (c := (s.bins.getD k default).copies) (last := decide (k + 1 = s.bins.length))
      (st := s.startBin inst k) rfl (s.bins.getD k default).items
    simpa [hk] using this
  · intro q b hq hne
    obtain ⟨rfl, hb⟩ := List.append_inj' hq rfl
    simp only [List.cons.injEq, and_true] at hb
    subst hb
    rw [upd_area, upd_leftover, upd_xMax, upd_yMax, endLoop]
    have := runItems_area (inst := inst) (b := (s.bins.getD k default).binTypeId)
      (c := (s.bins.getD k default).copies)
      (st := s.startBin inst k) (s.bins.getD k default).items hne
    simp only [hk, decide_true]
    have e : (s.startBin inst k).sol.binArea
        = Spec.binArea inst (done ++ [viewBin (s.bins.getD k default)]) := by
      simp [Solution.startBin, h.binArea, Spec.binArea, BinType.area]
    rw [e] at this
    exact this

end PackingSolver.Rect
