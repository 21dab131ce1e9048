import Verif.Lemmas.Rect.Indicators
import Verif.Lemmas.Guil.Run
import Verif.Spec.GuillotineTotals

/-! Helper lemmas: the loop over the nodes of the guillotine `update_indicators`. -/

namespace PackingSolver.Guil

open Spec

variable {inst : Instance} {bin : SolutionBin}

/-! ### The parts as structure updates -/

/-- The resource loop of an item. -/
def itemRes (inst : Instance) (bin : SolutionBin) (st : NodeLoop) (node : Node) : ResourceLoop :=
  ((inst.itemType node.itemTypeId.toNat).resourceIds.getD bin.binTypeId []).foldl
    (resourceStep (inst.binType bin.binTypeId).resources node.itemTypeId.toNat
      (st.copiesInBin.getD node.itemTypeId.toNat 0))
    { consumption := st.consumption
      profit := st.sol.profit + (bin.copies : ℚ) * (inst.itemType node.itemTypeId.toNat).profit
      resourceFeasible := st.sol.resourceFeasible }

theorem itemPart_eq (st : NodeLoop) (node : Node) : itemPart inst bin st node = { st with
    sol := { st.sol with
      numberOfItems := if node.counted then st.sol.numberOfItems + bin.copies
        else st.sol.numberOfItems
      itemArea := if node.counted
        then st.sol.itemArea + bin.copies * (inst.itemType node.itemTypeId.toNat).area
        else st.sol.itemArea
      profit := if node.counted then (itemRes inst bin st node).profit else st.sol.profit
      itemCopies := if node.counted
        then addAt st.sol.itemCopies node.itemTypeId.toNat bin.copies else st.sol.itemCopies
      itemCopiesFeasible := if node.counted
        then (if (addAt st.sol.itemCopies node.itemTypeId.toNat bin.copies).getD
            node.itemTypeId.toNat 0 > (inst.itemType node.itemTypeId.toNat).copies
          then false else st.sol.itemCopiesFeasible)
        else st.sol.itemCopiesFeasible
      resourceFeasible := if node.counted then (itemRes inst bin st node).resourceFeasible
        else st.sol.resourceFeasible }
    consumption := if node.counted then (itemRes inst bin st node).consumption
      else st.consumption
    copiesInBin := if node.counted then st.copiesInBin.modify node.itemTypeId.toNat (· + 1)
      else st.copiesInBin } := by
  unfold itemPart
  cases hc : node.counted with
  | true => rfl
  | false => rfl

theorem residualPart_eq (st : NodeLoop) (node : Node) : residualPart st node
    = { st with sol := { st.sol with
        area := if node.itemTypeId = -3 then st.sol.area - node.area else st.sol.area } } := by
  unfold residualPart
  by_cases h : node.itemTypeId = -3
  · rw [if_pos h, if_pos h]
  · rw [if_neg h, if_neg h]

theorem extentPart_eq (st : NodeLoop) (node : Node) : extentPart st node
    = { st with sol := { st.sol with
        width := if node.d > 0 ∧ node.itemTypeId ≠ -3 then max st.sol.width node.r
          else st.sol.width
        height := if node.d > 0 ∧ node.itemTypeId ≠ -3 then max st.sol.height node.t
          else st.sol.height } } := by
  unfold extentPart
  by_cases h : node.d > 0 ∧ node.itemTypeId ≠ -3
  · rw [if_pos h, if_pos h, if_pos h]
    have e1 : (if st.sol.width < node.r then node.r else st.sol.width)
        = max st.sol.width node.r := by split_ifs <;> omega
    have e2 : (if st.sol.height < node.t then node.t else st.sol.height)
        = max st.sol.height node.t := by split_ifs <;> omega
    rw [e1, e2]
  · rw [if_neg h, if_neg h, if_neg h]

/-- The condition of `count1Part`. -/
def Counts1 (inst : Instance) (bin : SolutionBin) (node : Node) : Prop :=
  inst.parameters.maximumNumber1Cuts ≥ 0 ∧ node.d = 1 ∧ bin.firstCutOrientation ≠ .any
    ∧ end1 bin.firstCutOrientation node
      ≠ binEnd (inst.binType bin.binTypeId) bin.firstCutOrientation

instance (inst : Instance) (bin : SolutionBin) (node : Node) :
    Decidable (Counts1 inst bin node) := by unfold Counts1; infer_instance

theorem count1Part_eq (st : NodeLoop) (node : Node) : count1Part inst bin st node = { st with
    number1Cuts := if Counts1 inst bin node then st.number1Cuts + 1 else st.number1Cuts
    sol := { st.sol with
      maximumNumber1CutsFeasible := if Counts1 inst bin node
        then st.sol.maximumNumber1CutsFeasible
          && !decide (st.number1Cuts + 1 > inst.parameters.maximumNumber1Cuts)
        else st.sol.maximumNumber1CutsFeasible } } := by
  unfold count1Part
  dsimp only
  by_cases h : Counts1 inst bin node
  · rw [if_pos h, if_pos h]
    unfold Counts1 at h
    rw [if_pos h]
  · rw [if_neg h, if_neg h]
    unfold Counts1 at h
    rw [if_neg h]

/-- The condition under which `count2Part` counts. -/
def Counts2 (inst : Instance) (bin : SolutionBin) (st : NodeLoop) (node : Node) : Prop :=
  inst.parameters.maximumNumber2Cuts ≥ 0 ∧ node.d = 2 ∧ bin.firstCutOrientation ≠ .any
    ∧ end2 bin.firstCutOrientation node ≠ st.subplateEnd

instance (inst : Instance) (bin : SolutionBin) (st : NodeLoop) (node : Node) :
    Decidable (Counts2 inst bin st node) := by unfold Counts2; infer_instance

/-- The condition under which `count2Part` starts anew. -/
def Starts2 (inst : Instance) (node : Node) : Prop :=
  inst.parameters.maximumNumber2Cuts ≥ 0 ∧ node.d = 1

instance (inst : Instance) (node : Node) :
    Decidable (Starts2 inst node) := by unfold Starts2; infer_instance

theorem count2Part_eq (st : NodeLoop) (node : Node) : count2Part inst bin st node = { st with
    subplateEnd := if Starts2 inst node then end2 bin.firstCutOrientation node else st.subplateEnd
    number2Cuts := if Starts2 inst node then 0
      else if Counts2 inst bin st node then st.number2Cuts + 1 else st.number2Cuts
    sol := { st.sol with
      maximumNumber2CutsFeasible := if Counts2 inst bin st node
        then st.sol.maximumNumber2CutsFeasible
          && !decide (st.number2Cuts + 1 > inst.parameters.maximumNumber2Cuts)
        else st.sol.maximumNumber2CutsFeasible } } := by
  unfold count2Part
  dsimp only
  by_cases h0 : inst.parameters.maximumNumber2Cuts ≥ 0
  · rw [if_pos h0]
    by_cases h1 : node.d = 1
    · have hs : Starts2 inst node := ⟨h0, h1⟩
      have hc : ¬ Counts2 inst bin st node := fun h => by have := h.2.1; omega
      rw [if_pos h1, if_pos hs, if_pos hs, if_neg hc]
    · have hs : ¬ Starts2 inst node := fun h => h1 h.2
      rw [if_neg h1, if_neg hs, if_neg hs]
      by_cases h2 : node.d = 2 ∧ bin.firstCutOrientation ≠ .any
          ∧ end2 bin.firstCutOrientation node ≠ st.subplateEnd
      · have hc : Counts2 inst bin st node := ⟨h0, h2⟩
        rw [if_pos h2, if_pos hc, if_pos hc]
      · have hc : ¬ Counts2 inst bin st node := fun h => h2 h.2
        rw [if_neg h2, if_neg hc, if_neg hc]
  · rw [if_neg h0]
    have hs : ¬ Starts2 inst node := fun h => h0 h.1
    have hc : ¬ Counts2 inst bin st node := fun h => h0 h.1
    rw [if_neg hs, if_neg hs, if_neg hc, if_neg hc]

/-! ### One step, field by field -/

section
variable (st : NodeLoop) (n : Node)

local notation "N" => nodeStep inst bin st n

theorem step_numberOfItems : (N).sol.numberOfItems
    = if n.counted then st.sol.numberOfItems + bin.copies else st.sol.numberOfItems := by
  rw [nodeStep, itemPart_eq, residualPart_eq, extentPart_eq, count1Part_eq, count2Part_eq]; rfl

theorem step_itemArea : (N).sol.itemArea = if n.counted
    then st.sol.itemArea + bin.copies * (inst.itemType n.itemTypeId.toNat).area
    else st.sol.itemArea := by
  rw [nodeStep, itemPart_eq, residualPart_eq, extentPart_eq, count1Part_eq, count2Part_eq]; rfl

theorem step_profit : (N).sol.profit
    = if n.counted then (itemRes inst bin st n).profit else st.sol.profit := by
  rw [nodeStep, itemPart_eq, residualPart_eq, extentPart_eq, count1Part_eq, count2Part_eq]; rfl

theorem step_itemCopies : (N).sol.itemCopies = if n.counted
    then addAt st.sol.itemCopies n.itemTypeId.toNat bin.copies else st.sol.itemCopies := by
  rw [nodeStep, itemPart_eq, residualPart_eq, extentPart_eq, count1Part_eq, count2Part_eq]; rfl

theorem step_itemCopiesFeasible : (N).sol.itemCopiesFeasible = if n.counted
    then (if (addAt st.sol.itemCopies n.itemTypeId.toNat bin.copies).getD
        n.itemTypeId.toNat 0 > (inst.itemType n.itemTypeId.toNat).copies
      then false else st.sol.itemCopiesFeasible)
    else st.sol.itemCopiesFeasible := by
  rw [nodeStep, itemPart_eq, residualPart_eq, extentPart_eq, count1Part_eq, count2Part_eq]; rfl

theorem step_resourceFeasible : (N).sol.resourceFeasible
    = if n.counted then (itemRes inst bin st n).resourceFeasible
      else st.sol.resourceFeasible := by
  rw [nodeStep, itemPart_eq, residualPart_eq, extentPart_eq, count1Part_eq, count2Part_eq]; rfl

theorem step_consumption : (N).consumption
    = if n.counted then (itemRes inst bin st n).consumption else st.consumption := by
  rw [nodeStep, itemPart_eq, residualPart_eq, extentPart_eq, count1Part_eq, count2Part_eq]; rfl

theorem step_copiesInBin : (N).copiesInBin
    = if n.counted then st.copiesInBin.modify n.itemTypeId.toNat (· + 1) else st.copiesInBin := by
  rw [nodeStep, itemPart_eq, residualPart_eq, extentPart_eq, count1Part_eq, count2Part_eq]; rfl

theorem step_area : (N).sol.area
    = if n.itemTypeId = -3 then st.sol.area - n.area else st.sol.area := by
  rw [nodeStep, itemPart_eq, residualPart_eq, extentPart_eq, count1Part_eq, count2Part_eq]; rfl

theorem step_width : (N).sol.width = if n.d > 0 ∧ n.itemTypeId ≠ -3 then max st.sol.width n.r
    else st.sol.width := by
  rw [nodeStep, itemPart_eq, residualPart_eq, extentPart_eq, count1Part_eq, count2Part_eq]; rfl

theorem step_height : (N).sol.height = if n.d > 0 ∧ n.itemTypeId ≠ -3
    then max st.sol.height n.t else st.sol.height := by
  rw [nodeStep, itemPart_eq, residualPart_eq, extentPart_eq, count1Part_eq, count2Part_eq]; rfl

theorem step_leftover : (N).sol.secondLeftoverValue
    = if n.d = 2 ∧ n.itemTypeId = -1 then n.area
      else if n.d = 2 ∧ n.itemTypeId ≠ -1 then 0
      else if n.d = 1 ∧ n.itemTypeId ≠ -3 then 0
      else st.sol.secondLeftoverValue := by
  rw [nodeStep, itemPart_eq, residualPart_eq, extentPart_eq, count1Part_eq, count2Part_eq]; rfl

theorem step_cuttingCost : (N).sol.cuttingCost
    = st.sol.cuttingCost + nodeCuttingCost inst bin n := by
  rw [nodeStep, itemPart_eq, residualPart_eq, extentPart_eq, count1Part_eq, count2Part_eq]; rfl

theorem step_waste : (N).sol.minimumWasteLengthFeasible
    = (st.sol.minimumWasteLengthFeasible && !wasteTooSmall inst.parameters n) := by
  rw [nodeStep, itemPart_eq, residualPart_eq, extentPart_eq, count1Part_eq, count2Part_eq]; rfl

theorem step_min1 : (N).sol.minimumDistance1CutsFeasible
    = (st.sol.minimumDistance1CutsFeasible
      && !cut1TooClose inst.parameters bin.firstCutOrientation n) := by
  rw [nodeStep, itemPart_eq, residualPart_eq, extentPart_eq, count1Part_eq, count2Part_eq]; rfl

theorem step_max1 : (N).sol.maximumDistance1CutsFeasible
    = (st.sol.maximumDistance1CutsFeasible
      && !cut1TooFar inst.parameters bin.firstCutOrientation n) := by
  rw [nodeStep, itemPart_eq, residualPart_eq, extentPart_eq, count1Part_eq, count2Part_eq]; rfl

theorem step_min2 : (N).sol.minimumDistance2CutsFeasible
    = (st.sol.minimumDistance2CutsFeasible
      && !cut2TooClose inst.parameters bin.firstCutOrientation n) := by
  rw [nodeStep, itemPart_eq, residualPart_eq, extentPart_eq, count1Part_eq, count2Part_eq]; rfl

theorem step_max2 : (N).sol.maximumDistance2CutsFeasible
    = (st.sol.maximumDistance2CutsFeasible
      && !cut2TooFar inst.parameters bin.firstCutOrientation n) := by
  rw [nodeStep, itemPart_eq, residualPart_eq, extentPart_eq, count1Part_eq, count2Part_eq]; rfl

theorem step_number1Cuts : (N).number1Cuts
    = if Counts1 inst bin n then st.number1Cuts + 1 else st.number1Cuts := by
  rw [nodeStep, itemPart_eq, residualPart_eq, extentPart_eq, count1Part_eq, count2Part_eq]; rfl

theorem step_number1 : (N).sol.maximumNumber1CutsFeasible = if Counts1 inst bin n
    then st.sol.maximumNumber1CutsFeasible
      && !decide (st.number1Cuts + 1 > inst.parameters.maximumNumber1Cuts)
    else st.sol.maximumNumber1CutsFeasible := by
  rw [nodeStep, itemPart_eq, residualPart_eq, extentPart_eq, count1Part_eq, count2Part_eq]; rfl

theorem step_subplateEnd : (N).subplateEnd
    = if Starts2 inst n then end2 bin.firstCutOrientation n else st.subplateEnd := by
  rw [nodeStep, itemPart_eq, residualPart_eq, extentPart_eq, count1Part_eq, count2Part_eq]; rfl

theorem step_number2Cuts : (N).number2Cuts = if Starts2 inst n then 0
    else if Counts2 inst bin st n then st.number2Cuts + 1 else st.number2Cuts := by
  rw [nodeStep, itemPart_eq, residualPart_eq, extentPart_eq, count1Part_eq, count2Part_eq]; rfl

theorem step_number2 : (N).sol.maximumNumber2CutsFeasible = if Counts2 inst bin st n
    then st.sol.maximumNumber2CutsFeasible
      && !decide (st.number2Cuts + 1 > inst.parameters.maximumNumber2Cuts)
    else st.sol.maximumNumber2CutsFeasible := by
  rw [nodeStep, itemPart_eq, residualPart_eq, extentPart_eq, count1Part_eq, count2Part_eq]; rfl

theorem step_stacks : (N).sol.stacksFeasible
    = (st.sol.stacksFeasible && !stackBroken inst (N).sol.itemCopies n) := by
  rw [step_itemCopies]
  rw [nodeStep, itemPart_eq, residualPart_eq, extentPart_eq, count1Part_eq, count2Part_eq]; rfl

theorem step_defects : (N).sol.defectsFeasible
    = (st.sol.defectsFeasible && !itemOnDefect (inst.binType bin.binTypeId) n) := by
  rw [nodeStep, itemPart_eq, residualPart_eq, extentPart_eq, count1Part_eq, count2Part_eq]; rfl

theorem step_cutThrough : (N).sol.cutThroughDefectsFeasible
    = (st.sol.cutThroughDefectsFeasible
      && !cutOnDefect inst (inst.binType bin.binTypeId) n) := by
  rw [nodeStep, itemPart_eq, residualPart_eq, extentPart_eq, count1Part_eq, count2Part_eq]; rfl

/-- The fields that the loop does not touch. -/
theorem step_frame : (N).sol.numberOfBins = st.sol.numberOfBins
    ∧ (N).sol.binCopies = st.sol.binCopies ∧ (N).sol.cost = st.sol.cost
    ∧ (N).sol.fullArea = st.sol.fullArea ∧ (N).sol.numberOfStages = st.sol.numberOfStages
    ∧ (N).sol.numberOfStagesFeasible = st.sol.numberOfStagesFeasible := by
  rw [nodeStep, itemPart_eq, residualPart_eq, extentPart_eq, count1Part_eq, count2Part_eq]
  exact ⟨rfl, rfl, rfl, rfl, rfl, rfl⟩

end

/-! ### The whole loop -/

/-- The loop over the nodes. -/
abbrev runNodes (inst : Instance) (bin : SolutionBin) (st : NodeLoop) (l : List Node) : NodeLoop :=
  l.foldl (nodeStep inst bin) st

theorem runNodes_snoc (st : NodeLoop) (l : List Node) (a : Node) :
    runNodes inst bin st (l ++ [a]) = nodeStep inst bin (runNodes inst bin st l) a := by
  simp [runNodes, List.foldl_append]

theorem runNodes_frame (st : NodeLoop) (l : List Node) :
    (runNodes inst bin st l).sol.numberOfBins = st.sol.numberOfBins
    ∧ (runNodes inst bin st l).sol.binCopies = st.sol.binCopies
    ∧ (runNodes inst bin st l).sol.cost = st.sol.cost
    ∧ (runNodes inst bin st l).sol.fullArea = st.sol.fullArea
    ∧ (runNodes inst bin st l).sol.numberOfStages = st.sol.numberOfStages
    ∧ (runNodes inst bin st l).sol.numberOfStagesFeasible = st.sol.numberOfStagesFeasible := by
  induction l using List.reverseRecOn with
  | nil => exact ⟨rfl, rfl, rfl, rfl, rfl, rfl⟩
  | append_singleton l a ih =>
    rw [runNodes_snoc]
    obtain ⟨a1, a2, a3, a4, a5, a6⟩ := step_frame (inst := inst) (bin := bin)
      (runNodes inst bin st l) a
    obtain ⟨b1, b2, b3, b4, b5, b6⟩ := ih
    exact ⟨a1.trans b1, a2.trans b2, a3.trans b3, a4.trans b4, a5.trans b5, a6.trans b6⟩

theorem runNodes_area (st : NodeLoop) (l : List Node) :
    (runNodes inst bin st l).sol.area = st.sol.area
      - ((l.filter fun n => n.itemTypeId = -3).map fun n => (region n).area).sum := by
  induction l using List.reverseRecOn with
  | nil => simp
  | append_singleton l a ih =>
    rw [runNodes_snoc, step_area, ih, List.filter_append, List.map_append, List.sum_append]
    have ha : a.area = (region a).area := by
      unfold Node.area Region.area region; exact Int.mul_comm _ _
    by_cases h : a.itemTypeId = -3
    · rw [if_pos h]
      simp [h, ha]
      omega
    · rw [if_neg h]
      simp [h]

theorem runNodes_width (st : NodeLoop) (h0 : st.sol.width = 0) (l : List Node) :
    IsMaxWithZero ((l.filter fun n => decide (0 < n.d) && decide (n.itemTypeId ≠ -3)).map (·.r))
      (runNodes inst bin st l).sol.width := by
  induction l using List.reverseRecOn with
  | nil => simp [IsMaxWithZero, h0]
  | append_singleton l a ih =>
    rw [runNodes_snoc, step_width, List.filter_append, List.map_append]
    by_cases h : a.d > 0 ∧ a.itemTypeId ≠ -3
    · rw [if_pos h]
      have he : (List.filter (fun n => decide (0 < n.d) && decide (n.itemTypeId ≠ -3)) [a]) = [a] := by
        rw [List.filter_cons, if_pos (by simp [h.1, h.2])]; rfl
      rw [he]
      obtain ⟨i1, i2, i3⟩ := ih
      refine ⟨by omega, ?_, ?_⟩
      · intro x hx
        rcases List.mem_append.mp hx with hx | hx
        · have := i2 x hx; omega
        · have : x = a.r := by simpa using hx
          omega
      · by_cases hm : (runNodes inst bin st l).sol.width ≤ a.r
        · right; rw [max_eq_right hm]; simp
        · rw [max_eq_left (by omega)]
          rcases i3 with i3 | i3
          · exact .inl i3
          · exact .inr (List.mem_append_left _ i3)
    · rw [if_neg h]
      have he : (List.filter (fun n => decide (0 < n.d) && decide (n.itemTypeId ≠ -3)) [a]) = [] := by
        rw [List.filter_cons, if_neg (by simpa using h)]; rfl
      rw [he]
      simpa using ih

theorem runNodes_height (st : NodeLoop) (h0 : st.sol.height = 0) (l : List Node) :
    IsMaxWithZero ((l.filter fun n => decide (0 < n.d) && decide (n.itemTypeId ≠ -3)).map (·.t))
      (runNodes inst bin st l).sol.height := by
  induction l using List.reverseRecOn with
  | nil => simp [IsMaxWithZero, h0]
  | append_singleton l a ih =>
    rw [runNodes_snoc, step_height, List.filter_append, List.map_append]
    by_cases h : a.d > 0 ∧ a.itemTypeId ≠ -3
    · rw [if_pos h]
      have he : (List.filter (fun n => decide (0 < n.d) && decide (n.itemTypeId ≠ -3)) [a]) = [a] := by
        rw [List.filter_cons, if_pos (by simp [h.1, h.2])]; rfl
      rw [he]
      obtain ⟨i1, i2, i3⟩ := ih
      refine ⟨by omega, ?_, ?_⟩
      · intro x hx
        rcases List.mem_append.mp hx with hx | hx
        · have := i2 x hx; omega
        · have : x = a.t := by simpa using hx
          omega
      · by_cases hm : (runNodes inst bin st l).sol.height ≤ a.t
        · right; rw [max_eq_right hm]; simp
        · rw [max_eq_left (by omega)]
          rcases i3 with i3 | i3
          · exact .inl i3
          · exact .inr (List.mem_append_left _ i3)
    · rw [if_neg h]
      have he : (List.filter (fun n => decide (0 < n.d) && decide (n.itemTypeId ≠ -3)) [a]) = [] := by
        rw [List.filter_cons, if_neg (by simpa using h)]; rfl
      rw [he]
      simpa using ih

theorem runNodes_leftover (st : NodeLoop) (h0 : st.sol.secondLeftoverValue = 0) (l : List Node) :
    (runNodes inst bin st l).sol.secondLeftoverValue
      = match l.reverse.find? fun n =>
          decide (n.d = 2) || (decide (n.d = 1) && decide (n.itemTypeId ≠ -3)) with
        | none => 0
        | some n => if n.d = 2 ∧ n.itemTypeId = -1 then (region n).area else 0 := by
  induction l using List.reverseRecOn with
  | nil => exact h0
  | append_singleton l a ih =>
    rw [runNodes_snoc, step_leftover, List.reverse_append, List.reverse_singleton,
      List.singleton_append, List.find?_cons]
    have ha : a.area = (region a).area := by
      unfold Node.area Region.area region; exact Int.mul_comm _ _
    by_cases h2 : a.d = 2
    · have hp : (decide (a.d = 2) || (decide (a.d = 1) && decide (a.itemTypeId ≠ -3))) = true := by
        simp [h2]
      rw [hp]
      dsimp only
      by_cases h3 : a.itemTypeId = -1
      · rw [if_pos ⟨h2, h3⟩, if_pos ⟨h2, h3⟩, ha]
      · rw [if_neg (fun h => h3 h.2), if_pos ⟨h2, h3⟩, if_neg (fun h => h3 h.2)]
    · rw [if_neg (fun h => h2 h.1), if_neg (fun h => h2 h.1)]
      by_cases h1 : a.d = 1 ∧ a.itemTypeId ≠ -3
      · have hp : (decide (a.d = 2) || (decide (a.d = 1) && decide (a.itemTypeId ≠ -3))) = true := by
          simp [h1.1, h1.2]
        rw [if_pos h1, hp]
        dsimp only
        rw [if_neg (fun h => h2 h.1)]
      · have hp : (decide (a.d = 2) || (decide (a.d = 1) && decide (a.itemTypeId ≠ -3))) = false := by
          by_contra hc
          rw [Bool.not_eq_false, Bool.or_eq_true, Bool.and_eq_true] at hc
          simp only [decide_eq_true_eq] at hc
          rcases hc with hc | hc
          · exact h2 hc
          · exact h1 hc
        rw [if_neg h1, hp]
        exact ih

theorem runNodes_cuttingCost (st : NodeLoop) (l : List Node) :
    (runNodes inst bin st l).sol.cuttingCost = st.sol.cuttingCost
      + (l.map (nodeCuttingCost inst bin)).sum := by
  induction l using List.reverseRecOn with
  | nil => simp
  | append_singleton l a ih =>
    rw [runNodes_snoc, step_cuttingCost, ih]
    simp
    omega

/-- A flag that is lost exactly on bad nodes. -/
theorem runNodes_flag (g : Solution → Bool) (bad : Node → Bool)
    (hs : ∀ st n, g (nodeStep inst bin st n).sol = (g st.sol && !bad n)) (st : NodeLoop)
    (l : List Node) :
    g (runNodes inst bin st l).sol = true ↔ g st.sol = true ∧ ∀ n ∈ l, bad n = false := by
  induction l using List.reverseRecOn with
  | nil => simp
  | append_singleton l a ih =>
    rw [runNodes_snoc, hs, Bool.and_eq_true, ih, and_assoc]
    refine and_congr_right fun _ => ?_
    simp [List.mem_append, or_imp, forall_and]

/-! ### Items: the loop of the rectangle model -/

/-- The item type as a rectangle item type. -/
def toItem (it : ItemType) : Rect.ItemType :=
  { x := it.w, y := it.h, profit := it.profit, copies := it.copies, copiesMin := it.copiesMin
    resourceIds := it.resourceIds }

/-- The bin type as a rectangle bin type. -/
def toBin (bt : BinType) : Rect.BinType :=
  { x := bt.w, y := bt.h, cost := bt.cost, copies := bt.copies, resources := bt.resources }

/-- The instance as a rectangle instance. -/
def toRect (inst : Instance) : Rect.Instance :=
  { objective := inst.objective
    itemTypes := inst.itemTypes.map toItem
    binTypes := inst.binTypes.map toBin }

/-- The item as a rectangle item. -/
def toPlaced (i : Nat) : Rect.PlacedItem := ⟨i, 0, 0, false⟩

theorem toRect_itemType (i : Nat) : (toRect inst).itemType i = toItem (inst.itemType i) := by
  unfold Rect.Instance.itemType Instance.itemType toRect
  rw [show (default : Rect.ItemType) = toItem default from rfl]
  exact List.getD_map ..

theorem toRect_binType (b : Nat) : (toRect inst).binType b = toBin (inst.binType b) := by
  unfold Rect.Instance.binType Instance.binType toRect
  rw [show (default : Rect.BinType) = toBin default from rfl]
  exact List.getD_map ..

theorem toRect_numberOfItemTypes : (toRect inst).numberOfItemTypes = inst.numberOfItemTypes := by
  unfold Rect.Instance.numberOfItemTypes Instance.numberOfItemTypes toRect
  exact List.length_map _

theorem toRect_numberOfBinTypes : (toRect inst).numberOfBinTypes = inst.numberOfBinTypes := by
  unfold Rect.Instance.numberOfBinTypes Instance.numberOfBinTypes toRect
  exact List.length_map _

/-- The resource loop as that of the rectangle model. -/
def toLoop (s : ResourceLoop) : Rect.ResourceLoop :=
  { consumption := s.consumption, itemProfit := s.profit, resourceFeasible := s.resourceFeasible }

theorem toLoop_step (bt : BinType) (i c : Nat) (s : ResourceLoop) (r : Nat) :
    toLoop (resourceStep bt.resources i c s r) = Rect.resourceStep (toBin bt) i c (toLoop s) r := by
  unfold resourceStep Rect.resourceStep toLoop Rect.addAtQ toBin
  dsimp only
  split_ifs <;> rfl

theorem toLoop_fold (bt : BinType) (i c : Nat) (ids : List Nat) (s : ResourceLoop) :
    toLoop (ids.foldl (resourceStep bt.resources i c) s)
      = ids.foldl (Rect.resourceStep (toBin bt) i c) (toLoop s) := by
  induction ids generalizing s with
  | nil => rfl
  | cons r ids ih => rw [List.foldl_cons, List.foldl_cons, ih, toLoop_step]

/-- The two loops agree. -/
structure Sim (st : NodeLoop) (rt : Rect.ItemLoop) : Prop where
  consumption : st.consumption = rt.resourceConsumption
  copiesInBin : st.copiesInBin = rt.itemTypeCopiesInBin
  profit : st.sol.profit = rt.sol.itemProfit
  resourceFeasible : st.sol.resourceFeasible = rt.sol.resourceFeasible
  numberOfItems : st.sol.numberOfItems = rt.sol.numberOfItems
  itemArea : st.sol.itemArea = rt.sol.itemArea
  itemCopies : st.sol.itemCopies = rt.sol.itemCopies

theorem sim_step {st : NodeLoop} {rt : Rect.ItemLoop} (h : Sim st rt) (n : Node) :
    Sim (nodeStep inst bin st n) (if n.counted
      then Rect.itemStep (toRect inst) bin.binTypeId bin.copies false rt
        (toPlaced n.itemTypeId.toNat) else rt) := by
  cases hc : n.counted with
  | false =>
    rw [if_neg (by simp)]
    constructor
    · rw [step_consumption, hc]; exact h.consumption
    · rw [step_copiesInBin, hc]; exact h.copiesInBin
    · rw [step_profit, hc]; exact h.profit
    · rw [step_resourceFeasible, hc]; exact h.resourceFeasible
    · rw [step_numberOfItems, hc]; exact h.numberOfItems
    · rw [step_itemArea, hc]; exact h.itemArea
    · rw [step_itemCopies, hc]; exact h.itemCopies
  | true =>
    rw [if_pos rfl]
    have hres : toLoop (itemRes inst bin st n)
        = (((toRect inst).itemType n.itemTypeId.toNat).resourceIds.getD bin.binTypeId []).foldl
          (Rect.resourceStep ((toRect inst).binType bin.binTypeId) n.itemTypeId.toNat
            (rt.itemTypeCopiesInBin.getD n.itemTypeId.toNat 0))
          { consumption := rt.resourceConsumption
            itemProfit := rt.sol.itemProfit
              + (bin.copies : ℚ) * ((toRect inst).itemType n.itemTypeId.toNat).profit
            resourceFeasible := rt.sol.resourceFeasible } := by
      unfold itemRes
      rw [toLoop_fold, toRect_itemType, toRect_binType, h.copiesInBin]
      unfold toLoop
      dsimp only
      rw [h.consumption, h.profit, h.resourceFeasible]
      rfl
    obtain ⟨f1, f2, f3, f4, -⟩ := Rect.itemStep_fields (inst := toRect inst)
      (b := bin.binTypeId) (c := bin.copies) (last := false) rt (toPlaced n.itemTypeId.toNat)
    constructor
    · rw [step_consumption, hc, if_pos rfl]
      exact congrArg Rect.ResourceLoop.consumption hres
    · rw [step_copiesInBin, hc, if_pos rfl, h.copiesInBin]
      rfl
    · rw [step_profit, hc, if_pos rfl, Rect.itemStep_itemProfit]
      exact congrArg Rect.ResourceLoop.itemProfit hres
    · rw [step_resourceFeasible, hc, if_pos rfl, Rect.itemStep_resourceFeasible]
      exact congrArg Rect.ResourceLoop.resourceFeasible hres
    · rw [step_numberOfItems, hc, if_pos rfl, f1, h.numberOfItems]
    · rw [step_itemArea, hc, if_pos rfl, f2, h.itemArea, toRect_itemType]
      rfl
    · rw [step_itemCopies, hc, if_pos rfl, f4, h.itemCopies]
      rfl

theorem itemsOf_snoc (l : List Node) (a : Node) :
    itemsOf (l ++ [a]) = itemsOf l ++ if a.counted then [a.itemTypeId.toNat] else [] := by
  unfold itemsOf
  rw [List.filter_append, List.map_append]
  congr 1
  cases hc : a.counted with
  | true =>
    rw [List.filter_cons, if_pos (by exact hc)]; rfl
  | false =>
    have hn : ¬ (a.f.isSome && decide (0 ≤ a.itemTypeId)) = true := by
      have : (a.f.isSome && decide (0 ≤ a.itemTypeId)) = false := hc
      rw [this]; simp
    rw [List.filter_cons, if_neg hn]
    rfl

theorem sim_run {st : NodeLoop} {rt : Rect.ItemLoop} (h : Sim st rt) (l : List Node) :
    Sim (runNodes inst bin st l) (Rect.runItems (toRect inst) bin.binTypeId bin.copies false rt
      ((itemsOf l).map toPlaced)) := by
  induction l using List.reverseRecOn with
  | nil => exact h
  | append_singleton l a ih =>
    rw [runNodes_snoc, itemsOf_snoc]
    have := sim_step (inst := inst) (bin := bin) ih a
    cases hc : a.counted with
    | true =>
      rw [hc, if_pos rfl] at this
      rw [if_pos rfl, List.map_append, List.map_singleton, Rect.runItems_snoc]
      exact this
    | false =>
      rw [hc, if_neg (by simp)] at this
      rw [if_neg (by simp), List.append_nil]
      exact this

/-! ### The specification through the rectangle model -/

theorem count_toPlaced (ids : List Nat) (i : Nat) :
    Rect.Spec.count (ids.map toPlaced) i = (ids.count i : Int) := by
  unfold Rect.Spec.count
  rw [List.countP_map, List.count]
  rfl

theorem consumption_toRect (r : Resource) (ids : List Nat) :
    Rect.Spec.consumption (toRect inst) r (ids.map toPlaced) = consumption inst r ids := by
  unfold Rect.Spec.consumption consumption
  rw [toRect_numberOfItemTypes]
  congr 1
  apply List.map_congr_left
  intro i _
  rw [count_toPlaced]
  rfl

theorem penalties_toRect (b : Nat) (ids : List Nat) :
    Rect.Spec.penalties (toRect inst) b (ids.map toPlaced) = penalties inst b ids := by
  unfold Rect.Spec.penalties penalties
  rw [toRect_binType]
  congr 1
  apply List.map_congr_left
  intro r _
  rw [consumption_toRect]

theorem resourceIdsOk_toRect (h : ResourceIdsOk inst) : Rect.Spec.ResourceIdsOk (toRect inst) := by
  intro i hi b hb
  rw [toRect_numberOfItemTypes] at hi
  rw [toRect_numberOfBinTypes] at hb
  rw [toRect_itemType, toRect_binType]
  exact h i hi b hb

theorem map_prefix {ids : List Nat} {p : List Rect.PlacedItem} :
    p <+: ids.map toPlaced ↔ ∃ q, q <+: ids ∧ p = q.map toPlaced := by
  constructor
  · rintro ⟨t, ht⟩
    obtain ⟨q, t', rfl, rfl, _⟩ := List.append_eq_map_iff.mp ht
    exact ⟨q, ⟨t', rfl⟩, rfl⟩
  · rintro ⟨q, hq, rfl⟩
    exact hq.map _

theorem resourcesOk_toRect (b : Nat) (ids : List Nat) :
    Rect.Spec.ResourcesOk (toRect inst) b (ids.map toPlaced) ↔ ResourcesOk inst b ids := by
  unfold Rect.Spec.ResourcesOk ResourcesOk
  rw [toRect_binType]
  refine forall_congr' fun r => forall_congr' fun hr => forall_congr' fun hp => ?_
  constructor
  · intro h p hp
    rw [← consumption_toRect]
    exact h _ (map_prefix.mpr ⟨p, hp, rfl⟩)
  · intro h p hp
    obtain ⟨q, hq, rfl⟩ := map_prefix.mp hp
    rw [consumption_toRect]
    exact h q hq

/-! ### The number of 1-cuts -/

theorem runNodes_number1 (st : NodeLoop) (h0 : st.number1Cuts = 0) (l : List Node) :
    (runNodes inst bin st l).number1Cuts = (l.countP fun n => decide (Counts1 inst bin n) : Nat)
    ∧ ((runNodes inst bin st l).sol.maximumNumber1CutsFeasible = true
      ↔ st.sol.maximumNumber1CutsFeasible = true
        ∧ (inst.parameters.maximumNumber1Cuts ≥ 0 →
          ((l.countP fun n => decide (Counts1 inst bin n) : Nat) : Int)
            ≤ inst.parameters.maximumNumber1Cuts)) := by
  induction l using List.reverseRecOn with
  | nil => exact ⟨h0, by simp⟩
  | append_singleton l a ih =>
    obtain ⟨ih1, ih2⟩ := ih
    rw [runNodes_snoc, step_number1Cuts, step_number1, List.countP_append]
    by_cases hc : Counts1 inst bin a
    · have h1 : List.countP (fun n => decide (Counts1 inst bin n)) [a] = 1 := by simp [hc]
      rw [if_pos hc, if_pos hc, h1, ih1]
      refine ⟨by push_cast; ring, ?_⟩
      rw [Bool.and_eq_true, ih2, and_assoc]
      refine and_congr_right fun _ => ?_
      have h0 := hc.1
      constructor
      · rintro ⟨h2, h3⟩ _
        have : ¬ ((List.countP (fun n => decide (Counts1 inst bin n)) l : Int) + 1
            > inst.parameters.maximumNumber1Cuts) := by simpa using h3
        push_cast
        omega
      · intro h2
        have := h2 h0
        push_cast at this
        refine ⟨fun _ => by omega, ?_⟩
        have : ¬ ((List.countP (fun n => decide (Counts1 inst bin n)) l : Int) + 1
            > inst.parameters.maximumNumber1Cuts) := by omega
        simpa using this
    · have h1 : List.countP (fun n => decide (Counts1 inst bin n)) [a] = 0 := by simp [hc]
      rw [if_neg hc, if_neg hc, h1]
      exact ⟨ih1, ih2⟩

end PackingSolver.Guil
