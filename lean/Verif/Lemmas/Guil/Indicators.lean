import Verif.Lemmas.Guil.Counts

/-! Helper lemmas: the indicators of a guillotine solution are functions of its bins. -/

namespace PackingSolver.Guil

open Spec

variable {inst : Instance}

/-- What is listed of a bin. -/
abbrev plateOf (b : SolutionBin) : Plate := ⟨b.binTypeId, b.copies, b.firstCutOrientation, b.nodes⟩

/-! ### The specification in terms of the checks of the code -/

theorem verticalAt_one {o : CutOrientation} (ho : o ≠ .any) :
    decide (VerticalAt o 1) = decide (o = .vertical) := by
  cases o <;> rfl

theorem verticalAt_two {o : CutOrientation} (ho : o ≠ .any) :
    decide (VerticalAt o 2) = !decide (o = .vertical) := by
  cases o <;> first | rfl | exact absurd rfl ho

theorem extent1_eq {o : CutOrientation} (ho : o ≠ .any) (n : Node) :
    extent1 o n = (region n).high (decide (VerticalAt o 1)) - (region n).low (decide (VerticalAt o 1)) := by
  rw [verticalAt_one ho]
  cases o <;> rfl

theorem extent2_eq {o : CutOrientation} (ho : o ≠ .any) (n : Node) :
    extent2 o n = (region n).high (decide (VerticalAt o 2)) - (region n).low (decide (VerticalAt o 2)) := by
  rw [verticalAt_two ho]
  cases o <;> rfl

theorem end1_eq {o : CutOrientation} (ho : o ≠ .any) (n : Node) :
    end1 o n = (region n).high (decide (VerticalAt o 1)) := by
  rw [verticalAt_one ho]
  cases o <;> rfl

theorem end2_eq {o : CutOrientation} (ho : o ≠ .any) (n : Node) :
    end2 o n = (region n).high (decide (VerticalAt o 2)) := by
  rw [verticalAt_two ho]
  cases o <;> rfl

theorem binEnd_eq {o : CutOrientation} (ho : o ≠ .any) (bt : BinType) :
    binEnd bt o = (usable bt).high (decide (VerticalAt o 1)) := by
  rw [verticalAt_one ho]
  unfold binEnd usable Region.high
  cases o with
  | any => exact absurd rfl ho
  | vertical =>
    dsimp only
    cases bt.rightTrimType <;> rfl
  | horizontal =>
    dsimp only
    cases bt.topTrimType <;> rfl

theorem wasteOk_iff (p : Plate) : WasteOk inst p
    ↔ ∀ n ∈ p.nodes, wasteTooSmall inst.parameters n = false := by
  unfold WasteOk wasteTooSmall
  refine forall_congr' fun n => forall_congr' fun _ => ?_
  rw [Bool.and_eq_false_iff, Bool.and_eq_false_iff, Bool.or_eq_false_iff]
  simp only [decide_eq_false_iff_not]
  omega

theorem distances1_iff (p : Plate) :
    DistancesOk 1 inst.parameters.minimumDistance1Cuts inst.parameters.maximumDistance1Cuts p
    ↔ (∀ n ∈ p.nodes, cut1TooClose inst.parameters p.orientation n = false)
      ∧ ∀ n ∈ p.nodes, cut1TooFar inst.parameters p.orientation n = false := by
  unfold DistancesOk cut1TooClose cut1TooFar
  rw [← forall₂_and]
  refine forall_congr' fun n => forall_congr' fun _ => ?_
  by_cases ho : p.orientation = .any
  · simp [ho]
  · have e := extent1_eq ho n
    simp only [Nat.cast_one]
    rw [← e]
    simp only [Bool.and_eq_false_iff, decide_eq_false_iff_not, ne_eq, ho, not_false_eq_true,
      not_true_eq_false, or_false, forall_const]
    omega

theorem distances2_iff (p : Plate) :
    DistancesOk 2 inst.parameters.minimumDistance2Cuts inst.parameters.maximumDistance2Cuts p
    ↔ (∀ n ∈ p.nodes, cut2TooClose inst.parameters p.orientation n = false)
      ∧ ∀ n ∈ p.nodes, cut2TooFar inst.parameters p.orientation n = false := by
  unfold DistancesOk cut2TooClose cut2TooFar
  rw [← forall₂_and]
  refine forall_congr' fun n => forall_congr' fun _ => ?_
  by_cases ho : p.orientation = .any
  · simp [ho]
  · have e := extent2_eq ho n
    simp only [Nat.cast_ofNat]
    rw [← e]
    simp only [Bool.and_eq_false_iff, decide_eq_false_iff_not, ne_eq, ho, not_false_eq_true,
      not_true_eq_false, or_false, forall_const]
    omega

theorem number1_iff (bin : SolutionBin) : Number1Ok inst (plateOf bin)
    ↔ (inst.parameters.maximumNumber1Cuts ≥ 0 →
      ((bin.nodes.countP fun n => decide (Counts1 inst bin n) : Nat) : Int)
        ≤ inst.parameters.maximumNumber1Cuts) := by
  unfold Number1Ok
  by_cases ho : bin.firstCutOrientation = .any
  · have h0 : bin.nodes.countP (fun n => decide (Counts1 inst bin n)) = 0 := by
      rw [List.countP_eq_zero]
      intro n _
      simp [Counts1, ho]
    rw [h0]
    exact ⟨fun _ h => h, fun _ _ h => absurd ho h⟩
  · refine forall_congr' fun hm => ?_
    have hcount : (bin.nodes.countP fun n => decide (n.d = 1)
        && decide ((region n).high (decide (VerticalAt bin.firstCutOrientation 1))
          ≠ (usable (inst.binType bin.binTypeId)).high
              (decide (VerticalAt bin.firstCutOrientation 1))))
        = bin.nodes.countP fun n => decide (Counts1 inst bin n) := by
      apply List.countP_congr
      intro n _
      rw [← end1_eq ho, ← binEnd_eq ho]
      simp only [Bool.and_eq_true, decide_eq_true_eq]
      exact ⟨fun h => ⟨hm, h.1, ho, h.2⟩, fun h => ⟨h.2.1, h.2.2.2⟩⟩
    constructor
    · intro h; rw [← hcount]; exact h ho
    · intro h _; rw [← hcount] at h; exact h

theorem number2_iff {bin : SolutionBin} (hm : inst.parameters.maximumNumber2Cuts ≥ 0)
    (ho : bin.firstCutOrientation ≠ .any) : Number2Ok inst (plateOf bin)
    ↔ ∀ i < bin.nodes.length, (nd bin.nodes i).d = 1 →
      (cuts2 bin.firstCutOrientation bin.nodes i bin.nodes.length : Int)
        ≤ inst.parameters.maximumNumber2Cuts := by
  unfold Number2Ok
  have hcount : ∀ i, (bin.nodes.countP fun n => decide (n.f = some i)
      && decide ((region n).high (decide (VerticalAt bin.firstCutOrientation 2))
        ≠ (region (bin.nodes.getD i default)).high
            (decide (VerticalAt bin.firstCutOrientation 2))))
      = cuts2 bin.firstCutOrientation bin.nodes i bin.nodes.length := by
    intro i
    unfold cuts2
    rw [List.take_length]
    apply List.countP_congr
    intro n _
    rw [end2_eq ho, end2_eq ho]
    rfl
  constructor
  · intro h i hi hd
    rw [← hcount]
    exact h hm ho i hi hd
  · intro h _ _ i hi hd
    have := h i hi hd
    rw [← hcount] at this
    exact this

theorem rectDefect_iff (bt : BinType) (n : Node) :
    rectIntersectsDefect n.l n.r n.b n.t bt = true ↔ MeetsDefect bt (region n) := by
  unfold rectIntersectsDefect MeetsDefect region
  rw [List.any_eq_true]
  refine exists_congr fun d => and_congr_right fun _ => ?_
  simp only [Bool.and_eq_true, Bool.not_eq_true', decide_eq_false_iff_not]
  omega

theorem xDefect_iff (bt : BinType) (x lo hi : Int) :
    xIntersectsDefect x lo hi bt = true ↔ CutsDefect bt true x lo hi := by
  unfold xIntersectsDefect CutsDefect
  rw [List.any_eq_true]
  refine exists_congr fun d => and_congr_right fun _ => ?_
  rw [if_pos rfl]
  simp only [Bool.and_eq_true, Bool.not_eq_true', Bool.or_eq_false_iff, decide_eq_false_iff_not]
  omega

theorem yDefect_iff (bt : BinType) (y lo hi : Int) :
    yIntersectsDefect lo hi y bt = true ↔ CutsDefect bt false y lo hi := by
  unfold yIntersectsDefect CutsDefect
  rw [List.any_eq_true]
  refine exists_congr fun d => and_congr_right fun _ => ?_
  rw [if_neg (by simp)]
  simp only [Bool.and_eq_true, Bool.not_eq_true', Bool.or_eq_false_iff, decide_eq_false_iff_not]
  omega

theorem defectsOk_iff (p : Plate) : DefectsOk inst p
    ↔ ∀ n ∈ p.nodes, itemOnDefect (inst.binType p.binTypeId) n = false := by
  unfold DefectsOk itemOnDefect
  refine forall_congr' fun n => forall_congr' fun _ => ?_
  rw [← rectDefect_iff, Bool.and_eq_false_iff, Bool.and_eq_false_iff]
  simp only [decide_eq_false_iff_not, Bool.not_eq_true]
  constructor
  · intro h
    by_cases h1 : 1 ≤ n.d
    · by_cases h2 : 0 ≤ n.itemTypeId
      · exact .inr (h h1 h2)
      · exact .inl (.inr (by omega))
    · exact .inl (.inl (by omega))
  · rintro ((h | h) | h) h1 h2
    · omega
    · omega
    · exact h

theorem cutThroughOk_iff (p : Plate) : CutThroughOk inst p
    ↔ ∀ n ∈ p.nodes, cutOnDefect inst (inst.binType p.binTypeId) n = false := by
  unfold CutThroughOk cutOnDefect
  constructor
  · intro h n hn
    cases hc : inst.parameters.cutThroughDefects with
    | true => rfl
    | false =>
      by_cases hd : 1 ≤ n.d
      · obtain ⟨a1, a2⟩ := h hc n hn hd true
        obtain ⟨b1, b2⟩ := h hc n hn hd false
        have c1 := Bool.not_eq_true _ ▸ mt (xDefect_iff _ _ _ _).mp a1
        have c2 := Bool.not_eq_true _ ▸ mt (xDefect_iff _ _ _ _).mp a2
        have c3 := Bool.not_eq_true _ ▸ mt (yDefect_iff _ _ _ _).mp b1
        have c4 := Bool.not_eq_true _ ▸ mt (yDefect_iff _ _ _ _).mp b2
        have d1 : xIntersectsDefect n.l n.b n.t (inst.binType p.binTypeId) = false := c1
        have d2 : xIntersectsDefect n.r n.b n.t (inst.binType p.binTypeId) = false := c2
        have d3 : yIntersectsDefect n.l n.r n.b (inst.binType p.binTypeId) = false := c3
        have d4 : yIntersectsDefect n.l n.r n.t (inst.binType p.binTypeId) = false := c4
        rw [d1, d2, d3, d4]
        simp
      · have : decide (n.d ≥ 1) = false := by simpa using hd
        rw [this]
        simp
  · intro h hc n hn hd
    have := h n hn
    have hd' : decide (n.d ≥ 1) = true := by simpa using hd
    rw [hc, hd'] at this
    simp only [Bool.not_false, Bool.true_and, Bool.or_eq_false_iff] at this
    obtain ⟨⟨⟨h1, h2⟩, h3⟩, h4⟩ := this
    intro v
    cases v with
    | true =>
      constructor
      · intro hx
        have : xIntersectsDefect n.l n.b n.t (inst.binType p.binTypeId) = true :=
          (xDefect_iff _ _ _ _).mpr hx
        rw [h1] at this; cases this
      · intro hx
        have : xIntersectsDefect n.r n.b n.t (inst.binType p.binTypeId) = true :=
          (xDefect_iff _ _ _ _).mpr hx
        rw [h2] at this; cases this
    | false =>
      constructor
      · intro hx
        have : yIntersectsDefect n.l n.r n.b (inst.binType p.binTypeId) = true :=
          (yDefect_iff _ _ _ _).mpr hx
        rw [h3] at this; cases this
      · intro hx
        have : yIntersectsDefect n.l n.r n.t (inst.binType p.binTypeId) = true :=
          (yDefect_iff _ _ _ _).mpr hx
        rw [h4] at this; cases this

theorem isWidthAxisCut_eq {o : CutOrientation} (ho : o ≠ .any) {d : Int} (hd : 0 ≤ d) :
    isWidthAxisCut o d = decide (VerticalAt o d) := by
  unfold isWidthAxisCut VerticalAt
  rw [Int.tmod_eq_emod_of_nonneg hd]
  cases o with
  | any => exact absurd rfl ho
  | vertical => simp
  | horizontal =>
    simp only [reduceCtorEq, if_false, false_and, true_and, false_or]
    rcases Int.emod_two_eq_zero_or_one d with h | h <;> simp [h]

theorem nodeCuttingCost_eq {bin : SolutionBin} (hobj : inst.objective = .binPackingCuttingCost)
    (ho : bin.firstCutOrientation ≠ .any) {n : Node} (hn : 1 ≤ n.d → n.f.isSome = true) :
    nodeCuttingCost inst bin n
      = bin.copies * cutCharge inst bin.firstCutOrientation bin.nodes n := by
  unfold nodeCuttingCost cutCharge
  by_cases hd : 1 ≤ n.d ∧ n.d ≤ 4
  · rw [if_pos hd, if_pos ⟨hobj, hd.1, hd.2⟩]
    obtain ⟨f, hf⟩ := Option.isSome_iff_exists.mp (hn hd.1)
    rw [hf]
    dsimp only [Option.getD_some]
    rw [isWidthAxisCut_eq ho (by omega)]
    cases decide (VerticalAt bin.firstCutOrientation n.d) with
    | true =>
      rw [if_pos rfl]
      show _ = bin.copies * (if n.r = (bin.nodes.getD f default).r then 0 else _)
      by_cases he : n.r = (bin.nodes.getD f default).r
      · rw [if_pos he, if_neg (by rw [decide_eq_true_eq]; exact not_not.mpr he), Int.mul_zero]
      · rw [if_neg he, if_pos (decide_eq_true he)]
        rfl
    | false =>
      rw [if_neg Bool.false_ne_true]
      show _ = bin.copies * (if n.t = (bin.nodes.getD f default).t then 0 else _)
      by_cases he : n.t = (bin.nodes.getD f default).t
      · rw [if_pos he, if_neg (by rw [decide_eq_true_eq]; exact not_not.mpr he), Int.mul_zero]
      · rw [if_neg he, if_pos (decide_eq_true he)]
        rfl
  · rw [if_neg hd, if_neg (fun h => hd ⟨h.2.1, h.2.2⟩), Int.mul_zero]

theorem nodeCuttingCost_zero {bin : SolutionBin} (hobj : inst.objective ≠ .binPackingCuttingCost)
    (n : Node) : nodeCuttingCost inst bin n = 0 := by
  unfold nodeCuttingCost
  rw [if_neg (fun h => hobj h.1)]

theorem sum_map_mul_left (c : Int) (f : Node → Int) (l : List Node) :
    (l.map fun n => c * f n).sum = c * (l.map f).sum := by
  induction l with
  | nil => simp
  | cons a l ih => simp [ih, Int.mul_add]

theorem area_eq (bt : BinType) : bt.area = trimmedArea bt := by
  unfold BinType.area trimmedArea
  rw [Int.mul_comm]
  congr 1 <;> omega

/-! ### Totals of one more bin -/

theorem itemCopies_snoc (ps : List Plate) (p : Plate) (i : Nat) :
    itemCopies (ps ++ [p]) i = itemCopies ps i + p.copies * (p.items.count i : Int) := by
  simp [itemCopies]

theorem countInfeasibleMin_eq (v : List Int) (ps : List Plate)
    (h : ∀ i, i < inst.numberOfItemTypes → v.getD i 0 = itemCopies ps i) :
    countInfeasibleMin inst v = missing inst ps := by
  unfold countInfeasibleMin missing
  rw [OneDim.foldl_count, zero_add]
  congr 1
  apply List.countP_congr
  intro i hi
  rw [h i (List.mem_range.mp hi)]

theorem missing_eq_zero (ps : List Plate) : missing inst ps = 0
    ↔ ∀ i, i < inst.numberOfItemTypes → (inst.itemType i).copiesMin ≤ itemCopies ps i := by
  unfold missing
  rw [Int.natCast_eq_zero, List.countP_eq_zero]
  constructor
  · intro h i hi
    have := h i (List.mem_range.mpr hi)
    simpa using this
  · intro h i hi
    simpa using h i (List.mem_range.mp hi)

theorem binType_mem {b : Nat} (hb : b < inst.numberOfBinTypes) : inst.binType b ∈ inst.binTypes := by
  unfold Instance.binType
  rw [List.getD_eq_getElem _ _ hb]
  exact List.getElem_mem hb

/-! ### The invariant -/

/-- The indicators of `s` that are sums or conditions over the bins are those of the bins `done`. -/
structure Core (inst : Instance) (s : Solution) (done : List SolutionBin) : Prop where
  numberOfBins : s.numberOfBins = Spec.numberOfBins (done.map plateOf)
  binCopiesLen : s.binCopies.length = inst.numberOfBinTypes
  binCopies : ∀ t, t < inst.numberOfBinTypes →
    s.binCopies.getD t 0 = Spec.binCopies (done.map plateOf) t
  cost : s.cost = Spec.cost inst (done.map plateOf)
  fullArea : s.fullArea = Spec.fullArea inst (done.map plateOf)
  numberOfItems : s.numberOfItems = Spec.numberOfItems (done.map plateOf)
  itemArea : s.itemArea = Spec.itemArea inst (done.map plateOf)
  itemCopiesLen : s.itemCopies.length = inst.numberOfItemTypes
  itemCopies : ∀ i, i < inst.numberOfItemTypes →
    s.itemCopies.getD i 0 = Spec.itemCopies (done.map plateOf) i
  profit : ResourceIdsOk inst → CapacitiesNonneg inst → ConsumptionsNonneg inst →
    s.profit = reportedProfit inst (done.map plateOf)
  missing : s.numberOfInfeasibleItemCopiesMin = Spec.missing inst (done.map plateOf)
  stages : IsMaxWithZero (done.map (·.numberOfStages)) s.numberOfStages
  stagesFeasible : 0 ≤ inst.parameters.numberOfStages → (s.numberOfStagesFeasible = true
    ↔ s.numberOfStages ≤ inst.parameters.numberOfStages)
  waste : s.minimumWasteLengthFeasible = true ↔ ∀ p ∈ done.map plateOf, WasteOk inst p
  distances1 : (s.minimumDistance1CutsFeasible = true ∧ s.maximumDistance1CutsFeasible = true)
    ↔ ∀ p ∈ done.map plateOf, DistancesOk 1 inst.parameters.minimumDistance1Cuts
        inst.parameters.maximumDistance1Cuts p
  distances2 : (s.minimumDistance2CutsFeasible = true ∧ s.maximumDistance2CutsFeasible = true)
    ↔ ∀ p ∈ done.map plateOf, DistancesOk 2 inst.parameters.minimumDistance2Cuts
        inst.parameters.maximumDistance2Cuts p
  number1 : s.maximumNumber1CutsFeasible = true ↔ ∀ p ∈ done.map plateOf, Number1Ok inst p
  number2 : s.maximumNumber2CutsFeasible = true ↔ ∀ p ∈ done.map plateOf, Number2Ok inst p
  stackOrder : s.stacksFeasible = true ↔ StacksOk inst (done.map plateOf)
  defects : s.defectsFeasible = true ↔ ∀ p ∈ done.map plateOf, DefectsOk inst p
  cutThrough : s.cutThroughDefectsFeasible = true ↔ ∀ p ∈ done.map plateOf, CutThroughOk inst p
  resources : ResourceIdsOk inst → CapacitiesNonneg inst → (s.resourceFeasible = true
    ↔ ∀ p ∈ done.map plateOf, ResourcesOk inst p.binTypeId p.items)
  copiesFeasible : (∀ b ∈ done, 0 ≤ b.copies) →
    (∀ i < inst.numberOfItemTypes, 0 ≤ (inst.itemType i).copies) →
    (s.itemCopiesFeasible = true ↔ ∀ i < inst.numberOfItemTypes,
      Spec.itemCopies (done.map plateOf) i ≤ (inst.itemType i).copies)
  feasible : s.feasible = s.allFeasible

/-- The indicators of `s` that look at the last bin are those of the last of the bins `done`. -/
structure LastBin (inst : Instance) (s : Solution) (done : List SolutionBin) : Prop where
  area : s.area = Spec.fullArea inst (done.map plateOf) - residualArea (done.map plateOf)
  width : IsMaxWithZero ((usedNodes (done.map plateOf)).map (·.r)) s.width
  height : IsMaxWithZero ((usedNodes (done.map plateOf)).map (·.t)) s.height
  leftover : s.secondLeftoverValue = secondLeftover (done.map plateOf)

/-- All the indicators of `s` are those of the bins `done`. -/
structure Indic (inst : Instance) (s : Solution) (done : List SolutionBin) : Prop
    extends Core inst s done, LastBin inst s done where
  cuttingCost : (∀ b ∈ done, b.firstCutOrientation ≠ .any) →
    s.cuttingCost = cutsCost inst (done.map plateOf) + inst.parameters.wasteCost * s.waste

theorem forall_plates_snoc {done : List SolutionBin} {b : SolutionBin} {P : Plate → Prop} :
    (∀ p ∈ (done ++ [b]).map plateOf, P p) ↔ (∀ p ∈ done.map plateOf, P p) ∧ P (plateOf b) := by
  rw [List.map_append, List.map_singleton]
  simp [or_imp, forall_and]

theorem replicate_getD (n i : Nat) : (List.replicate n (0 : Int)).getD i 0 = 0 := by
  rw [List.getD_eq_getElem?_getD, List.getElem?_replicate]
  split_ifs <;> rfl

theorem indic_init (bins : List SolutionBin) :
    Indic inst { Solution.init inst with bins := bins } [] := by
  have hmiss : countInfeasibleMin inst (List.replicate inst.numberOfItemTypes 0)
      = Spec.missing inst [] :=
    countInfeasibleMin_eq _ _ fun i _ => by rw [replicate_getD]; simp [Spec.itemCopies]
  refine { toCore := ?_, toLastBin := ?_, cuttingCost := ?_ }
  rotate_left
  · constructor
    case width => exact ⟨le_refl _, (by intro x hx; cases hx), .inl rfl⟩
    case height => exact ⟨le_refl _, (by intro x hx; cases hx), .inl rfl⟩
    all_goals simp [Solution.init, Spec.fullArea, residualArea, lastNodes, secondLeftover]
  · intro _
    unfold cutsCost
    have hw : ({ Solution.init inst with bins := bins } : Solution).waste = 0 := rfl
    have hc : ({ Solution.init inst with bins := bins } : Solution).cuttingCost = 0 := rfl
    rw [hw, hc]
    split_ifs <;> simp
  constructor
  case missing => exact hmiss
  case binCopies => intro t _; simp only [Solution.init]; rw [replicate_getD]; simp [Spec.binCopies]
  case itemCopies => intro t _; simp only [Solution.init]; rw [replicate_getD]; simp [Spec.itemCopies]
  case stages => exact ⟨le_refl _, (by intro x hx; cases hx), .inl rfl⟩
  case stagesFeasible => intro h; exact ⟨fun _ => h, fun _ => rfl⟩
  case stackOrder =>
    refine ⟨fun _ => ?_, fun _ => rfl⟩
    intro before p after h
    exact absurd h (by simp)
  case copiesFeasible =>
    intro _ h
    refine ⟨fun _ i hi => ?_, fun _ => rfl⟩
    have := h i hi
    simpa [Spec.itemCopies] using this
  case feasible => rfl
  all_goals simp [Solution.init, Spec.numberOfBins, Spec.numberOfItems, Spec.fullArea,
    Spec.itemArea, Spec.cost, reportedProfit]

section step
variable {s : Solution} {bin : SolutionBin}

/-- The loop state after all the nodes of a bin. -/
abbrev endLoop (inst : Instance) (s : Solution) (bin : SolutionBin) : NodeLoop :=
  runNodes inst bin (s.startBin inst bin) bin.nodes

/-- The loop state of the rectangle model that corresponds to the start. -/
def rectStart (inst : Instance) (s : Solution) (bin : SolutionBin) : Rect.ItemLoop :=
  { sol := { Rect.Solution.init (toRect inst) with
      itemProfit := s.profit
      resourceFeasible := s.resourceFeasible
      numberOfItems := s.numberOfItems
      itemArea := s.itemArea
      itemCopies := s.itemCopies }
    weight := []
    weightWeightedSum := []
    resourceConsumption := List.replicate (inst.binType bin.binTypeId).resources.length 0
    itemTypeCopiesInBin := List.replicate inst.numberOfItemTypes 0 }

theorem sim_start : Sim (s.startBin inst bin) (rectStart inst s bin) :=
  ⟨rfl, rfl, rfl, rfl, rfl, rfl, rfl⟩

theorem rectStart_fresh : Rect.LoopFresh (toRect inst) bin.binTypeId (rectStart inst s bin) := by
  refine ⟨?_, ?_⟩
  · rw [toRect_numberOfItemTypes]; rfl
  · rw [toRect_binType]; rfl

theorem inTypes_toRect {l : List Nat} (h : ∀ i ∈ l, i < inst.numberOfItemTypes) :
    Rect.InTypes (toRect inst) (l.map toPlaced) := by
  intro x hx
  obtain ⟨i, hi, rfl⟩ := List.mem_map.mp hx
  rw [toRect_numberOfItemTypes]
  exact h i hi

theorem end_numberOfItems : (endLoop inst s bin).sol.numberOfItems
    = s.numberOfItems + bin.copies * ((itemsOf bin.nodes).length : Int) := by
  rw [(sim_run sim_start bin.nodes).numberOfItems, Rect.runItems_numberOfItems]
  simp [rectStart]

theorem end_itemArea : (endLoop inst s bin).sol.itemArea = s.itemArea + bin.copies
    * ((itemsOf bin.nodes).map fun i => (inst.itemType i).w * (inst.itemType i).h).sum := by
  rw [(sim_run sim_start bin.nodes).itemArea, Rect.runItems_itemArea, List.map_map]
  congr 3
  apply List.map_congr_left
  intro i _
  show ((toRect inst).itemType i).area = _
  rw [toRect_itemType]
  rfl

theorem end_profit (hb : bin.binTypeId < inst.numberOfBinTypes)
    (hl : ∀ i ∈ itemsOf bin.nodes, i < inst.numberOfItemTypes) (hR : ResourceIdsOk inst)
    (hcap : CapacitiesNonneg inst) (hnn : ConsumptionsNonneg inst) :
    (endLoop inst s bin).sol.profit = s.profit + (bin.copies : ℚ)
        * ((itemsOf bin.nodes).map fun i => (inst.itemType i).profit).sum
      - penalties inst bin.binTypeId (itemsOf bin.nodes) := by
  rw [(sim_run sim_start bin.nodes).profit]
  have hbt : ((toRect inst).binType bin.binTypeId).resources
      = (inst.binType bin.binTypeId).resources := by rw [toRect_binType]; rfl
  rw [Rect.runItems_profit rectStart_fresh (by rw [toRect_numberOfBinTypes]; exact hb)
    (resourceIdsOk_toRect hR) (by rw [hbt]; exact hcap _ (binType_mem hb))
    (by rw [hbt]; exact hnn _ (binType_mem hb)) _ (inTypes_toRect hl), penalties_toRect]
  congr 2
  unfold Rect.Spec.itemsProfit
  rw [List.map_map]
  congr 2
  apply List.map_congr_left
  intro i _
  show ((toRect inst).itemType i).profit = _
  rw [toRect_itemType]
  rfl

theorem end_resources (hb : bin.binTypeId < inst.numberOfBinTypes)
    (hl : ∀ i ∈ itemsOf bin.nodes, i < inst.numberOfItemTypes) (hR : ResourceIdsOk inst)
    (hcap : CapacitiesNonneg inst) :
    (endLoop inst s bin).sol.resourceFeasible = true ↔ s.resourceFeasible = true
      ∧ ResourcesOk inst bin.binTypeId (itemsOf bin.nodes) := by
  rw [(sim_run sim_start bin.nodes).resourceFeasible]
  have hbt : ((toRect inst).binType bin.binTypeId).resources
      = (inst.binType bin.binTypeId).resources := by rw [toRect_binType]; rfl
  rw [Rect.runItems_resources rectStart_fresh (by rw [toRect_numberOfBinTypes]; exact hb)
    (resourceIdsOk_toRect hR) (by rw [hbt]; exact hcap _ (binType_mem hb)) _ (inTypes_toRect hl),
    resourcesOk_toRect]
  exact Iff.rfl

theorem lastNodes_snoc (done : List SolutionBin) (b : SolutionBin) :
    lastNodes ((done ++ [b]).map plateOf) = b.nodes := by
  rw [List.map_append, List.map_singleton]
  simp [lastNodes]

theorem stackBroken_iff (v : List Int) (n : Node) : stackBroken inst v n = false
    ↔ (1 ≤ n.d → 0 ≤ n.itemTypeId → 0 < (inst.itemType n.itemTypeId.toNat).stackPos →
      v.getD (inst.item (inst.itemType n.itemTypeId.toNat).stackId
        ((inst.itemType n.itemTypeId.toNat).stackPos - 1)) 0
        = (inst.itemType (inst.item (inst.itemType n.itemTypeId.toNat).stackId
        ((inst.itemType n.itemTypeId.toNat).stackPos - 1))).copies) := by
  unfold stackBroken
  simp only [Bool.and_eq_false_iff, decide_eq_false_iff_not, ne_eq, not_not]
  constructor
  · rintro (((h | h) | h) | h) h1 h2 h3
    · omega
    · omega
    · omega
    · exact h
  · intro h
    by_cases h1 : 1 ≤ n.d
    · by_cases h2 : 0 ≤ n.itemTypeId
      · by_cases h3 : 0 < (inst.itemType n.itemTypeId.toNat).stackPos
        · exact .inr (h h1 h2 h3)
        · exact .inl (.inr (by omega))
      · exact .inl (.inl (.inr (by omega)))
    · exact .inl (.inl (.inl (by omega)))

/-- What `update_indicators` needs to know about the bin. -/
structure StepOk (inst : Instance) (bin : SolutionBin) : Prop where
  type_lt : bin.binTypeId < inst.numberOfBinTypes
  shaped : Shaped bin.nodes
  items : ∀ i ∈ itemsOf bin.nodes, i < inst.numberOfItemTypes
  predecessors : ∀ n ∈ bin.nodes, 1 ≤ n.d → 0 ≤ n.itemTypeId →
    0 < (inst.itemType n.itemTypeId.toNat).stackPos →
    inst.item (inst.itemType n.itemTypeId.toNat).stackId
      ((inst.itemType n.itemTypeId.toNat).stackPos - 1) < inst.numberOfItemTypes

/-- One call of `update_indicators` adds the bin to the sums and conditions. -/
theorem core_step {done : List SolutionBin} {k : Nat} {b' : SolutionBin} (h : Core inst s done)
    (hbin : s.bins.getD k default = bin) (hk : StepOk inst bin)
    (hb' : b' = stageBin inst { bin with
      resourceConsumption := (endLoop inst s bin).consumption }) :
    Core inst ((s.updateNodes inst k).updateFlags inst s.waste) (done ++ [b']) := by
  have hplate : plateOf b' = plateOf bin := by rw [hb']; rfl
  have hmap : (done ++ [b']).map plateOf = done.map plateOf ++ [plateOf bin] := by
    rw [List.map_append, List.map_singleton, hplate]
  obtain ⟨f1, f2, f3, f4, f5, f6⟩ := runNodes_frame (inst := inst) (bin := bin)
    (s.startBin inst bin) bin.nodes
  -- the fields of the result
  have hU : s.updateNodes inst k = { (endLoop inst s bin).sol with
      bins := s.bins.set k b'
      numberOfStages := max (endLoop inst s bin).sol.numberOfStages b'.numberOfStages
      numberOfStagesFeasible := (endLoop inst s bin).sol.numberOfStagesFeasible
        && !decide (max (endLoop inst s bin).sol.numberOfStages b'.numberOfStages
            > inst.parameters.numberOfStages) } := by
    unfold Solution.updateNodes
    rw [hbin, hb']
  have hIC : ∀ i, i < inst.numberOfItemTypes → (endLoop inst s bin).sol.itemCopies.getD i 0
      = Spec.itemCopies ((done ++ [b']).map plateOf) i := by
    intro i hi
    have hlen : i < (s.startBin inst bin).sol.itemCopies.length := by
      have := h.itemCopiesLen
      show i < s.itemCopies.length
      omega
    rw [runNodes_itemCopies _ _ _ hlen, hmap, itemCopies_snoc]
    have := h.itemCopies i hi
    show s.itemCopies.getD i 0 + _ = _
    rw [this]
    rfl
  have hICL : (endLoop inst s bin).sol.itemCopies.length = inst.numberOfItemTypes := by
    rw [runNodes_itemCopies_length]; exact h.itemCopiesLen
  constructor
  case numberOfBins =>
    rw [hU]
    show (endLoop inst s bin).sol.numberOfBins = _
    rw [f1, hmap]
    show s.numberOfBins + bin.copies = _
    rw [h.numberOfBins]
    simp [Spec.numberOfBins]
  case binCopiesLen =>
    rw [hU]
    show (endLoop inst s bin).sol.binCopies.length = _
    rw [f2]
    show (addAt s.binCopies _ _).length = _
    rw [addAt_length, h.binCopiesLen]
  case binCopies =>
    intro t ht
    rw [hU]
    show (endLoop inst s bin).sol.binCopies.getD t 0 = _
    rw [f2, hmap]
    show (addAt s.binCopies _ _).getD t 0 = _
    rw [addAt_getD _ _ _ _ (by rw [h.binCopiesLen]; exact ht), h.binCopies t ht]
    simp [Spec.binCopies]
  case cost =>
    rw [hU]
    show (endLoop inst s bin).sol.cost = _
    rw [f3, hmap]
    show s.cost + (bin.copies : ℚ) * (inst.binType bin.binTypeId).cost = _
    rw [h.cost]
    simp [Spec.cost]
  case fullArea =>
    rw [hU]
    show (endLoop inst s bin).sol.fullArea = _
    rw [f4, hmap]
    show s.fullArea + bin.copies * (inst.binType bin.binTypeId).area = _
    rw [h.fullArea, area_eq]
    simp [Spec.fullArea]
  case numberOfItems =>
    rw [hU]
    show (endLoop inst s bin).sol.numberOfItems = _
    rw [end_numberOfItems, hmap, h.numberOfItems]
    simp [Spec.numberOfItems, Plate.items]
  case itemArea =>
    rw [hU]
    show (endLoop inst s bin).sol.itemArea = _
    rw [end_itemArea, hmap, h.itemArea]
    simp [Spec.itemArea, Plate.items]
  case itemCopiesLen => rw [hU]; exact hICL
  case itemCopies => rw [hU]; exact hIC
  case profit =>
    intro hR hcap hnn
    rw [hU]
    show (endLoop inst s bin).sol.profit = _
    rw [end_profit hk.type_lt hk.items hR hcap hnn, hmap, h.profit hR hcap hnn]
    simp only [reportedProfit, Plate.items, List.map_append, List.map_cons, List.map_nil,
      List.sum_append, List.sum_cons, List.sum_nil]
    ring
  case missing =>
    rw [hU]
    exact countInfeasibleMin_eq _ _ hIC
  case stages =>
    rw [hU]
    show IsMaxWithZero _ (max (endLoop inst s bin).sol.numberOfStages b'.numberOfStages)
    rw [f5]
    show IsMaxWithZero _ (max s.numberOfStages b'.numberOfStages)
    obtain ⟨i1, i2, i3⟩ := h.stages
    refine ⟨by omega, ?_, ?_⟩
    · intro x hx
      rw [List.map_append] at hx
      rcases List.mem_append.mp hx with hx | hx
      · have := i2 x hx; omega
      · have : x = b'.numberOfStages := by simpa using hx
        omega
    · by_cases hm : s.numberOfStages ≤ b'.numberOfStages
      · right; rw [max_eq_right hm]; simp
      · rw [max_eq_left (by omega)]
        rcases i3 with i3 | i3
        · exact .inl i3
        · right; rw [List.map_append]; exact List.mem_append_left _ i3
  case stagesFeasible =>
    intro h0
    rw [hU]
    show ((endLoop inst s bin).sol.numberOfStagesFeasible
        && !decide (max (endLoop inst s bin).sol.numberOfStages b'.numberOfStages
            > inst.parameters.numberOfStages)) = true
      ↔ max (endLoop inst s bin).sol.numberOfStages b'.numberOfStages
        ≤ inst.parameters.numberOfStages
    rw [f5, f6]
    show (s.numberOfStagesFeasible && !decide (max s.numberOfStages b'.numberOfStages
        > inst.parameters.numberOfStages)) = true ↔ max s.numberOfStages b'.numberOfStages
          ≤ inst.parameters.numberOfStages
    rw [Bool.and_eq_true, h.stagesFeasible h0]
    simp only [Bool.not_eq_true', decide_eq_false_iff_not]
    omega
  case waste =>
    rw [hU, forall_plates_snoc, hplate, wasteOk_iff]
    show (endLoop inst s bin).sol.minimumWasteLengthFeasible = true ↔ _
    rw [runNodes_flag (fun s => s.minimumWasteLengthFeasible) _ (fun st n => step_waste st n)]
    exact and_congr_left' h.waste
  case distances1 =>
    rw [hU, forall_plates_snoc, hplate, distances1_iff]
    show ((endLoop inst s bin).sol.minimumDistance1CutsFeasible = true
      ∧ (endLoop inst s bin).sol.maximumDistance1CutsFeasible = true) ↔ _
    rw [runNodes_flag (fun s => s.minimumDistance1CutsFeasible) _ (fun st n => step_min1 st n),
      runNodes_flag (fun s => s.maximumDistance1CutsFeasible) _ (fun st n => step_max1 st n),
      ← h.distances1]
    show ((s.minimumDistance1CutsFeasible = true ∧ _)
      ∧ (s.maximumDistance1CutsFeasible = true ∧ _)) ↔ _
    tauto
  case distances2 =>
    rw [hU, forall_plates_snoc, hplate, distances2_iff]
    show ((endLoop inst s bin).sol.minimumDistance2CutsFeasible = true
      ∧ (endLoop inst s bin).sol.maximumDistance2CutsFeasible = true) ↔ _
    rw [runNodes_flag (fun s => s.minimumDistance2CutsFeasible) _ (fun st n => step_min2 st n),
      runNodes_flag (fun s => s.maximumDistance2CutsFeasible) _ (fun st n => step_max2 st n),
      ← h.distances2]
    show ((s.minimumDistance2CutsFeasible = true ∧ _)
      ∧ (s.maximumDistance2CutsFeasible = true ∧ _)) ↔ _
    tauto
  case number1 =>
    rw [hU, forall_plates_snoc, hplate, number1_iff]
    show (endLoop inst s bin).sol.maximumNumber1CutsFeasible = true ↔ _
    rw [(runNodes_number1 (s.startBin inst bin) rfl bin.nodes).2]
    exact and_congr_left' h.number1
  case number2 =>
    rw [hU, forall_plates_snoc, hplate]
    show (endLoop inst s bin).sol.maximumNumber2CutsFeasible = true ↔ _
    by_cases hc : inst.parameters.maximumNumber2Cuts ≥ 0 ∧ bin.firstCutOrientation ≠ .any
    · have := (runNodes_number2 hk.shaped (s.startBin inst bin) hc.1 hc.2 bin.nodes.length
        (le_refl _)).2
      rw [List.take_length] at this
      rw [this, number2_iff hc.1 hc.2]
      exact and_congr_left' h.number2
    · rw [runNodes_number2_none _ _ hc]
      have hok : Number2Ok inst (plateOf bin) := fun h1 h2 => absurd ⟨h1, h2⟩ hc
      constructor
      · intro hh; exact ⟨h.number2.mp hh, hok⟩
      · intro hh; exact h.number2.mpr hh.1
  case stackOrder =>
    rw [hU, hmap]
    show (endLoop inst s bin).sol.stacksFeasible = true ↔ _
    rw [runNodes_stacks]
    have hcond : ∀ first n rest, bin.nodes = first ++ n :: rest →
        (stackBroken inst (runNodes inst bin (s.startBin inst bin) (first ++ [n])).sol.itemCopies n
            = false
          ↔ (1 ≤ n.d → 0 ≤ n.itemTypeId → 0 < (inst.itemType n.itemTypeId.toNat).stackPos →
            Spec.itemCopies (done.map plateOf) (inst.item
                (inst.itemType n.itemTypeId.toNat).stackId
                ((inst.itemType n.itemTypeId.toNat).stackPos - 1))
              + bin.copies * ((itemsOf (first ++ [n])).count (inst.item
                (inst.itemType n.itemTypeId.toNat).stackId
                ((inst.itemType n.itemTypeId.toNat).stackPos - 1)) : Int)
              = (inst.itemType (inst.item (inst.itemType n.itemTypeId.toNat).stackId
                ((inst.itemType n.itemTypeId.toNat).stackPos - 1))).copies)) := by
      intro first n rest he
      rw [stackBroken_iff]
      refine forall_congr' fun h1 => forall_congr' fun h2 => forall_congr' fun h3 => ?_
      have hlt := hk.predecessors n (by rw [he]; simp) h1 h2 h3
      rw [runNodes_itemCopies _ _ _ (by
        show _ < s.itemCopies.length
        rw [h.itemCopiesLen]; exact hlt)]
      show s.itemCopies.getD _ 0 + _ = _ ↔ _
      rw [h.itemCopies _ hlt]
    constructor
    · rintro ⟨h1, h2⟩ before p after he first n rest hn d1 d2 d3
      rcases List.eq_nil_or_concat after with hr | ⟨after', x, hr⟩
      · rw [hr] at he
        obtain ⟨e1, e2⟩ := List.append_inj' he rfl
        have e3 : plateOf bin = p := by simpa using e2
        rw [← e3] at hn ⊢
        rw [← e1]
        exact (hcond first n rest hn).mp (h2 first n rest hn) d1 d2 d3
      · rw [hr, List.concat_eq_append, ← List.cons_append, ← List.append_assoc] at he
        obtain ⟨e1, e2⟩ := List.append_inj' he rfl
        exact h.stackOrder.mp h1 before p after' e1 first n rest hn d1 d2 d3
    · intro hs
      refine ⟨h.stackOrder.mpr ?_, ?_⟩
      · intro before p after he
        exact hs before p (after ++ [plateOf bin]) (by rw [he]; simp)
      · intro first n rest hn
        exact (hcond first n rest hn).mpr (hs _ (plateOf bin) [] rfl first n rest hn)
  case defects =>
    rw [hU, forall_plates_snoc, hplate, defectsOk_iff]
    show (endLoop inst s bin).sol.defectsFeasible = true ↔ _
    rw [runNodes_flag (fun s => s.defectsFeasible) _ (fun st n => step_defects st n)]
    exact and_congr_left' h.defects
  case cutThrough =>
    rw [hU, forall_plates_snoc, hplate, cutThroughOk_iff]
    show (endLoop inst s bin).sol.cutThroughDefectsFeasible = true ↔ _
    rw [runNodes_flag (fun s => s.cutThroughDefectsFeasible) _ (fun st n => step_cutThrough st n)]
    exact and_congr_left' h.cutThrough
  case resources =>
    intro hR hcap
    rw [hU, forall_plates_snoc, hplate]
    show (endLoop inst s bin).sol.resourceFeasible = true ↔ _
    rw [end_resources hk.type_lt hk.items hR hcap]
    exact and_congr_left' (h.resources hR hcap)
  case copiesFeasible =>
    intro hc hi
    have hc2 : 0 ≤ bin.copies := by
      have := hc b' (by simp)
      have e : b'.copies = bin.copies := congrArg Plate.copies hplate
      rwa [e] at this
    rw [hU]
    show (endLoop inst s bin).sol.itemCopiesFeasible = true ↔ _
    rw [runNodes_copiesFeasible _ _ h.itemCopiesLen hc2 hk.items]
    · refine forall_congr' fun i => forall_congr' fun hlt => ?_
      rw [hIC i hlt]
    · show s.itemCopiesFeasible = true ↔ _
      rw [h.copiesFeasible (fun b hb => hc b (List.mem_append_left _ hb)) hi]
      refine forall_congr' fun i => forall_congr' fun hlt => ?_
      show _ ↔ s.itemCopies.getD i 0 ≤ _
      rw [h.itemCopies i hlt]
  case feasible => rfl

/-- After a call of `update_indicators`, the bin is the last one. -/
theorem last_step {done : List SolutionBin} {k : Nat} {b' : SolutionBin} (h : Core inst s done)
    (hbin : s.bins.getD k default = bin)
    (hb' : b' = stageBin inst { bin with
      resourceConsumption := (endLoop inst s bin).consumption }) :
    LastBin inst ((s.updateNodes inst k).updateFlags inst s.waste) (done ++ [b']) := by
  have hplate : plateOf b' = plateOf bin := by rw [hb']; rfl
  have hmap : (done ++ [b']).map plateOf = done.map plateOf ++ [plateOf bin] := by
    rw [List.map_append, List.map_singleton, hplate]
  obtain ⟨f1, f2, f3, f4, f5, f6⟩ := runNodes_frame (inst := inst) (bin := bin)
    (s.startBin inst bin) bin.nodes
  -- the fields of the result
  have hU : s.updateNodes inst k = { (endLoop inst s bin).sol with
      bins := s.bins.set k b'
      numberOfStages := max (endLoop inst s bin).sol.numberOfStages b'.numberOfStages
      numberOfStagesFeasible := (endLoop inst s bin).sol.numberOfStagesFeasible
        && !decide (max (endLoop inst s bin).sol.numberOfStages b'.numberOfStages
            > inst.parameters.numberOfStages) } := by
    unfold Solution.updateNodes
    rw [hbin, hb']
  have harea : (endLoop inst s bin).sol.area
      = Spec.fullArea inst ((done ++ [b']).map plateOf)
        - residualArea ((done ++ [b']).map plateOf) := by
    rw [runNodes_area, residualArea, lastNodes_snoc]
    have hn : b'.nodes = bin.nodes := congrArg Plate.nodes hplate
    rw [hn, hmap]
    congr 1
    show s.fullArea + bin.copies * (inst.binType bin.binTypeId).area = _
    rw [h.fullArea, area_eq]
    simp [Spec.fullArea]
  have hnodes : b'.nodes = bin.nodes := congrArg Plate.nodes hplate
  constructor
  case area => rw [hU]; exact harea
  case width =>
    rw [hU]
    unfold usedNodes
    rw [lastNodes_snoc, hnodes]
    exact runNodes_width _ rfl _
  case height =>
    rw [hU]
    unfold usedNodes
    rw [lastNodes_snoc, hnodes]
    exact runNodes_height _ rfl _
  case leftover =>
    rw [hU]
    unfold secondLeftover
    rw [lastNodes_snoc, hnodes]
    exact runNodes_leftover _ rfl _

/-- One call of `update_indicators` adds the cost of the bin, of its cuts and of the change of
waste. -/
theorem cost_step {done : List SolutionBin} {k : Nat} {b' : SolutionBin} {w : Int}
    (hold : s.cuttingCost = cutsCost inst (done.map plateOf) + inst.parameters.wasteCost * w)
    (hbin : s.bins.getD k default = bin) (hk : StepOk inst bin)
    (hb' : b' = stageBin inst { bin with
      resourceConsumption := (endLoop inst s bin).consumption })
    (ho2 : bin.firstCutOrientation ≠ .any) :
    ((s.updateNodes inst k).updateFlags inst s.waste).cuttingCost
      = cutsCost inst ((done ++ [b']).map plateOf) + inst.parameters.wasteCost
        * (w + ((s.updateNodes inst k).updateFlags inst s.waste).waste - s.waste) := by
  have hplate : plateOf b' = plateOf bin := by rw [hb']; rfl
  have hmap : (done ++ [b']).map plateOf = done.map plateOf ++ [plateOf bin] := by
    rw [List.map_append, List.map_singleton, hplate]
  obtain ⟨f1, f2, f3, f4, f5, f6⟩ := runNodes_frame (inst := inst) (bin := bin)
    (s.startBin inst bin) bin.nodes
  -- the fields of the result
  have hU : s.updateNodes inst k = { (endLoop inst s bin).sol with
      bins := s.bins.set k b'
      numberOfStages := max (endLoop inst s bin).sol.numberOfStages b'.numberOfStages
      numberOfStagesFeasible := (endLoop inst s bin).sol.numberOfStagesFeasible
        && !decide (max (endLoop inst s bin).sol.numberOfStages b'.numberOfStages
            > inst.parameters.numberOfStages) } := by
    unfold Solution.updateNodes
    rw [hbin, hb']
  rw [hU]
  show (endLoop inst s bin).sol.cuttingCost + inst.parameters.wasteCost
      * (((endLoop inst s bin).sol.area - (endLoop inst s bin).sol.itemArea) - s.waste)
    = _ + inst.parameters.wasteCost
      * (w + ((endLoop inst s bin).sol.area - (endLoop inst s bin).sol.itemArea) - s.waste)
  rw [runNodes_cuttingCost]
  have hstart : (s.startBin inst bin).sol.cuttingCost
      = if inst.objective = .binPackingCuttingCost then s.cuttingCost + bin.copies
          * ((inst.parameters.cuttingCosts.getD 0 {}).fixed
            + (inst.parameters.cuttingCosts.getD 0 {}).perUnit
              * (inst.binType bin.binTypeId).area) else s.cuttingCost := rfl
  rw [hstart, hmap]
  unfold cutsCost at hold ⊢
  by_cases hobj : inst.objective = .binPackingCuttingCost
  · rw [if_pos hobj] at hold ⊢
    rw [if_pos hobj, List.map_append, List.sum_append, hold]
    have hsum : (bin.nodes.map (nodeCuttingCost inst bin)).sum
        = bin.copies * (bin.nodes.map
          (cutCharge inst bin.firstCutOrientation bin.nodes)).sum := by
      rw [← sum_map_mul_left]
      congr 1
      apply List.map_congr_left
      intro n hn
      apply nodeCuttingCost_eq hobj ho2
      intro hd
      obtain ⟨j, hj, he⟩ := List.getElem_of_mem hn
      have hnd : nd bin.nodes j = n := by
        unfold nd
        rw [List.getD_eq_getElem?_getD, List.getElem?_eq_getElem hj, he]; rfl
      have := hk.shaped.deep j hj
      rw [hnd] at this
      exact this hd
    rw [hsum]
    have hp : ([plateOf bin].map (plateCharge inst)).sum = bin.copies
        * ((inst.parameters.cuttingCosts.getD 0 {}).fixed
          + (inst.parameters.cuttingCosts.getD 0 {}).perUnit
            * (inst.binType bin.binTypeId).area
          + (bin.nodes.map (cutCharge inst bin.firstCutOrientation bin.nodes)).sum) := by
      simp [plateCharge, area_eq]
    rw [hp]
    ring
  · rw [if_neg hobj] at hold ⊢
    rw [if_neg hobj, hold]
    have hsum : (bin.nodes.map (nodeCuttingCost inst bin)).sum = 0 := by
      apply List.sum_eq_zero
      intro x hx
      obtain ⟨n, _, rfl⟩ := List.mem_map.mp hx
      exact nodeCuttingCost_zero hobj n
    rw [hsum]
    ring

/-- One call of `update_indicators` adds the bin to the indicators. -/
theorem indic_step {done : List SolutionBin} {k : Nat} {b' : SolutionBin} (h : Indic inst s done)
    (hbin : s.bins.getD k default = bin) (hk : StepOk inst bin)
    (hb' : b' = stageBin inst { bin with
      resourceConsumption := (endLoop inst s bin).consumption }) :
    Indic inst ((s.updateNodes inst k).updateFlags inst s.waste) (done ++ [b']) := by
  have hplate : plateOf b' = plateOf bin := by rw [hb']; rfl
  refine { toCore := core_step h.toCore hbin hk hb', toLastBin := last_step h.toCore hbin hb',
           cuttingCost := ?_ }
  intro ho
  have ho2 : bin.firstCutOrientation ≠ .any := by
    have := ho b' (by simp)
    have e : b'.firstCutOrientation = bin.firstCutOrientation := congrArg Plate.orientation hplate
    rwa [e] at this
  have := cost_step (h.cuttingCost fun b hb => ho b (List.mem_append_left _ hb)) hbin hk hb' ho2
  rw [this]
  congr 2
  ring

end step

end PackingSolver.Guil
