import Verif.Lemmas.Guil.InstTotal
import Verif.Spec.GuillotineParameters

/-! Helper lemmas: parameters and bin sides in histories of the guillotine instance builder. -/

namespace PackingSolver.Guil

open InstanceBuilder
open Guil.Spec hiding IsMaxWithZero
open PackingSolver.OneDim (forall_mem_set getD_mem)

variable {b b' : InstanceBuilder}

/-! ### The table of cutting costs -/

/-- The table of cutting costs is large enough. -/
def CostsOk (p : Parameters) : Prop := requiredCosts p ≤ p.cuttingCosts.length

theorem growTo_length {α : Type} (d : α) (n : Nat) (l : List α) :
    (growTo d n l).length = max n l.length := by
  unfold growTo
  rw [List.length_append, List.length_replicate]; omega

theorem growTo_getD {α : Type} (d : α) (n : Nat) (l : List α) (i : Nat) :
    (growTo d n l).getD i d = l.getD i d := by
  unfold growTo
  by_cases h : i < l.length
  · rw [List.getD_append _ _ _ _ h]
  · rw [List.getD_append_right _ _ _ _ (by omega), List.getD_eq_default l _ (by omega)]
    rw [List.getD_eq_getElem?_getD, List.getElem?_replicate]
    split_ifs <;> rfl

theorem resize_ok (p : Parameters) : CostsOk (resizeCuttingCosts p) := by
  unfold resizeCuttingCosts
  dsimp only
  split_ifs with h1 h2 h2 <;> unfold CostsOk requiredCosts <;> try dsimp only
  · rw [growTo_length, if_pos h1]; omega
  · rw [if_pos h1]; omega
  · rw [growTo_length, if_neg h1]; omega
  · rw [if_neg h1]; omega

/-- Everything but the table is as before, and the table keeps its entries. -/
theorem resize_fields (p : Parameters) : ∃ l, resizeCuttingCosts p = { p with cuttingCosts := l }
    ∧ (∀ i, l.getD i {} = p.cuttingCosts.getD i {}) ∧ p.cuttingCosts.length ≤ l.length := by
  unfold resizeCuttingCosts
  dsimp only
  split_ifs with h1 h2 h2
  · exact ⟨_, rfl, growTo_getD _ _ _, by rw [growTo_length]; omega⟩
  · exact ⟨_, rfl, fun _ => rfl, le_refl _⟩
  · exact ⟨_, rfl, growTo_getD _ _ _, by rw [growTo_length]; omega⟩
  · exact ⟨_, rfl, fun _ => rfl, le_refl _⟩

theorem params_modifyBin {id : Nat} {f : BinType → Except Err BinType}
    (h : b.modifyBin id f = .ok b') : b'.inst.parameters = b.inst.parameters := by
  obtain ⟨-, t, -, rfl⟩ := modifyBin_ok h; rfl

theorem params_modifyItem {id : Nat} {f : ItemType → Except Err ItemType}
    (h : b.modifyItem id f = .ok b') : b'.inst.parameters = b.inst.parameters := by
  obtain ⟨-, t, -, rfl⟩ := modifyItem_ok h; rfl

theorem params_addBinType {w h : Int} (hs : b.addBinType w h = .ok b') :
    b'.inst.parameters = b.inst.parameters := by
  unfold addBinType at hs
  split_ifs at hs
  cases hs; rfl

theorem params_addItemType {w h s : Int} {o : Bool} (hs : b.addItemType w h o s = .ok b') :
    b'.inst.parameters = b.inst.parameters := by
  unfold addItemType at hs
  split_ifs at hs
  cases hs; rfl

theorem params_fold {α : Type} {l : List α} {f : InstanceBuilder → α → Except Err InstanceBuilder}
    (hf : ∀ x c d, f c x = .ok d → d.inst.parameters = c.inst.parameters)
    (h : l.foldlM f b = .ok b') : b'.inst.parameters = b.inst.parameters :=
  foldlM_inv (fun c => c.inst.parameters = b.inst.parameters) rfl
    (fun x c d _ hc hs => (hf x c d hs).trans hc) h

theorem params_addBinTypeFrom {orig : Instance} {i : Nat} (h : b.addBinTypeFrom orig i = .ok b') :
    b'.inst.parameters = b.inst.parameters := by
  unfold addBinTypeFrom at h
  split_ifs at h
  dsimp only at h
  obtain ⟨b1, h1, h⟩ := bind_ok.mp h
  obtain ⟨b2, h2, h⟩ := bind_ok.mp h
  obtain ⟨b3, h3, h⟩ := bind_ok.mp h
  obtain ⟨b4, h4, h⟩ := bind_ok.mp h
  obtain ⟨b5, h5, h⟩ := bind_ok.mp h
  obtain ⟨b6, h6, h⟩ := bind_ok.mp h
  have e1 := params_addBinType h1
  have e2 := params_modifyBin h2
  have e3 := params_modifyBin h3
  have e4 := params_modifyBin h4
  have e5 := params_modifyBin h5
  have e6 := params_fold (fun x c d hs => params_modifyBin hs) h6
  have e7 := params_fold (fun x c d hs => params_modifyBin hs) h
  rw [e7, e6, e5, e4, e3, e2]
  exact e1

theorem params_addItemTypeFrom {orig : Instance} {i : Nat}
    (h : b.addItemTypeFrom orig i = .ok b') : b'.inst.parameters = b.inst.parameters := by
  unfold addItemTypeFrom at h
  split_ifs at h
  dsimp only at h
  obtain ⟨b1, h1, h⟩ := bind_ok.mp h
  obtain ⟨b2, h2, h⟩ := bind_ok.mp h
  obtain ⟨b3, h3, h⟩ := bind_ok.mp h
  have e1 := params_addItemType h1
  have e2 := params_modifyItem h2
  have e3 := params_modifyItem h3
  have e4 : b'.inst.parameters = b3.inst.parameters := by
    unfold copyConsumptions at h
    refine params_fold (fun x c d hs => ?_) h
    split at hs
    · cases hs; rfl
    · split_ifs at hs
      refine params_fold (fun y c d hs => ?_) hs
      dsimp only at hs
      split_ifs at hs
      · cases hs; rfl
      · exact params_fold (fun z c d hs => params_modifyBin hs) hs
  rw [e4, e3, e2]
  exact e1

theorem params_setPredefinedOriented {c : Char} (h : b.setPredefinedOriented c = .ok b') :
    b'.inst.parameters = b.inst.parameters := by
  unfold setPredefinedOriented at h
  split at h <;> first | (cases h; rfl) | cases h

theorem costsOk_setCutType (b : InstanceBuilder) (c : CutType) :
    CostsOk (b.setCutType c).inst.parameters := resize_ok _

theorem costsOk_orientation (b : InstanceBuilder) (o : CutOrientation)
    (h : CostsOk b.inst.parameters) : CostsOk (b.setFirstStageOrientation o).inst.parameters := h

theorem costsOk_setPredefined {str : List Char} (h : b.setPredefined str = .ok b') :
    CostsOk b'.inst.parameters := by
  unfold setPredefined at h
  split_ifs at h with h1 h2
  · cases h; exact resize_ok _
  · rw [params_setPredefinedOriented h]; exact resize_ok _
  · split at h
    · dsimp only at h
      split_ifs at h
      split at h
      · cases h
      · split at h
        · cases h
        · rw [params_setPredefinedOriented h]
          exact costsOk_orientation _ _ (costsOk_setCutType _ _)
    · cases h

/-- A call other than `set_parameters` keeps the table large enough. -/
theorem costsOk_step {op : BuilderOp} (hop : ¬ ReplacesParameters op)
    (hC : CostsOk b.inst.parameters) (h : b.step op = .ok b') : CostsOk b'.inst.parameters := by
  cases op with
  | setObjective o => cases h; exact hC
  | setCallback f => cases h; exact hC
  | setParameters p => exact absurd trivial hop
  | setFirstStageOrientation o => cases h; exact hC
  | setMinimumDistance1Cuts n => cases h; exact hC
  | setMaximumDistance1Cuts n => cases h; exact hC
  | setMinimumDistance2Cuts n => cases h; exact hC
  | setMaximumDistance2Cuts n => cases h; exact hC
  | setMinimumWasteLength n => cases h; exact hC
  | setMaximumNumber1Cuts n => cases h; exact hC
  | setMaximumNumber2Cuts n => cases h; exact hC
  | setCutThickness n => cases h; exact hC
  | setWasteCost n => cases h; exact hC
  | setCutThroughDefects c => cases h; exact hC
  | setNumberOfStages n => cases h; exact resize_ok _
  | setNumberOfStagesUnlimited => cases h; exact resize_ok _
  | setCutType c => cases h; exact resize_ok _
  | setRoadef2018 => cases h; exact resize_ok _
  | setFixedCuttingCost s c =>
    change b.setFixedCuttingCost s c = _ at h
    unfold setFixedCuttingCost at h
    split_ifs at h
    cases h
    change requiredCosts b.inst.parameters ≤ _
    change _ ≤ (((b.inst.parameters.cuttingCosts.modify _ _).length : Nat) : Int)
    rw [List.length_modify]
    exact hC
  | setVariableCuttingCost s c =>
    change b.setVariableCuttingCost s c = _ at h
    unfold setVariableCuttingCost at h
    split_ifs at h
    cases h
    change requiredCosts b.inst.parameters ≤ _
    change _ ≤ (((b.inst.parameters.cuttingCosts.modify _ _).length : Nat) : Int)
    rw [List.length_modify]
    exact hC
  | setPredefined str => exact costsOk_setPredefined h
  | addBinType x y => rw [params_addBinType h]; exact hC
  | setBinTypeCost i c => rw [params_modifyBin (show b.setBinTypeCost i c = _ from h)]; exact hC
  | addTrims i tr => rw [params_modifyBin (show b.addTrims i tr = _ from h)]; exact hC
  | addDefect i px py x y => rw [params_modifyBin (show b.addDefect i px py x y = _ from h)]; exact hC
  | addBinTypeResource i c p q => rw [params_modifyBin (show b.addBinTypeResource i c p q = _ from h)]; exact hC
  | addResourceConsumption t r i c q => rw [params_modifyBin (show b.addResourceConsumption t r i c q = _ from h)]; exact hC
  | setBinTypeCopies i c => rw [params_modifyBin (show b.setBinTypeCopies i c = _ from h)]; exact hC
  | setBinTypeCopiesMin i c => rw [params_modifyBin (show b.setBinTypeCopiesMin i c = _ from h)]; exact hC
  | setBinTypesInfiniteX => cases h; exact hC
  | setBinTypesInfiniteY => cases h; exact hC
  | setBinTypesInfiniteCopies => cases h; exact hC
  | setBinTypesUnweighted => cases h; exact hC
  | addItemType x y o st => rw [params_addItemType h]; exact hC
  | setItemTypeProfit i p => rw [params_modifyItem (show b.setItemTypeProfit i p = _ from h)]; exact hC
  | setItemTypeCopies i c => rw [params_modifyItem (show b.setItemTypeCopies i c = _ from h)]; exact hC
  | setItemTypeCopiesMin i c => rw [params_modifyItem (show b.setItemTypeCopiesMin i c = _ from h)]; exact hC
  | setItemTypesUnweighted => cases h; exact hC
  | setItemTypesOriented o => cases h; exact hC
  | setItemTypesInfiniteCopies =>
    change b.setItemTypesInfiniteCopies = _ at h
    unfold setItemTypesInfiniteCopies at h
    split_ifs at h
    cases h; exact hC
  | multiplyItemTypesCopies f => cases h; exact hC
  | addBinTypeFrom o i => rw [params_addBinTypeFrom h]; exact hC
  | addItemTypeFrom o i => rw [params_addItemTypeFrom h]; exact hC

/-- A call that sets the number of stages or the type of cuts makes the table large enough. -/
theorem costsOk_sets {op : BuilderOp} (hop : SetsStages op) (h : b.step op = .ok b') :
    CostsOk b'.inst.parameters := by
  cases op <;> first | (exact False.elim hop) | skip
  case setNumberOfStages n => cases h; exact resize_ok _
  case setNumberOfStagesUnlimited => cases h; exact resize_ok _
  case setCutType c => cases h; exact resize_ok _
  case setRoadef2018 => cases h; exact resize_ok _
  case setPredefined str => exact costsOk_setPredefined h

theorem costsOk_ops {o : Objective} {ops : List BuilderOp}
    (hs : ∃ op ∈ ops, SetsStages op) (hr : ∀ op ∈ ops, ¬ ReplacesParameters op)
    (h : ops.foldlM step (new o) = .ok b) : CostsOk b.inst.parameters := by
  obtain ⟨op, hop, hs⟩ := hs
  obtain ⟨pre, post, rfl⟩ := List.append_of_mem hop
  rw [List.foldlM_append] at h
  obtain ⟨b1, -, h⟩ := bind_ok.mp h
  obtain ⟨b2, h2, h⟩ := foldlM_cons_ok.mp h
  exact foldlM_inv (fun c => CostsOk c.inst.parameters) (costsOk_sets hs h2)
    (fun x c d hx hc hstep => costsOk_step (hr x (by simp [hx])) hc hstep) h

/-! ### Parameters with their own setters -/

/-- The effect of one call on the parameters that have their own setters. -/
def ScalarStep (op : BuilderOp) (b b' : InstanceBuilder) : Prop :=
  b'.inst.parameters.minimumDistance1Cuts = (minimumDistance1CutsOf op).getD b.inst.parameters.minimumDistance1Cuts
    ∧ b'.inst.parameters.maximumDistance1Cuts = (maximumDistance1CutsOf op).getD b.inst.parameters.maximumDistance1Cuts
    ∧ b'.inst.parameters.minimumDistance2Cuts = (minimumDistance2CutsOf op).getD b.inst.parameters.minimumDistance2Cuts
    ∧ b'.inst.parameters.maximumDistance2Cuts = (maximumDistance2CutsOf op).getD b.inst.parameters.maximumDistance2Cuts
    ∧ b'.inst.parameters.minimumWasteLength = (minimumWasteLengthOf op).getD b.inst.parameters.minimumWasteLength
    ∧ b'.inst.parameters.maximumNumber1Cuts = (maximumNumber1CutsOf op).getD b.inst.parameters.maximumNumber1Cuts
    ∧ b'.inst.parameters.maximumNumber2Cuts = (maximumNumber2CutsOf op).getD b.inst.parameters.maximumNumber2Cuts
    ∧ b'.inst.parameters.cutThroughDefects = (cutThroughDefectsOf op).getD b.inst.parameters.cutThroughDefects
    ∧ b'.inst.parameters.cutThickness = (cutThicknessOf op).getD b.inst.parameters.cutThickness
    ∧ b'.inst.parameters.wasteCost = (wasteCostOf op).getD b.inst.parameters.wasteCost

theorem scalar_predefined {str : List Char} (h : b.setPredefined str = .ok b') :
    ScalarStep (.setPredefined str) b b' := by
  unfold setPredefined at h
  split_ifs at h with h1 h2
  · cases h
    subst h1
    obtain ⟨l, hl, -⟩ := resize_fields _
    have e : b.setRoadef2018.inst.parameters = _ := hl
    unfold ScalarStep
    rw [e]
    repeat' constructor
  · have e := params_setPredefinedOriented h
    obtain ⟨l, hl, -⟩ := resize_fields _
    have e' : b.setNumberOfStagesUnlimited.inst.parameters = _ := hl
    have hr : Roadef (.setPredefined str) = false := decide_eq_false h1
    unfold ScalarStep
    rw [e, e']
    simp [minimumDistance1CutsOf, maximumDistance1CutsOf, minimumDistance2CutsOf, maximumDistance2CutsOf, minimumWasteLengthOf, maximumNumber1CutsOf, maximumNumber2CutsOf, cutThroughDefectsOf, cutThicknessOf, wasteCostOf, hr]
  · split at h
    · rename_i c0 c1 c2 c3
      dsimp only at h
      split_ifs at h
      split at h
      · cases h
      · split at h
        · cases h
        · rename_i ct _ _ o _
          have e := params_setPredefinedOriented h
          obtain ⟨l, hl, -⟩ := resize_fields { b.inst.parameters with numberOfStages := (c0.toNat : Int) - 48 }
          obtain ⟨l', hl', -⟩ := resize_fields { (b.setNumberOfStages ((c0.toNat : Int) - 48)).inst.parameters with cutType := ct }
          have e1 : (b.setNumberOfStages ((c0.toNat : Int) - 48)).inst.parameters = _ := hl
          have e2 : ((b.setNumberOfStages ((c0.toNat : Int) - 48)).setCutType ct).inst.parameters = _ := hl'
          have e3 : (((b.setNumberOfStages ((c0.toNat : Int) - 48)).setCutType ct).setFirstStageOrientation o).inst.parameters = { ((b.setNumberOfStages ((c0.toNat : Int) - 48)).setCutType ct).inst.parameters with firstStageOrientation := o } := rfl
          have hr : Roadef (.setPredefined _) = false := decide_eq_false h1
          unfold ScalarStep
          rw [e, e3, e2, e1]
          simp [minimumDistance1CutsOf, maximumDistance1CutsOf, minimumDistance2CutsOf, maximumDistance2CutsOf, minimumWasteLengthOf, maximumNumber1CutsOf, maximumNumber2CutsOf, cutThroughDefectsOf, cutThicknessOf, wasteCostOf, hr]
    · cases h

theorem scalar_step {op : BuilderOp} (h : b.step op = .ok b') : ScalarStep op b b' := by
  unfold ScalarStep
  cases op with
  | setObjective o => cases h; repeat' constructor
  | setCallback f => cases h; repeat' constructor
  | setParameters p => cases h; repeat' constructor
  | setFirstStageOrientation o => cases h; repeat' constructor
  | setMinimumDistance1Cuts n => cases h; repeat' constructor
  | setMaximumDistance1Cuts n => cases h; repeat' constructor
  | setMinimumDistance2Cuts n => cases h; repeat' constructor
  | setMaximumDistance2Cuts n => cases h; repeat' constructor
  | setMinimumWasteLength n => cases h; repeat' constructor
  | setMaximumNumber1Cuts n => cases h; repeat' constructor
  | setMaximumNumber2Cuts n => cases h; repeat' constructor
  | setCutThickness n => cases h; repeat' constructor
  | setWasteCost n => cases h; repeat' constructor
  | setCutThroughDefects c => cases h; repeat' constructor
  | setNumberOfStages n =>
    cases h
    obtain ⟨l, hl, -⟩ := resize_fields _
    have e : (b.setNumberOfStages n).inst.parameters = _ := hl
    rw [e]
    repeat' constructor
  | setNumberOfStagesUnlimited =>
    cases h
    obtain ⟨l, hl, -⟩ := resize_fields _
    have e : b.setNumberOfStagesUnlimited.inst.parameters = _ := hl
    rw [e]
    repeat' constructor
  | setCutType c =>
    cases h
    obtain ⟨l, hl, -⟩ := resize_fields _
    have e : (b.setCutType c).inst.parameters = _ := hl
    rw [e]
    repeat' constructor
  | setRoadef2018 =>
    cases h
    obtain ⟨l, hl, -⟩ := resize_fields _
    have e : b.setRoadef2018.inst.parameters = _ := hl
    rw [e]
    repeat' constructor
  | setFixedCuttingCost s c =>
    change b.setFixedCuttingCost s c = _ at h
    unfold setFixedCuttingCost at h
    split_ifs at h
    cases h; repeat' constructor
  | setVariableCuttingCost s c =>
    change b.setVariableCuttingCost s c = _ at h
    unfold setVariableCuttingCost at h
    split_ifs at h
    cases h; repeat' constructor
  | setPredefined str => exact scalar_predefined h
  | addBinType x y => rw [params_addBinType h]; repeat' constructor
  | setBinTypeCost i c => rw [params_modifyBin (show b.setBinTypeCost i c = _ from h)]; repeat' constructor
  | addTrims i tr => rw [params_modifyBin (show b.addTrims i tr = _ from h)]; repeat' constructor
  | addDefect i px py x y => rw [params_modifyBin (show b.addDefect i px py x y = _ from h)]; repeat' constructor
  | addBinTypeResource i c p q => rw [params_modifyBin (show b.addBinTypeResource i c p q = _ from h)]; repeat' constructor
  | addResourceConsumption t r i c q => rw [params_modifyBin (show b.addResourceConsumption t r i c q = _ from h)]; repeat' constructor
  | setBinTypeCopies i c => rw [params_modifyBin (show b.setBinTypeCopies i c = _ from h)]; repeat' constructor
  | setBinTypeCopiesMin i c => rw [params_modifyBin (show b.setBinTypeCopiesMin i c = _ from h)]; repeat' constructor
  | setBinTypesInfiniteX => cases h; repeat' constructor
  | setBinTypesInfiniteY => cases h; repeat' constructor
  | setBinTypesInfiniteCopies => cases h; repeat' constructor
  | setBinTypesUnweighted => cases h; repeat' constructor
  | addItemType x y o st => rw [params_addItemType h]; repeat' constructor
  | setItemTypeProfit i p => rw [params_modifyItem (show b.setItemTypeProfit i p = _ from h)]; repeat' constructor
  | setItemTypeCopies i c => rw [params_modifyItem (show b.setItemTypeCopies i c = _ from h)]; repeat' constructor
  | setItemTypeCopiesMin i c => rw [params_modifyItem (show b.setItemTypeCopiesMin i c = _ from h)]; repeat' constructor
  | setItemTypesUnweighted => cases h; repeat' constructor
  | setItemTypesOriented o => cases h; repeat' constructor
  | setItemTypesInfiniteCopies =>
    change b.setItemTypesInfiniteCopies = _ at h
    unfold setItemTypesInfiniteCopies at h
    split_ifs at h
    cases h; repeat' constructor
  | multiplyItemTypesCopies f => cases h; repeat' constructor
  | addBinTypeFrom o i => rw [params_addBinTypeFrom h]; repeat' constructor
  | addItemTypeFrom o i => rw [params_addItemTypeFrom h]; repeat' constructor

theorem lastWritten_snoc {α : Type} (f : Writes α) (d : α) (ops : List BuilderOp) (op : BuilderOp) :
    lastWritten f d (ops ++ [op]) = (f op).getD (lastWritten f d ops) := by
  unfold lastWritten
  rw [List.filterMap_append]
  cases h : f op with
  | none => simp [h]
  | some v => simp [h]

/-! ### Bin sides and trims -/

/-- The trims of every bin type leave something. -/
def AllSized (inst : Instance) : Prop := ∀ t ∈ inst.binTypes, Sized t

theorem sized_modifyBin {id : Nat} {f : BinType → Except Err BinType}
    (hf : ∀ t t', f t = .ok t' → Sized t → Sized t') (hS : AllSized b.inst)
    (h : b.modifyBin id f = .ok b') : AllSized b'.inst := by
  obtain ⟨hid, t, ht, rfl⟩ := modifyBin_ok h
  exact forall_mem_set hS (hf _ _ ht (hS _ (getD_mem _ hid)))

theorem Spec.Sized.congr {t t' : BinType} (h : Sized t) (e1 : t'.w = t.w) (e2 : t'.h = t.h)
    (e3 : t'.leftTrim = t.leftTrim) (e4 : t'.rightTrim = t.rightTrim)
    (e5 : t'.bottomTrim = t.bottomTrim) (e6 : t'.topTrim = t.topTrim) : Sized t' :=
  ⟨by rw [e3]; exact h.left, by rw [e4]; exact h.right, by rw [e5]; exact h.bottom,
    by rw [e6]; exact h.top, by rw [e1, e3, e4]; exact h.width, by rw [e2, e5, e6]; exact h.height⟩

theorem sized_addBinType {w h : Int} (hS : AllSized b.inst) (hs : b.addBinType w h = .ok b') :
    AllSized b'.inst := by
  unfold addBinType at hs
  split_ifs at hs with h1 h2
  cases hs
  intro t ht
  rcases List.mem_append.mp ht with ht | ht
  · exact hS t ht
  · rw [List.mem_singleton.mp ht]
    exact ⟨le_refl _, le_refl _, le_refl _, le_refl _, by dsimp only; omega, by dsimp only; omega⟩

theorem sized_addTrims {id : Nat} {tr : Trims} (hS : AllSized b.inst)
    (hs : b.addTrims id tr = .ok b') : AllSized b'.inst := by
  refine sized_modifyBin (fun t t' h _ => ?_) hS hs
  split_ifs at h
  cases h
  exact ⟨by dsimp only; omega, by dsimp only; omega, by dsimp only; omega, by dsimp only; omega,
    by dsimp only; omega, by dsimp only; omega⟩

theorem sized_setBinTypeCost {id : Nat} {c : ℚ} (hS : AllSized b.inst)
    (hs : b.setBinTypeCost id c = .ok b') : AllSized b'.inst := by
  refine sized_modifyBin (fun t t' h ht => ?_) hS hs
  split at h
  · cases h
  · cases h; exact ht.congr rfl rfl rfl rfl rfl rfl

theorem sized_addDefect {id : Nat} {x y w h : Int} (hS : AllSized b.inst)
    (hs : b.addDefect id x y w h = .ok b') : AllSized b'.inst := by
  refine sized_modifyBin (fun t t' h ht => ?_) hS hs
  cases h; exact ht.congr rfl rfl rfl rfl rfl rfl

theorem sized_addBinTypeResource {id : Nat} {c : ℚ} {p : Bool} {q : ℚ} (hS : AllSized b.inst)
    (hs : b.addBinTypeResource id c p q = .ok b') : AllSized b'.inst := by
  refine sized_modifyBin (fun t t' h ht => ?_) hS hs
  cases h; exact ht.congr rfl rfl rfl rfl rfl rfl

theorem sized_addResourceConsumption {t r i : Nat} {c : Int} {q : ℚ} (hS : AllSized b.inst)
    (hs : b.addResourceConsumption t r i c q = .ok b') : AllSized b'.inst := by
  refine sized_modifyBin (fun t t' h ht => ?_) hS hs
  split_ifs at h
  cases h; exact ht.congr rfl rfl rfl rfl rfl rfl

theorem sized_setBinTypeCopies {id : Nat} {c : Int} (hS : AllSized b.inst)
    (hs : b.setBinTypeCopies id c = .ok b') : AllSized b'.inst := by
  refine sized_modifyBin (fun t t' h ht => ?_) hS hs
  split_ifs at h
  cases h; exact ht.congr rfl rfl rfl rfl rfl rfl

theorem sized_setBinTypeCopiesMin {id : Nat} {c : Int} (hS : AllSized b.inst)
    (hs : b.setBinTypeCopiesMin id c = .ok b') : AllSized b'.inst := by
  refine sized_modifyBin (fun t t' h ht => ?_) hS hs
  split_ifs at h
  cases h; exact ht.congr rfl rfl rfl rfl rfl rfl

theorem sized_modifyItem {id : Nat} {f : ItemType → Except Err ItemType}
    (hS : AllSized b.inst) (h : b.modifyItem id f = .ok b') : AllSized b'.inst := by
  obtain ⟨-, t, -, rfl⟩ := modifyItem_ok h; exact hS

theorem sized_addItemType {w h s : Int} {o : Bool} (hS : AllSized b.inst)
    (hs : b.addItemType w h o s = .ok b') : AllSized b'.inst := by
  unfold addItemType at hs
  split_ifs at hs
  cases hs; exact hS

theorem sized_fold {α : Type} {l : List α} {f : InstanceBuilder → α → Except Err InstanceBuilder}
    (hf : ∀ x c d, AllSized c.inst → f c x = .ok d → AllSized d.inst) (hS : AllSized b.inst)
    (h : l.foldlM f b = .ok b') : AllSized b'.inst :=
  foldlM_inv (fun c => AllSized c.inst) hS (fun x c d _ hc hs => hf x c d hc hs) h

theorem sized_addBinTypeFrom {orig : Instance} {i : Nat} (hS : AllSized b.inst)
    (h : b.addBinTypeFrom orig i = .ok b') : AllSized b'.inst := by
  unfold addBinTypeFrom at h
  split_ifs at h
  dsimp only at h
  obtain ⟨b1, h1, h⟩ := bind_ok.mp h
  obtain ⟨b2, h2, h⟩ := bind_ok.mp h
  obtain ⟨b3, h3, h⟩ := bind_ok.mp h
  obtain ⟨b4, h4, h⟩ := bind_ok.mp h
  obtain ⟨b5, h5, h⟩ := bind_ok.mp h
  obtain ⟨b6, h6, h⟩ := bind_ok.mp h
  have e1 : AllSized b1.inst := sized_addBinType hS h1
  have e2 : AllSized b2.inst := by
    refine sized_setBinTypeCost ?_ h2
    exact e1
  have e5 := sized_addTrims (sized_setBinTypeCopiesMin (sized_setBinTypeCopies e2 h3) h4) h5
  exact sized_fold (fun x c d hc hs => sized_addBinTypeResource hc hs)
    (sized_fold (fun x c d hc hs => sized_addDefect hc hs) e5 h6) h

theorem sized_addItemTypeFrom {orig : Instance} {i : Nat} (hS : AllSized b.inst)
    (h : b.addItemTypeFrom orig i = .ok b') : AllSized b'.inst := by
  unfold addItemTypeFrom at h
  split_ifs at h
  dsimp only at h
  obtain ⟨b1, h1, h⟩ := bind_ok.mp h
  obtain ⟨b2, h2, h⟩ := bind_ok.mp h
  obtain ⟨b3, h3, h⟩ := bind_ok.mp h
  have e1 : AllSized b1.inst := sized_addItemType hS h1
  have e2 : AllSized b2.inst := by
    refine sized_modifyItem ?_ h2
    exact e1
  have e3 := sized_modifyItem e2 h3
  unfold copyConsumptions at h
  refine sized_fold (fun x c d hc hs => ?_) e3 h
  split at hs
  · cases hs; exact hc
  · split_ifs at hs
    refine sized_fold (fun y c d hc hs => ?_) hc hs
    dsimp only at hs
    split_ifs at hs
    · cases hs; exact hc
    · exact sized_fold (fun z c d hc hs => sized_addResourceConsumption hc hs) hc hs

theorem sized_setPredefinedOriented {c : Char} (hS : AllSized b.inst)
    (h : b.setPredefinedOriented c = .ok b') : AllSized b'.inst := by
  unfold setPredefinedOriented at h
  split at h <;> first | (cases h; exact hS) | cases h

theorem sized_setPredefined {str : List Char} (hS : AllSized b.inst)
    (h : b.setPredefined str = .ok b') : AllSized b'.inst := by
  unfold setPredefined at h
  split_ifs at h with h1 h2
  · cases h; exact hS
  · exact sized_setPredefinedOriented (b := b.setNumberOfStagesUnlimited) hS h
  · split at h
    · dsimp only at h
      split_ifs at h
      split at h
      · cases h
      · split at h
        · cases h
        · exact sized_setPredefinedOriented
            (b := ((b.setNumberOfStages _).setCutType _).setFirstStageOrientation _) hS h
    · cases h

theorem sized_step {op : BuilderOp} (hop : ¬ ResizesBins op) (hS : AllSized b.inst)
    (h : b.step op = .ok b') : AllSized b'.inst := by
  cases op with
  | setObjective o => cases h; exact hS
  | setCallback f => cases h; exact hS
  | setParameters p => cases h; exact hS
  | setFirstStageOrientation o => cases h; exact hS
  | setMinimumDistance1Cuts n => cases h; exact hS
  | setMaximumDistance1Cuts n => cases h; exact hS
  | setMinimumDistance2Cuts n => cases h; exact hS
  | setMaximumDistance2Cuts n => cases h; exact hS
  | setMinimumWasteLength n => cases h; exact hS
  | setMaximumNumber1Cuts n => cases h; exact hS
  | setMaximumNumber2Cuts n => cases h; exact hS
  | setCutThickness n => cases h; exact hS
  | setWasteCost n => cases h; exact hS
  | setCutThroughDefects c => cases h; exact hS
  | setNumberOfStages n => cases h; exact hS
  | setNumberOfStagesUnlimited => cases h; exact hS
  | setCutType c => cases h; exact hS
  | setRoadef2018 => cases h; exact hS
  | setFixedCuttingCost s c =>
    change b.setFixedCuttingCost s c = _ at h
    unfold setFixedCuttingCost at h
    split_ifs at h
    cases h; exact hS
  | setVariableCuttingCost s c =>
    change b.setVariableCuttingCost s c = _ at h
    unfold setVariableCuttingCost at h
    split_ifs at h
    cases h; exact hS
  | setPredefined str => exact sized_setPredefined hS h
  | addBinType x y => exact sized_addBinType hS h
  | setBinTypeCost i c => exact sized_setBinTypeCost hS h
  | addTrims i tr => exact sized_addTrims hS h
  | addDefect i px py x y => exact sized_addDefect hS h
  | addBinTypeResource i c p q => exact sized_addBinTypeResource hS h
  | addResourceConsumption t r i c q => exact sized_addResourceConsumption hS h
  | setBinTypeCopies i c => exact sized_setBinTypeCopies hS h
  | setBinTypeCopiesMin i c => exact sized_setBinTypeCopiesMin hS h
  | setBinTypesInfiniteX => exact absurd trivial hop
  | setBinTypesInfiniteY => exact absurd trivial hop
  | setBinTypesInfiniteCopies =>
    cases h
    intro t ht
    obtain ⟨u, hu, rfl⟩ := List.mem_map.mp ht
    exact (hS u hu).congr rfl rfl rfl rfl rfl rfl
  | setBinTypesUnweighted =>
    cases h
    intro t ht
    obtain ⟨u, hu, rfl⟩ := List.mem_map.mp ht
    exact (hS u hu).congr rfl rfl rfl rfl rfl rfl
  | addItemType x y o st => exact sized_addItemType hS h
  | setItemTypeProfit i p => exact sized_modifyItem hS (show b.setItemTypeProfit i p = _ from h)
  | setItemTypeCopies i c => exact sized_modifyItem hS (show b.setItemTypeCopies i c = _ from h)
  | setItemTypeCopiesMin i c => exact sized_modifyItem hS (show b.setItemTypeCopiesMin i c = _ from h)
  | setItemTypesUnweighted => cases h; exact hS
  | setItemTypesOriented o => cases h; exact hS
  | setItemTypesInfiniteCopies =>
    change b.setItemTypesInfiniteCopies = _ at h
    unfold setItemTypesInfiniteCopies at h
    split_ifs at h
    cases h; exact hS
  | multiplyItemTypesCopies f => cases h; exact hS
  | addBinTypeFrom o i => exact sized_addBinTypeFrom hS h
  | addItemTypeFrom o i => exact sized_addItemTypeFrom hS h

end PackingSolver.Guil
