import Verif.Lemmas.Guil.InstParams
import Verif.Props.Guil.InstanceBuild
import Verif.Props.Guil.Compare

/-!
# C76: parameters of guillotine instances
-/

namespace PackingSolver.Guil

open InstanceBuilder
open Guil.Spec hiding IsMaxWithZero
open PackingSolver.OneDim (getD_mem)

variable {o : Objective} {ops : List BuilderOp} {inst : Instance} {b b' : InstanceBuilder}

/-! ## Cutting costs -/

/-- **C76**: once the number of stages or the type of cuts has been set, and as long as the
parameters are not replaced as a whole, there is a cutting cost for every depth of cuts, whatever
other calls are made before and after. -/
theorem parameters_costs_partial (hs : ∃ op ∈ ops, SetsStages op)
    (hr : ∀ op ∈ ops, ¬ ReplacesParameters op) (h : ops.foldlM step (new o) = .ok b) :
    requiredCosts b.inst.parameters ≤ b.inst.parameters.cuttingCosts.length :=
  costsOk_ops hs hr h

/-- **C76**: setting the fixed cutting cost of a depth succeeds exactly when the table has that
depth; it is then what is read back, and nothing else changes. -/
theorem parameters_fixed_cost (b : InstanceBuilder) (s c : Int) :
    (0 ≤ s ∧ s < b.inst.parameters.cuttingCosts.length →
      ∃ b', b.setFixedCuttingCost s c = .ok b'
        ∧ b' = { b with inst := { b.inst with parameters := { b.inst.parameters with
            cuttingCosts := b'.inst.parameters.cuttingCosts } } }
        ∧ b'.inst.parameters.cuttingCosts.length = b.inst.parameters.cuttingCosts.length
        ∧ ∀ i : Nat, b'.inst.parameters.cuttingCosts.getD i {} = if (i : Int) = s
            then { b.inst.parameters.cuttingCosts.getD i {} with fixed := c }
            else b.inst.parameters.cuttingCosts.getD i {})
    ∧ (¬ (0 ≤ s ∧ s < b.inst.parameters.cuttingCosts.length) →
      b.setFixedCuttingCost s c = .error .invalidArgument) := by
  unfold setFixedCuttingCost
  constructor
  · rintro ⟨h1, h2⟩
    refine ⟨_, if_neg (by omega), rfl, List.length_modify _ _ _, fun i => ?_⟩
    change (b.inst.parameters.cuttingCosts.modify _ _).getD i {} = _
    by_cases h : (i : Int) = s
    · rw [if_pos h, getD_modify_ite, if_pos ⟨by omega, by omega⟩]
    · rw [if_neg h, getD_modify_ite, if_neg (by omega)]
  · intro h
    rw [if_pos (by omega)]

/-- **C76**: the same for the variable cutting cost of a depth. -/
theorem parameters_variable_cost (b : InstanceBuilder) (s c : Int) :
    (0 ≤ s ∧ s < b.inst.parameters.cuttingCosts.length →
      ∃ b', b.setVariableCuttingCost s c = .ok b'
        ∧ b' = { b with inst := { b.inst with parameters := { b.inst.parameters with
            cuttingCosts := b'.inst.parameters.cuttingCosts } } }
        ∧ b'.inst.parameters.cuttingCosts.length = b.inst.parameters.cuttingCosts.length
        ∧ ∀ i : Nat, b'.inst.parameters.cuttingCosts.getD i {} = if (i : Int) = s
            then { b.inst.parameters.cuttingCosts.getD i {} with perUnit := c }
            else b.inst.parameters.cuttingCosts.getD i {})
    ∧ (¬ (0 ≤ s ∧ s < b.inst.parameters.cuttingCosts.length) →
      b.setVariableCuttingCost s c = .error .invalidArgument) := by
  unfold setVariableCuttingCost
  constructor
  · rintro ⟨h1, h2⟩
    refine ⟨_, if_neg (by omega), rfl, List.length_modify _ _ _, fun i => ?_⟩
    change (b.inst.parameters.cuttingCosts.modify _ _).getD i {} = _
    by_cases h : (i : Int) = s
    · rw [if_pos h, getD_modify_ite, if_pos ⟨by omega, by omega⟩]
    · rw [if_neg h, getD_modify_ite, if_neg (by omega)]
  · intro h
    rw [if_pos (by omega)]

/-- **C76**: changing the number of stages keeps the costs already set and the other parameters. -/
theorem parameters_stages_keep (b : InstanceBuilder) (n : Int) :
    let p := b.inst.parameters
    let q := (b.setNumberOfStages n).inst.parameters
    q = { p with numberOfStages := n, cuttingCosts := q.cuttingCosts }
      ∧ ∀ i, q.cuttingCosts.getD i {} = p.cuttingCosts.getD i {} := by
  obtain ⟨l, hl, hg, -⟩ := resize_fields { b.inst.parameters with numberOfStages := n }
  have e : (b.setNumberOfStages n).inst.parameters
      = { b.inst.parameters with numberOfStages := n, cuttingCosts := l } := hl
  dsimp only
  rw [e]
  exact ⟨rfl, hg⟩

/-- **C76**: so does changing the type of cuts. -/
theorem parameters_cut_type_keep (b : InstanceBuilder) (c : CutType) :
    let p := b.inst.parameters
    let q := (b.setCutType c).inst.parameters
    q = { p with cutType := c, cuttingCosts := q.cuttingCosts }
      ∧ ∀ i, q.cuttingCosts.getD i {} = p.cuttingCosts.getD i {} := by
  obtain ⟨l, hl, hg, -⟩ := resize_fields { b.inst.parameters with cutType := c }
  have e : (b.setCutType c).inst.parameters
      = { b.inst.parameters with cutType := c, cuttingCosts := l } := hl
  dsimp only
  rw [e]
  exact ⟨rfl, hg⟩

/-- **C76**, the full property fails: with the parameters a builder starts with (three stages), no
cutting cost can be set at all. -/
theorem parameters_default_costs (o : Objective) (s c : Int) :
    (new o).inst.parameters.numberOfStages = 3
      ∧ requiredCosts (new o).inst.parameters = 5
      ∧ (new o).setFixedCuttingCost s c = .error .invalidArgument
      ∧ (new o).setVariableCuttingCost s c = .error .invalidArgument := by
  have e : (new o).inst.parameters.cuttingCosts.length = 0 := rfl
  refine ⟨rfl, rfl, ?_, ?_⟩
  · unfold setFixedCuttingCost; rw [if_pos (by rw [e]; omega)]
  · unfold setVariableCuttingCost; rw [if_pos (by rw [e]; omega)]

/-- **C76** with C75: an instance whose stages were set, with at least one stage and no negative
number of item copies, has complete tables: building solutions of it is never undefined. -/
theorem parameters_tables (h : runOps o ops = .ok inst) (hs : ∃ op ∈ ops, SetsStages op)
    (hr : ∀ op ∈ ops, ¬ ReplacesParameters op)
    (hc : ∀ i < inst.numberOfItemTypes, 0 ≤ (inst.itemType i).copies)
    (hst : 0 ≤ inst.parameters.numberOfStages) : TablesOk inst := by
  refine instance_tables_partial h hc fun _ hnil => ?_
  unfold runOps at h
  obtain ⟨b, hb, h⟩ := bind_ok.mp h
  have hC := costsOk_ops hs hr hb
  obtain ⟨⟨-, e, -⟩, -⟩ := instance_preserved hb h
  rw [e] at hst hnil
  unfold CostsOk requiredCosts at hC
  rw [hnil] at hC
  split_ifs at hC <;> simp at hC <;> omega

/-! ## Parameters with their own setters -/

/-- **C76**: whatever calls are made, a parameter with its own setter has the value it was given
last (or the one a builder starts with); no other call changes it. -/
theorem parameters_last_written (h : ops.foldlM step (new o) = .ok b) :
    b.inst.parameters.minimumDistance1Cuts = lastWritten minimumDistance1CutsOf 0 ops
    ∧ b.inst.parameters.maximumDistance1Cuts = lastWritten maximumDistance1CutsOf (-1) ops
    ∧ b.inst.parameters.minimumDistance2Cuts = lastWritten minimumDistance2CutsOf 0 ops
    ∧ b.inst.parameters.maximumDistance2Cuts = lastWritten maximumDistance2CutsOf (-1) ops
    ∧ b.inst.parameters.minimumWasteLength = lastWritten minimumWasteLengthOf 0 ops
    ∧ b.inst.parameters.maximumNumber1Cuts = lastWritten maximumNumber1CutsOf (-1) ops
    ∧ b.inst.parameters.maximumNumber2Cuts = lastWritten maximumNumber2CutsOf (-1) ops
    ∧ b.inst.parameters.cutThroughDefects = lastWritten cutThroughDefectsOf false ops
    ∧ b.inst.parameters.cutThickness = lastWritten cutThicknessOf 0 ops
    ∧ b.inst.parameters.wasteCost = lastWritten wasteCostOf 0 ops := by
  induction ops using List.reverseRecOn generalizing b with
  | nil => cases h; repeat' constructor
  | append_singleton ops op ih =>
    obtain ⟨c, hc, hs⟩ := foldlM_snoc_ok.mp h
    have i := ih hc
    have s := scalar_step hs
    unfold ScalarStep at s
    simp only [lastWritten_snoc]
    simp only [i] at s
    exact s

/-- **C76**: asking for an unlimited number of stages sets as many as the largest sum of the sides of
a bin type, exact cuts and any first orientation; nothing else changes. -/
theorem parameters_unlimited (b : InstanceBuilder) :
    let p := b.inst.parameters
    let q := b.setNumberOfStagesUnlimited.inst.parameters
    q = { p with
      numberOfStages := q.numberOfStages
      cutType := .exact
      firstStageOrientation := .any
      cuttingCosts := q.cuttingCosts }
      ∧ Guil.Spec.IsMaxWithZero (b.inst.binTypes.map fun t => t.w + t.h) q.numberOfStages
      ∧ ∀ i, q.cuttingCosts.getD i {} = p.cuttingCosts.getD i {} := by
  obtain ⟨l, hl, hg, -⟩ := resize_fields { b.inst.parameters with
    numberOfStages := b.inst.binTypes.foldl (fun m t => max m (t.w + t.h)) 0
    cutType := .exact
    firstStageOrientation := .any }
  have e : b.setNumberOfStagesUnlimited.inst.parameters = _ := hl
  dsimp only
  rw [e]
  refine ⟨rfl, ?_, hg⟩
  have := isMaxWithZero_foldl (b.inst.binTypes.map fun t => t.w + t.h)
  rwa [List.foldl_map] at this

/-! ## Predefined parameters -/

theorem predefinedCutType_iff (c : Char) (ct : CutType) : predefinedCutType c = some ct ↔
    (c, ct) ∈ [('R', CutType.roadef2018), ('N', .nonExact), ('E', .exact), ('H', .homogenous)] := by
  simp only [List.mem_cons, Prod.mk.injEq, List.not_mem_nil, or_false]
  unfold predefinedCutType
  split
  · simp [eq_comm]
  · simp [eq_comm]
  · simp [eq_comm]
  · simp [eq_comm]
  · simp_all

theorem predefinedOrientation_iff (c : Char) (o : CutOrientation) :
    predefinedOrientation c = some o ↔
    (c, o) ∈ [('V', CutOrientation.vertical), ('H', .horizontal), ('A', .any)] := by
  simp only [List.mem_cons, Prod.mk.injEq, List.not_mem_nil, or_false]
  unfold predefinedOrientation
  split
  · simp [eq_comm]
  · simp [eq_comm]
  · simp [eq_comm]
  · simp_all

theorem setPredefinedOriented_ok {c : Char} : b.setPredefinedOriented c = .ok b' ↔
    ∃ r, (c, r) ∈ [('R', false), ('O', true)] ∧ b' = b.setItemTypesOriented r := by
  simp only [List.mem_cons, Prod.mk.injEq, List.not_mem_nil, or_false]
  unfold setPredefinedOriented
  split
  · simp [eq_comm]
  · simp [eq_comm]
  · simp_all

/-- What a predefined set of parameters stands for: exactly the stages, the type of cuts, the
orientation of the first cuts and the rotation of items are set; the other parameters, the costs
already set, the bin types and the rest of the item types are kept. -/
def Applies (p : Predefined) (b b' : InstanceBuilder) : Prop :=
  b'.inst.parameters = { b.inst.parameters with
      numberOfStages := p.stages
      cutType := p.cutType
      firstStageOrientation := p.orientation
      cuttingCosts := b'.inst.parameters.cuttingCosts }
    ∧ (∀ i, b'.inst.parameters.cuttingCosts.getD i {} = b.inst.parameters.cuttingCosts.getD i {})
    ∧ requiredCosts b'.inst.parameters ≤ b'.inst.parameters.cuttingCosts.length
    ∧ b'.inst.itemTypes = b.inst.itemTypes.map (fun t => { t with oriented := p.oriented })
    ∧ b'.inst.binTypes = b.inst.binTypes

theorem applies_set (b : InstanceBuilder) (n : Int) (ct : CutType) (o : CutOrientation) (r : Bool) :
    Applies ⟨n, ct, o, r⟩ b ((((b.setNumberOfStages n).setCutType ct).setFirstStageOrientation
      o).setItemTypesOriented r) := by
  obtain ⟨h1, h2⟩ := parameters_stages_keep b n
  obtain ⟨h3, h4⟩ := parameters_cut_type_keep (b.setNumberOfStages n) ct
  have hc := costsOk_setCutType (b.setNumberOfStages n) ct
  generalize hq : ((b.setNumberOfStages n).setCutType ct) = b2 at h3 h4 hc
  have e2 : b2.inst.binTypes = b.inst.binTypes := by rw [← hq]; rfl
  have e3 : b2.inst.itemTypes = b.inst.itemTypes := by rw [← hq]; rfl
  refine ⟨?_, fun i => (h4 i).trans (h2 i), hc, ?_, e2⟩
  · change { b2.inst.parameters with firstStageOrientation := o } = _
    have e : (b.setNumberOfStages n).inst.parameters = { b.inst.parameters with
      numberOfStages := n, cuttingCosts := (b.setNumberOfStages n).inst.parameters.cuttingCosts } :=
      h1
    rw [h3, e]
    rfl
  · change b2.inst.itemTypes.map _ = _
    rw [e3]

/-- **C76**: a name of four characters that does not start with `U` is accepted exactly when each
of its characters has a meaning, and it then has the effect it stands for. -/
theorem parameters_predefined_iff {str : List Char} (hU : str.getD 0 '\x00' ≠ 'U')
    (hR : str ≠ "roadef2018".toList) :
    ((∃ b', b.setPredefined str = .ok b') ↔ ∃ p, Names str p)
    ∧ (∀ p b', Names str p → b.setPredefined str = .ok b' → Applies p b b')
    ∧ ((¬ ∃ p, Names str p) → b.setPredefined str = .error .invalidArgument) := by
  have hR' : str ≠ ['r', 'o', 'a', 'd', 'e', 'f', '2', '0', '1', '8'] := hR
  have key : (∃ p b', Names str p ∧ b.setPredefined str = .ok b' ∧ Applies p b b')
      ∨ ((¬ ∃ p, Names str p) ∧ b.setPredefined str = .error .invalidArgument) := by
    unfold setPredefined
    rw [if_neg hR', if_neg hU]
    split
    · rename_i c0 c1 c2 c3
      dsimp only
      by_cases h0 : (c0.toNat : Int) - 48 ≤ 1
      · rw [if_pos h0]
        refine .inr ⟨?_, rfl⟩
        rintro ⟨p, hp⟩
        cases hp with
        | mk h0' => omega
      rw [if_neg h0]
      cases h1 : predefinedCutType c1 with
      | none =>
        refine .inr ⟨?_, rfl⟩
        rintro ⟨p, hp⟩
        cases hp with
        | mk _ h1' => rw [(predefinedCutType_iff _ _).mpr h1'] at h1; cases h1
      | some ct =>
        cases h2 : predefinedOrientation c2 with
        | none =>
          refine .inr ⟨?_, rfl⟩
          rintro ⟨p, hp⟩
          cases hp with
          | mk _ _ h2' => rw [(predefinedOrientation_iff _ _).mpr h2'] at h2; cases h2
        | some o =>
          dsimp only
          cases h3 : setPredefinedOriented (((b.setNumberOfStages ((c0.toNat : Int) - 48)).setCutType
              ct).setFirstStageOrientation o) c3 with
          | ok b' =>
            obtain ⟨r, hr, rfl⟩ := setPredefinedOriented_ok.mp h3
            exact .inl ⟨⟨(c0.toNat : Int) - 48, ct, o, r⟩, _, .mk (by omega)
              ((predefinedCutType_iff _ _).mp h1) ((predefinedOrientation_iff _ _).mp h2) hr hU,
              rfl, applies_set b _ ct o r⟩
          | error e =>
            refine .inr ⟨?_, ?_⟩
            · rintro ⟨p, hp⟩
              cases hp with
              | mk _ _ _ h3' _ =>
                rw [setPredefinedOriented_ok.mpr ⟨_, h3', rfl⟩] at h3
                cases h3
            · unfold setPredefinedOriented at h3
              split at h3
              · cases h3
              · cases h3
              · cases h3; rfl
    · rename_i hne
      refine .inr ⟨?_, rfl⟩
      rintro ⟨p, hp⟩
      cases hp with
      | mk => exact hne _ _ _ _ rfl
  rcases key with ⟨p, b1, hN, hok, hA⟩ | ⟨hn, he⟩
  · refine ⟨⟨fun _ => ⟨p, hN⟩, fun _ => ⟨b1, hok⟩⟩, fun q b2 hq hok2 => ?_, fun hn => absurd ⟨p, hN⟩ hn⟩
    have e1 : b2 = b1 := by rw [hok] at hok2; cases hok2; rfl
    have e2 : q = p := by
      cases hN with
      | mk _ h1 h2 h3 _ =>
        cases hq with
        | mk _ h1' h2' h3' _ =>
          rw [← predefinedCutType_iff] at h1 h1'
          rw [← predefinedOrientation_iff] at h2 h2'
          rw [h1] at h1'; rw [h2] at h2'
          cases h1'; cases h2'
          congr 1
          simp only [List.mem_cons, Prod.mk.injEq, List.not_mem_nil, or_false] at h3 h3'
          rcases h3 with ⟨rfl, rfl⟩ | ⟨rfl, rfl⟩ <;> rcases h3' with ⟨h, rfl⟩ | ⟨h, rfl⟩ <;>
            first | rfl | (revert h; decide)
    rw [e1, e2]; exact hA
  · refine ⟨⟨fun ⟨b1, h1⟩ => ?_, fun h => absurd h hn⟩, fun p _ hp => absurd ⟨p, hp⟩ hn, fun _ => he⟩
    rw [he] at h1; cases h1

/-- **C76**: the name of the ROADEF/EURO challenge 2018 sets its parameters. -/
theorem parameters_roadef2018 (b : InstanceBuilder) :
    ∃ b', b.setPredefined "roadef2018".toList = .ok b'
      ∧ b'.inst.parameters = { b.inst.parameters with
          numberOfStages := 3
          cutType := .roadef2018
          firstStageOrientation := .vertical
          minimumDistance1Cuts := 100
          maximumDistance1Cuts := 3500
          minimumDistance2Cuts := 100
          minimumWasteLength := 20
          cutThroughDefects := false
          cuttingCosts := b'.inst.parameters.cuttingCosts }
      ∧ 5 ≤ b'.inst.parameters.cuttingCosts.length := by
  refine ⟨b.setRoadef2018, if_pos rfl, ?_, ?_⟩
  · obtain ⟨l, hl, -⟩ := resize_fields { b.inst.parameters with
      numberOfStages := 3
      cutType := .roadef2018
      firstStageOrientation := .vertical
      minimumDistance1Cuts := 100
      maximumDistance1Cuts := 3500
      minimumDistance2Cuts := 100
      minimumWasteLength := 20
      cutThroughDefects := false }
    have e : b.setRoadef2018.inst.parameters = _ := hl
    rw [e]
  · have h : CostsOk b.setRoadef2018.inst.parameters := resize_ok _
    unfold CostsOk requiredCosts at h
    have e1 : b.setRoadef2018.inst.parameters.numberOfStages = 3 := by
      obtain ⟨l, hl, -⟩ := resize_fields { b.inst.parameters with
        numberOfStages := 3
        cutType := .roadef2018
        firstStageOrientation := .vertical
        minimumDistance1Cuts := 100
        maximumDistance1Cuts := 3500
        minimumDistance2Cuts := 100
        minimumWasteLength := 20
        cutThroughDefects := false }
      have e : b.setRoadef2018.inst.parameters = _ := hl
      rw [e]
    have e2 : b.setRoadef2018.inst.parameters.cutType = .roadef2018 := by
      obtain ⟨l, hl, -⟩ := resize_fields { b.inst.parameters with
        numberOfStages := 3
        cutType := .roadef2018
        firstStageOrientation := .vertical
        minimumDistance1Cuts := 100
        maximumDistance1Cuts := 3500
        minimumDistance2Cuts := 100
        minimumWasteLength := 20
        cutThroughDefects := false }
      have e : b.setRoadef2018.inst.parameters = _ := hl
      rw [e]
    rw [e1, e2, if_pos (.inr rfl)] at h
    omega

/-- **C76**, what names do not guarantee: a name that starts with `U` is accepted whatever follows
its second character. -/
theorem parameters_unlimited_garbage (b : InstanceBuilder) (rest : List Char) :
    ∃ b', b.setPredefined ('U' :: 'R' :: rest) = .ok b' :=
  ⟨_, by
    unfold setPredefined
    rw [if_neg (by intro h; cases h), if_pos (by rfl)]
    rfl⟩

/-- **C76**, what names do not guarantee: the first character need not be a digit; the name `zNVR`
sets 74 stages. -/
theorem parameters_stages_not_a_digit (b : InstanceBuilder) :
    ∃ b', b.setPredefined "zNVR".toList = .ok b' ∧ b'.inst.parameters.numberOfStages = 74 := by
  have hU : "zNVR".toList.getD 0 '\x00' ≠ 'U' := by decide
  have hR : "zNVR".toList ≠ "roadef2018".toList := by decide
  have hN : Names "zNVR".toList ⟨74, .nonExact, .vertical, false⟩ :=
    .mk (c0 := 'z') (c1 := 'N') (c2 := 'V') (c3 := 'R') (by decide) (by decide) (by decide)
      (by decide) (by decide)
  obtain ⟨h1, h2, -⟩ := parameters_predefined_iff (b := b) hU hR
  obtain ⟨b', hb'⟩ := h1.mpr ⟨_, hN⟩
  refine ⟨b', hb', ?_⟩
  rw [(h2 _ _ hN hb').1]

/-! ## Trims -/

/-- **C76**: in every built instance the trims are not negative and leave something of each bin
type, if the sides of existing bin types were not changed by `set_bin_types_infinite_x` or
`set_bin_types_infinite_y`. -/
theorem parameters_trims_partial (h : runOps o ops = .ok inst)
    (hr : ∀ op ∈ ops, ¬ ResizesBins op) : ∀ t < inst.numberOfBinTypes, Sized (inst.binType t) := by
  intro t ht
  unfold runOps at h
  obtain ⟨b, hb, h⟩ := bind_ok.mp h
  have hS : AllSized b.inst := foldlM_inv (fun c => AllSized c.inst) (fun _ ht => by cases ht)
    (fun x c d hx hc hs => sized_step (hr x hx) hc hs) hb
  obtain ⟨-, -, -, hn, hbin⟩ := instance_preserved hb h
  rw [hbin t ht]
  rw [hn] at ht
  exact (hS _ (getD_mem _ ht)).congr rfl rfl rfl rfl rfl rfl

/-- A history that resizes the bins after the trims were set, all items being small. -/
def exInfinite : List BuilderOp :=
  [.setNumberOfStages 2, .addBinType 10 10, .addTrims 0 ⟨5, .hard, 0, .hard, 0, .hard, 0, .hard⟩,
    .addItemType 2 2 false (-1), .setBinTypesInfiniteX]

/-- **C76**, the full property fails: after `set_bin_types_infinite_x` the trims may exceed the
bin. -/
theorem parameters_infinite_trims : ∃ inst, runOps .binPacking exInfinite = .ok inst
    ∧ inst.numberOfBinTypes = 1 ∧ ¬ Sized (inst.binType 0) := by
  refine ⟨_, rfl, by decide +kernel, fun h => ?_⟩
  exact absurd h.width (by decide +kernel)

/-! ## Concrete cases -/

/-- A history meeting the hypotheses of the theorems above. -/
def exParameters : List BuilderOp :=
  [.setPredefined "3NVO".toList, .addBinType 10 8,
    .addTrims 0 ⟨1, .hard, 2, .soft, 1, .hard, 0, .soft⟩,
    .addItemType 3 2 false (-1), .setFixedCuttingCost 4 7, .setVariableCuttingCost 0 2]

example : (∃ op ∈ exParameters, SetsStages op) ∧ (∀ op ∈ exParameters, ¬ ReplacesParameters op)
    ∧ ∀ op ∈ exParameters, ¬ ResizesBins op := by
  refine ⟨⟨.setPredefined "3NVO".toList, List.mem_cons_self, trivial⟩, ?_, ?_⟩ <;>
    simp [exParameters, ReplacesParameters, ResizesBins]

example : ∃ inst, runOps .binPackingCuttingCost exParameters = .ok inst
    ∧ inst.parameters.numberOfStages = 3 ∧ inst.parameters.cuttingCosts.length = 5
    ∧ (inst.parameters.cuttingCosts.getD 4 {}).fixed = 7 := by
  refine ⟨_, rfl, ?_⟩
  decide +kernel

example : ∃ b, ([.setWasteCost 2, .setMinimumDistance2Cuts 7, .setPredefined "roadef2018".toList,
      .setMaximumNumber1Cuts 4, .setWasteCost 3, .addBinType 10 8, .setNumberOfStagesUnlimited] :
      List BuilderOp).foldlM step (new .knapsack) = .ok b
    ∧ [b.inst.parameters.wasteCost, b.inst.parameters.minimumDistance2Cuts,
        b.inst.parameters.maximumNumber1Cuts, b.inst.parameters.numberOfStages] = [3, 100, 4, 18] :=
  ⟨_, rfl, by decide +kernel⟩

example : Names "3NVO".toList ⟨3, .nonExact, .vertical, true⟩ :=
  .mk (c0 := '3') (c1 := 'N') (c2 := 'V') (c3 := 'O') (by decide) (by decide) (by decide)
    (by decide) (by decide)

end PackingSolver.Guil
