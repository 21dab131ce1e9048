import Verif.Props.Box.TreeSearch
import Verif.Lemmas.Box.TreeRun

/-!
# Box tree search: concrete cases and counterexamples (C96–C98)
-/

namespace PackingSolver.Box.TreeSearch

open Box.Spec
open PackingSolver.OneDim.Examples (okD)

namespace Ex

/-- Two bins 10 × 6 × 5 with a maximum weight and a hard resource; three items that may be turned
around and two oriented ones. -/
def ops : List InstanceBuilder.Op :=
  [.setObjective .binPacking, .addBinType 10 6 5, .setBinTypeCopies 0 2,
   .setBinTypeMaximumWeight 0 (.fin 20), .addBinTypeResource 0 6 false 0,
   .addItemType 4 2 5, .addItemTypeRotation 0 .xyz, .addItemTypeRotation 0 .yxz,
   .setItemTypeCopies 0 3, .setItemTypeWeight 0 4,
   .addItemType 3 5 4, .setItemTypeCopies 1 2, .setItemTypeWeight 1 1,
   .addResourceConsumption 0 0 0 0 2]

def params : Parameters := { direction := .x }
def choices : List Nat := [1, 0, 0, 0, 0]

theorem capacities : CapacitiesNonneg (instOf ops) := by
  have : ∀ b ∈ (instOf ops).binTypes, ∀ r ∈ b.resources, 0 ≤ r.capacity := by decide +kernel
  exact fun b hb r hr => this b hb r hr

theorem consumptions : ConsumptionsNonneg (instOf ops) := by
  have : ∀ b ∈ (instOf ops).binTypes, ∀ r ∈ b.resources, ∀ l ∈ r.itemConsumptions, ∀ q ∈ l, 0 ≤ q := by
    decide +kernel
  exact this

theorem copiesDefinite : CopiesDefinite (instOf ops) := by
  have : ∀ t ∈ (instOf ops).itemTypes, t.copies ≠ -1 := by decide +kernel
  exact this

end Ex

open Ex in
/-- The hypotheses of C96–C98 are met by a leaf with two bins, where an item is turned and the resource
is used up. -/
example : InstanceBuilder.runOps .default ops = .ok (instOf ops)
    ∧ Scheme.new .default (instOf ops) params = .ok (schemeOf ops params)
    ∧ CapacitiesNonneg (instOf ops) ∧ CopiesDefinite (instOf ops) ∧ ConsumptionsNonneg (instOf ops)
    ∧ Reached (schemeOf ops params) (nodeOf (schemeOf ops params) choices)
    ∧ leaf (schemeOf ops params) (nodeOf (schemeOf ops params) choices) = true
    ∧ (packingOf (solOf (schemeOf ops params) (nodeOf (schemeOf ops params) choices))).map
        (fun b => b.items)
      = [[⟨0, 0, 0, 0, .yxz⟩, ⟨0, 2, 0, 0, .xyz⟩, ⟨0, 6, 0, 0, .xyz⟩],
         [⟨1, 0, 0, 0, .xyz⟩, ⟨1, 3, 0, 0, .xyz⟩]] :=
  have h := runs_ok (ops := ops) (p := params) (cs := choices) (by decide +kernel)
  ⟨h.1, h.2.1, capacities, copiesDefinite, consumptions, h.2.2.1, by decide +kernel, by decide +kernel⟩

namespace ExZ

def ops : List InstanceBuilder.Op :=
  [.setObjective .binPackingWithLeftovers, .addBinType 8 6 9, .setBinTypeCopies 0 2,
   .addItemType 4 2 5, .addItemTypeRotation 0 .xyz, .addItemTypeRotation 0 .zyx,
   .setItemTypeCopies 0 4, .addItemType 3 5 4]

def params : Parameters := { direction := .z }
def choices : List Nat := [1, 0, 3, 2, 0]

end ExZ

open ExZ in
/-- Along z, without resources: the bin is filled from the bottom to the top. -/
example : InstanceBuilder.runOps .default ops = .ok (instOf ops)
    ∧ Scheme.new .default (instOf ops) params = .ok (schemeOf ops params)
    ∧ CapacitiesNonneg (instOf ops) ∧ CopiesDefinite (instOf ops) ∧ NoResources (instOf ops)
    ∧ Reached (schemeOf ops params) (nodeOf (schemeOf ops params) choices)
    ∧ leaf (schemeOf ops params) (nodeOf (schemeOf ops params) choices) = true
    ∧ (nodeOf (schemeOf ops params) choices).xeMax
      = (solOf (schemeOf ops params) (nodeOf (schemeOf ops params) choices)).zMax := by
  have h := runs_ok (ops := ops) (p := params) (cs := choices) (by decide +kernel)
  have hno : NoResources (instOf ops) := by
    have : ∀ b ∈ (instOf ops).binTypes, b.resources.length = 0 := by decide +kernel
    exact fun b hb => List.eq_nil_of_length_eq_zero (this b hb)
  refine ⟨h.1, h.2.1, (no_resources_nonneg hno).1, ?_, hno, h.2.2.1, by decide +kernel,
    by decide +kernel⟩
  have : ∀ t ∈ (instOf ops).itemTypes, t.copies ≠ -1 := by decide +kernel
  exact this

/-! ## Resources are ignored in the directions Y and Z -/

namespace ExResource

/-- Each of the two items uses up the resource of a bin. -/
def ops : List InstanceBuilder.Op :=
  [.setObjective .binPacking, .addBinType 10 10 10, .setBinTypeCopies 0 2,
   .addBinTypeResource 0 2 false 0, .addItemType 4 2 2, .setItemTypeCopies 0 2,
   .addResourceConsumption 0 0 0 0 2]

end ExResource

open ExResource in
/-- **C96**, negation: in direction Y, which the driver tries, the search exceeds a hard resource: it
finds a leaf whose solution is infeasible, and then drops all the rest of its tree.  The driver takes
the infeasible result of an exhausted search as a proof that the instance is infeasible, although
direction X yields a feasible solution with all items. -/
theorem resource_exceeded : ∃ (ops : List InstanceBuilder.Op) (inst : Instance) (sy sx : Scheme)
    (ny nx : Node) (soly solx : Solution), InstanceBuilder.runOps .default ops = .ok inst
    ∧ directions inst = [.x, .y, .z] ∧ Scheme.new .default inst { direction := .y } = .ok sy
    ∧ Reached sy ny ∧ toSolution sy ny = .ok soly ∧ leaf sy ny = true
    ∧ bound sy sy.rootNode ny = .ok true ∧ soly.feasible = false
    ∧ ¬ (∀ b ∈ packingOf soly, ResourcesRespected inst b.binTypeId b.items)
    ∧ Scheme.new .default inst { direction := .x } = .ok sx ∧ Reached sx nx
    ∧ toSolution sx nx = .ok solx ∧ leaf sx nx = true ∧ solx.feasible = true := by
  have h := runs_ok (ops := ops) (p := { direction := .y }) (cs := [0, 0]) (by decide +kernel)
  have h' := runs_ok (ops := ops) (p := { direction := .x }) (cs := [0, 0]) (by decide +kernel)
  refine ⟨ops, _, _, _, _, _, _, _, h.1, by decide +kernel, h.2.1, h.2.2.1, h.2.2.2,
    by decide +kernel, by decide +kernel, by decide +kernel, fun hall => ?_, h'.2.1, h'.2.2.1,
    h'.2.2.2, by decide +kernel, by decide +kernel⟩
  have e : packingOf (solOf (schemeOf ops { direction := .y })
      (nodeOf (schemeOf ops { direction := .y }) [0, 0]))
      = [⟨0, 1, [⟨0, 0, 0, 0, .xyz⟩, ⟨0, 0, 2, 0, .xyz⟩]⟩] := by
    decide +kernel
  rw [e] at hall
  have h2 := hall _ (List.mem_singleton.mpr rfl) (((instOf ops).binType 0).resources.getD 0 {})
    (by decide +kernel) (by decide +kernel) _ (List.prefix_refl _)
  revert h2
  decide +kernel

namespace ExPenalty

def ops : List InstanceBuilder.Op :=
  [.setObjective .knapsack, .addBinType 10 10 10, .addBinTypeResource 0 1 true 100,
   .addItemType 4 2 2, .setItemTypeProfit 0 7, .addResourceConsumption 0 0 0 0 2]

end ExPenalty

open ExPenalty in
/-- **C98**, negation: in direction Y the profit of a node leaves out the penalties: the search
prefers a node of profit 7 to the root, although its solution is worth -93. -/
theorem penalties_forgotten : ∃ (ops : List InstanceBuilder.Op) (inst : Instance) (s : Scheme)
    (n : Node) (sol : Solution), InstanceBuilder.runOps .default ops = .ok inst
    ∧ Direction.y ∈ directions inst ∧ Scheme.new .default inst { direction := .y } = .ok s
    ∧ Reached s n ∧ toSolution s n = .ok sol ∧ n.profit = 7 ∧ sol.itemProfit = -93
    ∧ better s n s.rootNode = .ok true := by
  have h := runs_ok (ops := ops) (p := { direction := .y }) (cs := [0]) (by decide +kernel)
  exact ⟨ops, _, _, _, _, h.1, by decide +kernel, h.2.1, h.2.2.1, h.2.2.2, by decide +kernel,
    by decide +kernel, by decide +kernel⟩

/-! ## Exceptions -/

/-- **C97**, negation: for the objective `OpenDimensionZ` the driver chooses direction Z, but no two
nodes can be compared: `better` throws, whatever the nodes. -/
theorem openDimensionZ_throws : ∃ (ops : List InstanceBuilder.Op) (inst : Instance) (s : Scheme),
    InstanceBuilder.runOps .default ops = .ok inst ∧ inst.objective = .openDimensionZ
    ∧ directions inst = [.z] ∧ Scheme.new .default inst { direction := .z } = .ok s
    ∧ ∀ n1 n2, better s n1 n2 = .error .logicError := by
  let ops : List InstanceBuilder.Op :=
    [.setObjective .openDimensionZ, .addBinType 10 10 10, .addItemType 4 2 2]
  have h := runs_ok (ops := ops) (p := { direction := .z }) (cs := []) (by decide +kernel)
  have ho : (schemeOf ops { direction := .z }).inst.objective = .openDimensionZ := by decide +kernel
  refine ⟨ops, _, _, h.1, by decide +kernel, by decide +kernel, h.2.1, fun n1 n2 => ?_⟩
  unfold better
  rw [ho]

/-- **C97**, negation: the instance builder accepts an instance with an open z dimension and two bins,
for which the branching scheme cannot even be constructed. -/
theorem constructor_throws : ∃ (ops : List InstanceBuilder.Op) (inst : Instance),
    InstanceBuilder.runOps .default ops = .ok inst
    ∧ ∀ o params, isOk (Scheme.new o inst params) = false := by
  let ops : List InstanceBuilder.Op :=
    [.setObjective .openDimensionZ, .addBinType 10 10 10, .setBinTypeCopies 0 2,
      .addItemType 4 2 2]
  refine ⟨ops, instOf ops, eq_ok_okD (by decide +kernel), fun o params => ?_⟩
  have h : isOk (Flipper.flip o (instOf ops) .y) = false := by cases o <;> decide +kernel
  unfold Scheme.new
  cases hf : Flipper.flip o (instOf ops) .y with
  | ok f => rw [hf] at h; cases h
  | error e => rfl

/-! ## Items that are never offered -/

namespace ExPredecessor

/-- Two item types of the same shape: the first is worth more but can never be packed. -/
def ops : List InstanceBuilder.Op :=
  [.setObjective .knapsack, .addBinType 10 10 10, .addBinTypeResource 0 1 false 0,
   .addItemType 4 2 2, .setItemTypeProfit 0 2, .addResourceConsumption 0 0 0 0 5,
   .addItemType 4 2 2, .setItemTypeProfit 1 1]

def solOps : List BuilderOp := [.addBin 0 1, .addItem 0 1 0 0 0 .xyz]

end ExPredecessor

open ExPredecessor in
/-- **C97**, negation: an item type is offered only once all copies of every item type of the same
shape with at least its profit and at most its weight are packed, whatever their resources.  Here no
item is ever offered: the exhausted search yields the empty solution, whose profit 0 the driver
publishes as the knapsack bound, although an item of profit 1 fits. -/
theorem predecessor_blocks : ∃ (ops : List InstanceBuilder.Op) (inst : Instance) (s : Scheme)
    (solOps : List BuilderOp) (better : Solution),
    InstanceBuilder.runOps .default ops = .ok inst ∧ Direction.x ∈ directions inst
    ∧ Scheme.new .default inst { direction := .x } = .ok s
    ∧ (∀ n, Reached s n → n = s.rootNode)
    ∧ SolutionBuilder.runOps inst solOps = .ok better ∧ better.feasible = true
    ∧ better.itemProfit = 1 ∧ s.rootNode.profit = 0 := by
  have h := runs_ok (ops := ops) (p := { direction := .x }) (cs := []) (by decide +kernel)
  refine ⟨ops, _, _, solOps, okD {} (SolutionBuilder.runOps (instOf ops) solOps), h.1,
    by decide +kernel, h.2.1, fun n hn => ?_, eq_ok_okD (by decide +kernel), by decide +kernel,
    by decide +kernel, by decide +kernel⟩
  have h0 : insertions (schemeOf ops { direction := .x }) (schemeOf ops { direction := .x }).rootNode
      = .ok [] := by decide +kernel
  induction hn with
  | root => rfl
  | child _ hl hi _ ih => rw [ih, h0] at hl; cases hl; cases hi

end PackingSolver.Box.TreeSearch
