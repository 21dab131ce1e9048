import Verif.Props.Rect.TreeSearch
import Verif.Lemmas.Rect.TreeRun

/-!
# Rectangle tree search: concrete cases and counterexamples (C55–C58)
-/

namespace PackingSolver.Rect.TreeSearch

open Rect.Spec

namespace Ex

/-- Two bins 10 × 6 with a defect, a maximum weight and a hard resource; three items that may be
rotated and two oriented ones. -/
def ops : List InstanceBuilder.Op :=
  [.setObjective .binPacking, .addBinType 10 6, .setBinTypeCopies 0 2, .addDefect 0 3 3 1 1,
   .setBinTypeMaximumWeight 0 (.fin 20), .addBinTypeResource 0 6 false 0,
   .addItemType 4 2 false, .setItemTypeCopies 0 3, .setItemTypeWeight 0 4,
   .addItemType 3 5 true, .setItemTypeCopies 1 2, .setItemTypeWeight 1 1,
   .addResourceConsumption 0 0 0 0 2]

def params : Parameters := { direction := .y }
def choices : List Nat := [1, 0, 0, 0, 0]

theorem capacities : CapacitiesNonneg (instOf ops) := by
  have : ∀ b ∈ (instOf ops).binTypes, ∀ r ∈ b.resources, 0 ≤ r.capacity := by decide +kernel
  exact fun b hb r hr => this b hb r hr

theorem consumptions : ConsumptionsNonneg (instOf ops) := by
  have : ∀ b ∈ (instOf ops).binTypes, ∀ r ∈ b.resources, ∀ l ∈ r.itemConsumptions, ∀ q ∈ l, 0 ≤ q := by
    decide +kernel
  exact this

theorem defectsReach : DefectsReach (instOf ops) := by
  have : ∀ b ∈ (instOf ops).binTypes, ∀ d ∈ b.defects, 0 ≤ d.posX + d.x ∧ 0 ≤ d.posY + d.y := by
    decide +kernel
  exact this

theorem copiesDefinite : CopiesDefinite (instOf ops) := by
  have : ∀ t ∈ (instOf ops).itemTypes, t.copies ≠ -1 := by decide +kernel
  exact this

end Ex

open Ex in
/-- The hypotheses of C55–C58 are met by a leaf with two bins, in direction Y, where the defect is
avoided and an item is rotated. -/
example : InstanceBuilder.runOps ops = .ok (instOf ops)
    ∧ Scheme.new (instOf ops) params id = .ok (schemeOf ops params)
    ∧ CapacitiesNonneg (instOf ops) ∧ DefectsReach (instOf ops) ∧ CopiesDefinite (instOf ops)
    ∧ Compatible params.direction (instOf ops).parameters.unloadingConstraint
    ∧ Reached (schemeOf ops params) (nodeOf (schemeOf ops params) choices)
    ∧ leaf (schemeOf ops params) (nodeOf (schemeOf ops params) choices) = true
    ∧ (packingOf (solOf (schemeOf ops params) (nodeOf (schemeOf ops params) choices))).map
        (fun b => b.items)
      = [[⟨0, 0, 0, true⟩, ⟨0, 0, 4, false⟩, ⟨0, 4, 0, true⟩, ⟨1, 6, 0, false⟩],
         [⟨1, 0, 0, false⟩]] :=
  have h := runs_ok (ops := ops) (p := params) (cs := choices) (by decide +kernel)
  ⟨h.1, h.2.1, capacities, defectsReach, copiesDefinite, Or.inl (by decide +kernel), h.2.2.1,
    by decide +kernel, by decide +kernel⟩

open Ex in
/-- The hypothesis of the profit in C58 is met there too. -/
example : ConsumptionsNonneg (instOf ops) := consumptions

/-! ## Eligibility is lost in direction Y -/

namespace ExEligible

def ops : List InstanceBuilder.Op :=
  [.setObjective .knapsack, .addBinType 10 10, .addItemType 6 6 true, .setItemTypeEligibility 0 3]

end ExEligible

open ExEligible in
/-- In direction Y, the search packs an item in a bin it is not eligible for (the flipped instance
has no eligibility). -/
theorem ineligible_item_packed : ∃ (ops : List InstanceBuilder.Op) (inst : Instance) (s : Scheme)
    (n : Node) (sol : Solution), InstanceBuilder.runOps ops = .ok inst
    ∧ Direction.y ∈ directions inst ∧ Scheme.new inst { direction := .y } id = .ok s
    ∧ Reached s n ∧ toSolution s n = .ok sol
    ∧ ¬ ∀ b ∈ packingOf sol, ∀ p ∈ b.items, EligibleIn inst p.itemTypeId b.binTypeId := by
  have h := runs_ok (ops := ops) (p := { direction := .y }) (cs := [0]) (by decide +kernel)
  refine ⟨ops, _, _, _, _, h.1, by decide +kernel, h.2.1, h.2.2.1, h.2.2.2, fun hall => ?_⟩
  have e : packingOf (solOf (schemeOf ops { direction := .y })
      (nodeOf (schemeOf ops { direction := .y }) [0])) = [⟨0, 1, [⟨0, 0, 0, false⟩]⟩] := by
    decide +kernel
  rw [e] at hall
  have := hall _ (List.mem_singleton.mpr rfl) _ (List.mem_singleton.mpr rfl)
  revert this
  unfold EligibleIn
  decide +kernel

/-! ## The increasing constraints and defects -/

namespace ExIncreasing

/-- The second group must start no further to the right than the first, and a defect lies above
the first item. -/
def ops : List InstanceBuilder.Op :=
  [.setObjective .knapsack, .setParameters { unloadingConstraint := .increasingX },
   .addBinType 10 10, .addDefect 0 0 5 1 1, .addItemType 2 5 true, .addItemType 3 5 true,
   .setItemTypeGroup 1 1]

end ExIncreasing

open ExIncreasing in
/-- With a defect, the search breaks the constraint `IncreasingX`: it checks the position of the
item before moving it to the right of the defect. -/
theorem increasingX_broken : ∃ (ops : List InstanceBuilder.Op) (inst : Instance) (s : Scheme)
    (n : Node) (sol : Solution), InstanceBuilder.runOps ops = .ok inst
    ∧ directions inst = [.x] ∧ Scheme.new inst { direction := .x } id = .ok s
    ∧ Reached s n ∧ toSolution s n = .ok sol
    ∧ inst.parameters.unloadingConstraint = .increasingX
    ∧ ¬ ∀ b ∈ packingOf sol, UnloadingOk .increasingX inst b.items := by
  have h := runs_ok (ops := ops) (p := { direction := .x }) (cs := [0, 0]) (by decide +kernel)
  refine ⟨ops, _, _, _, _, h.1, by decide +kernel, h.2.1, h.2.2.1, h.2.2.2, by decide +kernel,
    fun hall => ?_⟩
  have e : packingOf (solOf (schemeOf ops { direction := .x })
      (nodeOf (schemeOf ops { direction := .x }) [0, 0]))
      = [⟨0, 1, [⟨0, 0, 0, false⟩, ⟨1, 1, 5, false⟩]⟩] := by
    decide +kernel
  rw [e] at hall
  have h1 := hall _ (List.mem_singleton.mpr rfl)
  have h2 := h1 ⟨0, 0, 0, false⟩ (by simp) ⟨1, 1, 5, false⟩ (by simp) (by decide +kernel)
  revert h2
  decide +kernel

/-! ## Exceptions -/

namespace ExOpen

def ops : List InstanceBuilder.Op :=
  [.setObjective .openDimensionX, .setParameters { unloadingConstraint := .onlyYMovements },
   .addBinType 10 10, .addItemType 2 5 true]

end ExOpen

open ExOpen in
/-- With the objective `OpenDimensionX` and an unloading constraint along the y axis, the search
throws in its very first node. -/
theorem openDimension_throws : ∃ (ops : List InstanceBuilder.Op) (inst : Instance) (s : Scheme),
    InstanceBuilder.runOps ops = .ok inst
    ∧ directions inst = [.x] ∧ Scheme.new inst { direction := .x } id = .ok s
    ∧ insertions s s.rootNode = .error .logicError := by
  have h := runs_ok (ops := ops) (p := { direction := .x }) (cs := []) (by decide +kernel)
  exact ⟨ops, _, _, h.1, by decide +kernel, h.2.1, by decide +kernel⟩

/-! ## Fixed items -/

namespace ExFixed

/-- A hard resource of which the second item consumes more than there is. -/
def ops : List InstanceBuilder.Op :=
  [.setObjective .knapsack, .addBinType 10 10, .addBinTypeResource 0 1 false 0,
   .addItemType 4 4 true, .setItemTypeCopies 0 2, .addItemType 2 2 true,
   .addResourceConsumption 0 0 1 0 2]

def fixedOps : List BuilderOp := [.addBin 0 1, .addItem 0 0 0 0 false, .addItem 0 0 6 6 false]

def fixed : Solution := PackingSolver.OneDim.Examples.okD {} (SolutionBuilder.runOps (instOf ops) fixedOps)

def params : Parameters := { fixedItems := some fixed }

end ExFixed

open ExFixed in
/-- Next to fixed items, the search offers an item that exceeds the capacity of a hard resource:
the solution it exports is infeasible, although the fixed solution is feasible. -/
theorem fixed_items_break_resource : ∃ (ops : List InstanceBuilder.Op) (inst : Instance)
    (f : Solution) (s : Scheme) (n : Node) (sol : Solution),
    InstanceBuilder.runOps ops = .ok inst ∧ Reachable inst f ∧ f.feasible = true
    ∧ Scheme.new inst { fixedItems := some f } id = .ok s
    ∧ Reached s n ∧ toSolution s n = .ok sol ∧ sol.feasible = false := by
  have h := runs_ok (ops := ops) (p := params) (cs := [0]) (by decide +kernel)
  exact ⟨ops, _, fixed, _, _, _, h.1, .built fixedOps _ (eq_ok_okD (by decide +kernel)),
    by decide +kernel, h.2.1, h.2.2.1, h.2.2.2, by decide +kernel⟩

end PackingSolver.Rect.TreeSearch
