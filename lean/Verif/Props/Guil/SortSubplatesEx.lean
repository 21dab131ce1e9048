import Verif.Props.Guil.SortSubplates

/-!
# The subplates of guillotine solutions sorted afterwards: examples

Property C119.
-/

namespace PackingSolver.Guil

open Guil.Spec
open PostProcess SortSubplates

namespace SortSubplatesEx

/-- Two items of 3 × 2 and 2 × 4 for a bin of 10 × 4 with a trim of 1 on the left; the cuts have a
thickness of 1.  The items are of the same stack if `stack` is 0. -/
def inst (defects : List Defect) (stack : Int) : Instance :=
  { objective := .knapsack
    parameters := { cutThickness := 1, numberOfStages := 3 }
    itemTypes := [{ w := 3, h := 2, profit := 1, copies := 1, copiesMin := 0, oriented := true, stackId := 0, resourceIds := [[]] }, { w := 2, h := 4, profit := 1, copies := 1, copiesMin := 0, oriented := true, stackId := stack, stackPos := 1 - stack, resourceIds := [[]] }]
    binTypes := [{ w := 10, h := 4, leftTrim := 1, leftTrimType := .hard, defects := defects }]
    stackOffsets := if stack = 0 then [0, 2] else [0, 1, 2]
    itemTypeIds := [0, 1]
    binTypeIds := [0]
    previousBinsArea := [0]
    numberOfItems := 2 }

/-- A strip with the first item and waste above it, then the second item. -/
def ops : List Op :=
  [.addBin 0 1 .vertical, .addNode 1 4, .addNode 2 2, .setItem 0, .addNode 1 7, .setItem 1]

/-- The solution of these calls. -/
def sol (i : Instance) : Solution :=
  match (SolutionBuilder.new i).runOrThrow i ops >>= fun sb => sb.build i with
  | .ok s => s
  | .error _ => {}

/-- The solution with its subplates sorted. -/
def sorted (i : Instance) : Solution :=
  match sortSubplates i defaultCriteria (sol i) with
  | .ok s => s
  | .error _ => {}

theorem built : (SolutionBuilder.new (inst [] 1)).runOrThrow (inst [] 1) ops
    >>= (fun sb => sb.build (inst [] 1)) = .ok (sol (inst [] 1)) := by decide +kernel

theorem composed : Composed (inst [] 1) (sol (inst [] 1)) := by
  obtain ⟨sb, h1, h2⟩ := bind_ok.mp built
  exact .built h1 h2

/-- The hypotheses of `sort_keeps_items`, `sort_composed` and `sort_returns_partial`. -/
example : 0 ≤ (inst [] 1).parameters.cutThickness ∧ (∀ bt ∈ (inst [] 1).binTypes, Sized bt)
    ∧ TablesOk (inst [] 1) ∧ (inst [] 1).parameters.minimumWasteLength ≤ 1
    ∧ Composed (inst [] 1) (sol (inst [] 1))
    ∧ (∀ bin ∈ (sol (inst [] 1)).bins, bin.firstCutOrientation ≠ .any)
    ∧ (∀ bin ∈ (sol (inst [] 1)).bins, ItemsCutOut bin)
    ∧ sortSubplates (inst [] 1) defaultCriteria (sol (inst [] 1)) = .ok (sorted (inst [] 1)) := by
  refine ⟨by decide, ?_, ⟨by decide, by decide, by decide, by decide⟩, by decide, composed,
    by decide +kernel, by unfold ItemsCutOut; decide +kernel, by decide +kernel⟩
  intro bt hbt
  rw [List.mem_singleton.mp hbt]
  exact ⟨by decide, by decide, by decide, by decide, by decide, by decide⟩

/-- The hypotheses of `sort_order`: the part of the bin inside its trim has two parts with content,
and the second of them is worth more. -/
example : (∀ bt ∈ (inst [] 1).binTypes, bt.w * bt.h < 2 ^ 63)
    ∧ (sol (inst [] 1)).bins.map (fun bin => (effectiveRoot bin.nodes, contentKids bin.nodes 2,
        sortedKids bin.nodes (computeNodeLengths bin.firstCutOrientation bin.nodes)
          defaultCriteria 2)) = [(2, [3, 6], [6, 3])] := by
  refine ⟨?_, by decide +kernel⟩
  intro bt hbt
  rw [List.mem_singleton.mp hbt]
  decide

/-- `sort_lengths`: the strips of the items reach 3 and 2 to the right, and 2 and 4 upwards; the first one
has a waste of 3 × 1 above its item and the cut. -/
example : (sol (inst [] 1)).bins.map (fun bin =>
    [2, 3, 6].map fun i => (computeNodeLengths bin.firstCutOrientation bin.nodes).getD i default)
    = [[⟨4, 5, 11, 36⟩, ⟨3, 2, 3, 12⟩, ⟨2, 4, 0, 8⟩]] := by
  decide +kernel

/-- The second item goes to the front. -/
example : (sol (inst [] 1)).bins.map (fun bin => places bin.nodes)
      = [[(0, ⟨1, 4, 0, 2⟩), (1, ⟨5, 7, 0, 4⟩)]]
    ∧ (sorted (inst [] 1)).bins.map (fun bin => places bin.nodes)
      = [[(1, ⟨1, 3, 0, 4⟩), (0, ⟨4, 7, 0, 2⟩)]] := by
  decide +kernel

/-- The hypotheses of `sort_products_exact` and of `sort_comparison`: products of more than 64
bits. -/
example : mulLess (2 ^ 62) (2 ^ 63 - 1) (2 ^ 62 + 1) (2 ^ 63 - 1) = true
    ∧ mulLess (2 ^ 62 + 1) (2 ^ 63 - 1) (2 ^ 62) (2 ^ 63 - 1) = false
    ∧ Measured ⟨5, 6, 2 ^ 62, 2 ^ 63 - 1⟩ ∧ Measured ⟨5, 6, 2 ^ 62 + 1, 2 ^ 63 - 1⟩
    ∧ comesBefore [.density] ⟨5, 6, 2 ^ 62, 2 ^ 63 - 1⟩ ⟨5, 6, 2 ^ 62 + 1, 2 ^ 63 - 1⟩ = true := by
  refine ⟨by decide, by decide, ⟨by decide, by decide⟩, ⟨by decide, by decide⟩, by decide⟩

/-! ## What the sorting does not keep -/

/-- **C119**, sorting does not keep feasibility: the waste above the first item has a defect; the
second item is moved onto it. -/
theorem sort_onto_defect : (sol (inst [⟨2, 3, 1, 1⟩] 1)).feasible = true
    ∧ sortSubplates (inst [⟨2, 3, 1, 1⟩] 1) defaultCriteria (sol (inst [⟨2, 3, 1, 1⟩] 1))
      = .ok (sorted (inst [⟨2, 3, 1, 1⟩] 1))
    ∧ (sorted (inst [⟨2, 3, 1, 1⟩] 1)).defectsFeasible = false
    ∧ (sorted (inst [⟨2, 3, 1, 1⟩] 1)).feasible = false := by
  decide +kernel

/-- **C119**, sorting does not keep feasibility: the second item must come after the first. -/
theorem sort_against_stack : (sol (inst [] 0)).feasible = true
    ∧ sortSubplates (inst [] 0) defaultCriteria (sol (inst [] 0)) = .ok (sorted (inst [] 0))
    ∧ (sorted (inst [] 0)).stacksFeasible = false ∧ (sorted (inst [] 0)).feasible = false := by
  decide +kernel

/-- An item that fills the bin inside its trim. -/
def whole : Instance :=
  { inst [] 1 with itemTypes := [{ w := 9, h := 4, profit := 1, copies := 1, copiesMin := 0, oriented := true, stackId := 0, resourceIds := [[]] }], stackOffsets := [0, 1], itemTypeIds := [0], numberOfItems := 1 }

/-- The item, without a cut. -/
def wholeSol : Solution :=
  match (SolutionBuilder.new whole).runOrThrow whole [.addBin 0 1 .vertical, .setItem 0]
    >>= fun sb => sb.build whole with
  | .ok s => s
  | .error _ => {}

/-- The solution with its subplates sorted. -/
def wholeSorted : Solution :=
  match sortSubplates whole defaultCriteria wholeSol with
  | .ok s => s
  | .error _ => {}

/-- **C119**, why the items must be cut out: an item that fills a trimmed bin is lost. -/
theorem sort_loses_item : wholeSol.feasible = true ∧ wholeSol.numberOfItems = 1
    ∧ (SolutionBuilder.new whole).runOrThrow whole [.addBin 0 1 .vertical, .setItem 0]
      >>= (fun sb => sb.build whole) = .ok wholeSol
    ∧ sortSubplates whole defaultCriteria wholeSol = .ok wholeSorted
    ∧ wholeSorted.numberOfItems = 0 := by
  decide +kernel

end SortSubplatesEx

end PackingSolver.Guil
