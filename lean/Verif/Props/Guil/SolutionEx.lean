import Verif.Props.Guil.Compare

/-!
# Where guillotine solutions do not report what one would expect (C69, C70, C71, C73)
-/

namespace PackingSolver.Guil.NegEx

open Guil.Spec

/-- The result of the calls. -/
def made (inst : Instance) (ops : List Op) : Solution :=
  match (SolutionBuilder.run inst ops).build inst with
  | .ok s => s
  | .error _ => {}

/-! ## Totals -/

/-- One item type as large as the plate. -/
def instWhole : Instance := {
  objective := .knapsack
  itemTypes := [{ w := 10, h := 10, profit := 5, copies := 1, copiesMin := 0, resourceIds := [[]] }]
  binTypes := [{ w := 10, h := 10 }] }

/-- **C69, negative**: an item that fills a whole plate without hard trims, set on the plate itself,
is accepted but never counted. -/
theorem item_on_plate_not_counted :
    ((SolutionBuilder.run instWhole [.addBin 0 1 .vertical]).setLastNodeItem instWhole 0).2 = none
    ∧ (SolutionBuilder.run instWhole [.addBin 0 1 .vertical, .setItem 0]).build instWhole
      = .ok (made instWhole [.addBin 0 1 .vertical, .setItem 0])
    ∧ (made instWhole [.addBin 0 1 .vertical, .setItem 0]).numberOfItems = 0
    ∧ (made instWhole [.addBin 0 1 .vertical, .setItem 0]).profit = 0 :=
  ⟨by decide +kernel, by decide +kernel, by decide +kernel, by decide +kernel⟩

/-- A plate with a resource whose excess is penalized. -/
def instPenalty : Instance := {
  objective := .knapsack
  itemTypes := [{ w := 10, h := 10, profit := 5, copies := 9, copiesMin := 0, resourceIds := [[0]] }]
  binTypes := [{ w := 10, h := 10, leftTrim := 0, resources := [{ capacity := 0, itemConsumptions := [[1]], penalize := true, penalty := 3 }] }] }

/-- **C69, negative**: the penalty of an exceeded resource is charged once per listed bin: three
copies of a bin listed once have a better profit than the same three bins listed one by one. -/
theorem penalty_ignores_copies :
    (made instPenalty [.addBin 0 3 .vertical, .addNode 1 10, .setItem 0]).profit = 12
    ∧ (made instPenalty [.addBin 0 1 .vertical, .addNode 1 10, .setItem 0,
        .addBin 0 1 .vertical, .addNode 1 10, .setItem 0,
        .addBin 0 1 .vertical, .addNode 1 10, .setItem 0]).profit = 6 :=
  ⟨by decide +kernel, by decide +kernel⟩

/-- A plate whose right half is a soft trim. -/
def instSoft : Instance := {
  objective := .binPackingWithLeftovers
  itemTypes := [{ w := 10, h := 60, copies := 9, copiesMin := 0, resourceIds := [[]] }]
  binTypes := [{ w := 100, h := 60, rightTrim := 50 }] }

/-- **C69, negative**: the residual contains the soft trims although the area of the plate does not:
waste can be negative. -/
theorem waste_negative :
    (SolutionBuilder.run instSoft [.addBin 0 1 .vertical, .addNode 1 10, .setItem 0]).build instSoft
      = .ok (made instSoft [.addBin 0 1 .vertical, .addNode 1 10, .setItem 0])
    ∧ (made instSoft [.addBin 0 1 .vertical, .addNode 1 10, .setItem 0]).feasible = true
    ∧ (made instSoft [.addBin 0 1 .vertical, .addNode 1 10, .setItem 0]).waste = -3000 :=
  ⟨by decide +kernel, by decide +kernel, by decide +kernel⟩

/-- **C69, negative**: without the soft trims in the area, full waste can be negative: the items in
the soft trim are accepted, the solution is feasible. -/
theorem items_in_soft_trim :
    (made instSoft [.addBin 0 1 .vertical, .addNode 1 10, .setItem 0, .addNode 1 20, .setItem 0,
        .addNode 1 30, .setItem 0, .addNode 1 40, .setItem 0, .addNode 1 50, .setItem 0,
        .addNode 1 60, .setItem 0]).feasible = true
    ∧ (made instSoft [.addBin 0 1 .vertical, .addNode 1 10, .setItem 0, .addNode 1 20, .setItem 0,
        .addNode 1 30, .setItem 0, .addNode 1 40, .setItem 0, .addNode 1 50, .setItem 0,
        .addNode 1 60, .setItem 0]).fullWaste = -600 :=
  ⟨by decide +kernel, by decide +kernel⟩

/-- A plain plate. -/
def instPlain : Instance := {
  objective := .binPackingWithLeftovers
  itemTypes := [{ w := 10, h := 60, copies := 9, copiesMin := 0, resourceIds := [[]] }]
  binTypes := [{ w := 100, h := 60, copies := 1 }] }

/-- **C69, negative**: the residual is subtracted once, not once per copy of the last bin. -/
theorem residual_ignores_copies :
    (made instPlain [.addBin 0 1 .vertical, .addNode 1 10, .setItem 0]).waste = 0
    ∧ (made instPlain [.addBin 0 2 .vertical, .addNode 1 10, .setItem 0]).waste = 5400 :=
  ⟨by decide +kernel, by decide +kernel⟩

/-- **C69, negative**: the width of a solution is that of the last bin alone. -/
theorem width_of_last_bin_only :
    (made instPlain [.addBin 0 1 .vertical, .addNode 1 10, .setItem 0, .addNode 1 20, .setItem 0,
      .addBin 0 1 .vertical, .addNode 1 10, .setItem 0]).width = 10
    ∧ (made instPlain [.addBin 0 1 .vertical, .addNode 1 10, .setItem 0,
      .addNode 1 20, .setItem 0]).width = 20 :=
  ⟨by decide +kernel, by decide +kernel⟩

/-! ## Feasibility -/

/-- **C70, negative**: a solution with more bins than there are is feasible. -/
theorem too_many_bins_feasible :
    (made instPlain [.addBin 0 5 .vertical]).feasible = true
    ∧ binCopies (plates (made instPlain [.addBin 0 5 .vertical])) 0 = 5
    ∧ (instPlain.binType 0).copies = 1 :=
  ⟨by decide +kernel, by decide +kernel, by decide +kernel⟩

/-- **C70, negative**: the empty solution is feasible although the callback rejects everything. -/
theorem empty_ignores_callback :
    (made { instPlain with callback := fun _ => false } []).feasible = true
    ∧ (made { instPlain with callback := fun _ => false } [.addBin 0 1 .vertical]).feasible = false :=
  ⟨by decide +kernel, by decide +kernel⟩

/-- A plate with a hard trim and a defect, and an item of the size of the rest. -/
def instDefect : Instance := {
  objective := .knapsack
  itemTypes := [{ w := 90, h := 60, copies := 1, copiesMin := 0, resourceIds := [[]] }]
  binTypes := [{ w := 100, h := 60, leftTrim := 10, defects := [⟨50, 30, 5, 5⟩] }] }

/-- **C70, negative**: an item that fills a plate with hard trims is counted, but not checked against
the defects. -/
theorem item_on_defect_feasible :
    (made instDefect [.addBin 0 1 .vertical, .setItem 0]).feasible = true
    ∧ (made instDefect [.addBin 0 1 .vertical, .setItem 0]).numberOfItems = 1
    ∧ ∃ bin ∈ (made instDefect [.addBin 0 1 .vertical, .setItem 0]).bins,
      ∃ n ∈ itemNodes bin, MeetsDefect (instDefect.binType 0) (region n) := by
  refine ⟨by decide +kernel, by decide +kernel, _, List.mem_singleton.mpr rfl, _,
    List.mem_singleton.mpr rfl, ⟨50, 30, 5, 5⟩, List.mem_singleton.mpr rfl, ?_⟩
  decide +kernel

/-- **C70, negative**: a piece of waste that is too small does not make the solution infeasible: it
ends the process. -/
theorem small_waste_ends_process :
    (SolutionBuilder.run { instPlain with parameters := { minimumWasteLength := 20 } }
      [.addBin 0 1 .vertical, .addNode 1 90]).build
        { instPlain with parameters := { minimumWasteLength := 20 } } = .error .exit := by
  decide +kernel

/-- **C70, negative**: with the objective `bin-packing-cutting-cost` and no cutting costs, `build`
reads outside of the vector of costs. -/
theorem no_cutting_costs_ub :
    (SolutionBuilder.run { instPlain with objective := .binPackingCuttingCost }
      [.addBin 0 1 .vertical]).build { instPlain with objective := .binPackingCuttingCost }
        = .error .ub := by
  decide +kernel

/-! ## Stages -/

/-- One stage, non-exact cuts; the plate may have a hard trim. -/
def instStage (trim : Int) (ct : CutType) : Instance := {
  objective := .knapsack
  parameters := { numberOfStages := 0, cutType := ct }
  itemTypes := [{ w := 10, h := 60, copies := 9, copiesMin := 0, resourceIds := [[]] }]
  binTypes := [{ w := 100, h := 60, leftTrim := trim }] }

/-- **C71, negative**: whether the last stage is counted depends on the hard trims: a plate with one
trimmed item has no stage if it has a hard trim, and one stage if it has none. -/
theorem trims_change_stages :
    (made (instStage 10 .nonExact) [.addBin 0 1 .vertical, .addNode 1 20, .setItem 0,
      .addBin 0 1 .vertical]).numberOfStages = 0
    ∧ (made (instStage 0 .nonExact) [.addBin 0 1 .vertical, .addNode 1 10, .setItem 0,
      .addBin 0 1 .vertical]).numberOfStages = 1 :=
  ⟨by decide +kernel, by decide +kernel⟩

/-- **C71, negative**: with Roadef 2018 cuts, the last stage is not counted either when it separates
three items, with two cuts. -/
theorem roadef_three_items :
    (made (instStage 10 .roadef2018) [.addBin 0 1 .vertical, .addNode 1 20, .setItem 0,
      .addNode 1 30, .setItem 0, .addNode 1 40, .setItem 0]).numberOfStages = 0 := by
  decide +kernel

/-! ## Appending bins (C73) -/

/-- A plain plate with a cost of waste. -/
def instWaste : Instance := { instPlain with parameters := { wasteCost := 1 } }

/-- A bin with one item and a residual. -/
def one : Solution := made instWaste [.addBin 0 1 .vertical, .addNode 1 10, .setItem 0]

/-- The solution with another bin appended. -/
def two : Solution := match one.appendBin instWaste one 0 1 [] [] with
  | .ok s => s
  | .error _ => {}

/-- **C73, negative**: `append_bin` subtracts the area of the residual of the last bin instead of
adding it: the cutting cost of the result is not that of its waste. -/
theorem append_bin_cutting_cost :
    one.appendBin instWaste one 0 1 [] [] = .ok two
    ∧ two.cuttingCost = 10800
    ∧ instWaste.parameters.wasteCost * two.waste = 5400
    ∧ (made instWaste [.addBin 0 1 .vertical, .addNode 1 10, .setItem 0,
        .addBin 0 1 .vertical, .addNode 1 10, .setItem 0]).cuttingCost = 5400 :=
  ⟨by decide +kernel, by decide +kernel, by decide +kernel, by decide +kernel⟩

/-- **C73, negative**: appending a solution that lists two copies of a bin reads outside of its
list of bins. -/
theorem append_copies_ub :
    ({} : Solution).appendBins instPlain (made instPlain [.addBin 0 2 .vertical]) [] []
      = .error .ub := by
  decide +kernel

/-- **C73, negative**: so does appending two empty bins with `append_empty_bin`. -/
theorem append_empty_copies_ub :
    (Solution.init instPlain).appendEmptyBin instPlain 0 2 = .error .ub := by
  decide +kernel

end PackingSolver.Guil.NegEx
