import Verif.Spec.OneDimHistory
import Verif.Lemmas.OneDim.Reach

/-!
# Concrete one-dimensional instances

Used by the `example`s that show that the hypotheses of the theorems are met by
non-trivial inputs, and as counterexamples.
-/

namespace PackingSolver.OneDim.Examples

open PackingSolver.OneDim Spec

/-- Two item types (nesting, weights, stackability, weight above, minimum
copies), two bin types with a hard and a penalized resource. -/
def ex : Instance where
  objective := .binPacking
  itemTypes := [
    { length := 4, profit := 5, copies := 3, copiesMin := 3, weight := 2, nestingLength := 1,
      maximumStackability := 3, maximumWeightAfter := .fin 4, resourceIds := [[0], []] },
    { length := 3, profit := 2, copies := 2, copiesMin := 1, weight := 1, eligibilityId := 7,
      resourceIds := [[0, 1], []] }]
  binTypes := [
    { length := 10, cost := 7, copies := 1, copiesMin := 0, maximumWeight := .fin 6,
      eligibilityIds := [7],
      resources := [{ capacity := 6, itemConsumptions := [[1, 2], [3]] },
        { capacity := 1, itemConsumptions := [[], [2]], penalize := true, penalty := 4 }] },
    { length := 12, cost := 9, copies := 2, copiesMin := 0 }]
  numberOfItems := 5

/-- Builder calls: two type-0 items and one type-1 item in a first bin, one
type-0 item in a second one. -/
def exOps : List BuilderOp :=
  [.addBin 0 1, .addItem 0 0, .addItem 0 0, .addItem 0 1, .addBin 1 1, .addItem 1 0]

/-- The value of a computation that succeeds. -/
def okD {α : Type} (d : α) : Except Err α → α
  | .ok a => a
  | .error _ => d

/-- The solution built by `exOps`. -/
def exSol : Solution := okD {} (SolutionBuilder.runOps ex exOps)

theorem exSol_run : SolutionBuilder.runOps ex exOps = .ok exSol := by decide +kernel

theorem exSol_reachable : Reachable ex exSol :=
  .built exOps exSol (by intro t c h; simp [exOps] at h; omega) exSol_run

theorem ex_resourceIds : ResourceIdsOk ex := by
  intro i hi b hb
  have hi' : i = 0 ∨ i = 1 := by
    have : i < 2 := hi
    omega
  have hb' : b = 0 ∨ b = 1 := by
    have : b < 2 := hb
    omega
  rcases hi' with rfl | rfl <;> rcases hb' with rfl | rfl
  all_goals
    refine ⟨by decide, fun r => ⟨fun h => ?_, fun h => ?_⟩⟩
  · have : r = 0 := by simpa [ex, Instance.itemType] using h
    subst this; decide
  · have h1 : r < 2 := h.1
    have : r = 0 ∨ r = 1 := by omega
    rcases this with rfl | rfl
    · decide
    · exact absurd rfl h.2
  · exact absurd h (by simp [ex, Instance.itemType])
  · exact absurd h.1 (by simp [ex, Instance.binType])
  · have : r = 0 ∨ r = 1 := by simpa [ex, Instance.itemType] using h
    rcases this with rfl | rfl <;> decide
  · have h1 : r < 2 := h.1
    have : r = 0 ∨ r = 1 := by omega
    rcases this with rfl | rfl <;> decide
  · exact absurd h (by simp [ex, Instance.itemType])
  · exact absurd h.1 (by simp [ex, Instance.binType])

theorem ex_capacities : CapacitiesNonneg ex := by
  simp [CapacitiesNonneg, ex]

theorem ex_consumptions : ConsumptionsNonneg ex := by
  simp [ConsumptionsNonneg, ex]

end PackingSolver.OneDim.Examples
