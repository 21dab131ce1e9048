import Verif.Model.Rect.TreeSearch

/-!
# Tree search for rectangles

Models the part of `tree_search`, `src/rectangle/tree_search.cpp:1544–1720`, that chooses the
branching schemes and that turns what the external iterative beam search reports into an output.
-/

namespace PackingSolver.Rect.TreeSearch

/-- `directions`, `tree_search.cpp:1563–1584`. -/
def directions (inst : Instance) : List Direction :=
  if inst.objective = .openDimensionX then [.x]
  else if inst.objective = .openDimensionY then [.y]
  else if inst.objective = .binPackingWithLeftovers ∧ inst.parameters.leftoverMode = .x then [.x]
  else if inst.objective = .binPackingWithLeftovers ∧ inst.parameters.leftoverMode = .y then [.y]
  else if inst.parameters.unloadingConstraint = .increasingX
      ∨ inst.parameters.unloadingConstraint = .onlyXMovements then [.x]
  else if inst.parameters.unloadingConstraint = .increasingY
      ∨ inst.parameters.unloadingConstraint = .onlyYMovements then [.y]
  else if inst.numberOfBinTypes = 1 then [.x, .y]
  else [.any]

/-- `guides`, `tree_search.cpp:1554–1561`. -/
def guides (inst : Instance) (requested : List Nat) : List Nat :=
  if requested.isEmpty then (if inst.objective = .knapsack then [4, 5] else [0, 1]) else requested

/-- The parameters of the branching schemes for one growth factor, `tree_search.cpp:1594–1600`. -/
def schemeParameters (inst : Instance) (requested : List Nat) (fixedItems : Option Solution) :
    List Parameters :=
  (guides inst requested).flatMap fun g => (directions inst).map fun d =>
    { guideId := g, direction := d, fixedItems := fixedItems }

end PackingSolver.Rect.TreeSearch
