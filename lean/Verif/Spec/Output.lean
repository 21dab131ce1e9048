import Verif.Model.Output

/-!
# Valid bounds

`ι` indexes the admissible packings of an instance; `prof`, `bins` and `cost` give their
values.
-/

namespace PackingSolver.Spec

variable {σ ι : Type}

/-- A bound update is valid: an upper bound on the profit of every admissible packing, a
lower bound on their number of bins, a lower bound on their cost, or infeasibility when
there is none. -/
def ValidUpdate (objective : Objective) (prof : ι → ℚ) (bins : ι → Int) (cost : ι → ℚ) :
    Update σ → Prop
  | .solution _ => True
  | .infeasible => IsEmpty ι
  | .knapsack b => ∀ p, b.Ge (prof p)
  | .binPacking b => ∀ p, b ≤ bins p
  | .variableSized b => ∀ p, b ≤ cost p
  | .bounds out => (out.isProvenInfeasible = true → IsEmpty ι)
      ∧ (objective = .knapsack → ∀ p, out.knapsackBound.Ge (prof p))
      ∧ (objective = .binPacking → ∀ p, out.binPackingBound ≤ bins p)
      ∧ (objective = .variableSizedBinPacking → ∀ p, out.variableSizedBinPackingBound ≤ cost p)

/-- Order on possibly infinite bounds. -/
def extLe : ExtQ → ExtQ → Prop
  | _, .inf => True
  | .inf, .fin _ => False
  | .fin a, .fin b => a ≤ b

end PackingSolver.Spec
