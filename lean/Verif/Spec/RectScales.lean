import Verif.Spec.RectGeometry
import Verif.Model.Rect.ConservativeScales

/-!
# Conservative scales: what the rescaled dimensions and the external solvers must satisfy
-/

namespace PackingSolver.Rect.Spec

open Scales

/-- Rescaled dimensions `a` are conservative up to `slack` along an axis: they are nonnegative,
and whenever a collection of items, within the copies of each type, fits side by side with its
original dimensions, the rescaled dimensions add up to at most `capacity + slack`. -/
structure Conservative (inst : Instance) (dim : ItemType → Int) (capacity : Int) (a : List ℚ)
    (slack : ℚ) : Prop where
  nonneg : ∀ i, 0 ≤ a.getD i 0
  fits : ∀ s : List Nat, (∀ i ∈ s, i < inst.numberOfItemTypes) →
    (∀ i, (s.count i : Int) ≤ (inst.itemType i).copies) →
    (s.map fun i => dim (inst.itemType i)).sum ≤ capacity →
    (s.map fun i => a.getD i 0).sum ≤ capacity + slack

/-- Numbers of copies of the item types of a bounded knapsack: within the available ones, and
within the capacity. -/
def KpFeasible (capacity : Int) (items : List KpItem) (x : Nat → Int) : Prop :=
  (∀ k, k < items.length → 0 ≤ x k ∧ x k ≤ (items.getD k default).copies) ∧
  ((List.range items.length).map fun k => (items.getD k default).length * x k).sum ≤ capacity

/-- Profit of numbers of copies. -/
def kpProfit (items : List KpItem) (x : Nat → Int) : ℚ :=
  ((List.range items.length).map fun k => (items.getD k default).profit * (x k : ℚ)).sum

/-- The knapsack solver is exact: no feasible selection has a larger profit than its answer. -/
def ExactKp (kp : Int → List KpItem → List Int) : Prop :=
  ∀ capacity items x, KpFeasible capacity items x →
    kpProfit items x ≤ kpProfit items fun k => (kp capacity items).getD k 0

/-- The LP solver respects the lower bounds of the variables. -/
def NonnegLp (lp : ScaleLp → List ℚ) : Prop := ∀ p, ∀ v ∈ lp p, 0 ≤ v

end PackingSolver.Rect.Spec
