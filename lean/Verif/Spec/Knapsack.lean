import Mathlib.Algebra.Order.Field.Rat
import Mathlib.Algebra.BigOperators.Group.Finset.Basic

/-!
# The knapsack problem

Items are pairs `(profit, weight)`; a selection is the list of Booleans telling which ones
are taken.
-/

namespace PackingSolver.Spec

/-- Profit of a selection. -/
def selectionProfit : List (ℚ × Int) → List Bool → ℚ
  | x :: l, b :: m => (if b then x.1 else 0) + selectionProfit l m
  | _, _ => 0

/-- Weight of a selection. -/
def selectionWeight : List (ℚ × Int) → List Bool → Int
  | x :: l, b :: m => (if b then x.2 else 0) + selectionWeight l m
  | _, _ => 0

/-- An optimal selection: it fits and no other selection that fits has a larger profit. -/
structure OptimalSelection (items : List (ℚ × Int)) (capacity : Int) (m : List Bool) : Prop where
  length : m.length = items.length
  fits : selectionWeight items m ≤ capacity
  best : ∀ m', m'.length = items.length → selectionWeight items m' ≤ capacity →
    selectionProfit items m' ≤ selectionProfit items m

end PackingSolver.Spec
