import Mathlib.Algebra.BigOperators.Group.List.Basic
import Mathlib.Data.Int.Order.Basic

/-!
# Specification of the calls that set a field of all types at once
-/

namespace PackingSolver.Spec

/-- `c` is the smallest number of copies of an item of size `a` whose total size is at least the
size of every container. -/
def IsLeastCover (sizes : List Int) (a c : Int) : Prop :=
  (∀ s ∈ sizes, s ≤ c * a) ∧ ∀ c', (∀ s ∈ sizes, s ≤ c' * a) → c ≤ c'

/-- A choice of copies of items, each with one of its sides: the item type and the side. -/
structure Row where
  items : List (Nat × Int)

/-- The length of the items of a row put side by side. -/
def Row.length (r : Row) : Int := (r.items.map (·.2)).sum

/-- A row that uses each item type at most as often as there are copies, each copy along one of its
sides. -/
structure Row.Valid (r : Row) (n : Nat) (copies : Nat → Int) (sides : Nat → List Int) : Prop where
  side : ∀ p ∈ r.items, p.1 < n ∧ p.2 ∈ sides p.1
  copies : ∀ i < n, ((r.items.map (·.1)).count i : Int) ≤ copies i

end PackingSolver.Spec
