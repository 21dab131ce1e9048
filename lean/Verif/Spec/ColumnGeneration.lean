import Verif.Model.Algorithms.ColumnGeneration
import Mathlib.Algebra.BigOperators.Group.List.Basic

/-!
# What column generation is expected to compute

A column of the master problem is a way to fill one bin; a solution gives each column a value.
-/

namespace PackingSolver.ColumnGeneration.Spec

open PackingSolver.ColumnGeneration

/-- At least two of the three item types are among the items of the bin. -/
def AtLeastTwo (items : List Nat) (i j k : Nat) : Prop :=
  (i ∈ items ∧ j ∈ items) ∨ (i ∈ items ∧ k ∈ items) ∨ (j ∈ items ∧ k ∈ items)

instance (items : List Nat) (i j k : Nat) : Decidable (AtLeastTwo items i j k) := by
  unfold AtLeastTwo; infer_instance

/-- Number of copies of item type `i` packed by an integer solution: a list of bins (their
items) with the number of times each is used. -/
def packed (sel : List (List Nat × Nat)) (i : Nat) : Nat :=
  (sel.map fun p => p.2 * p.1.count i).sum

/-- Total value of the columns of a (fractional) solution that satisfy a condition. -/
def weightOf (sol : List (Column × ℚ)) (P : Column → Prop) [DecidablePred P] : ℚ :=
  (sol.map fun p => if P p.1 then p.2 else 0).sum

/-- Every column of the solution stands for a bin of an existing type filled with existing
item types. -/
def FromBins (nbt nit : Nat) (sol : List (Column × ℚ)) : Prop :=
  ∀ p ∈ sol, ∃ b < nbt, ∃ items : List Nat, (∀ i ∈ items, i < nit)
    ∧ p.1 = columnOf nbt nit b items

/-- The number of columns with a value that is not negligible and that contain an item type. -/
def support (sol : List (Column × ℚ)) (i : Nat) : Nat :=
  (sol.filter fun p => epsilon ≤ p.2 ∧ i ∈ p.1.items).length

/-- A choice of the number of bins of each type that respects their availability and a
budget. -/
structure Affordable (bins : List BinData) (budget : ℚ) (n : List Int) : Prop where
  available : List.Forall₂ (fun b x => b.copiesMin ≤ x ∧ x ≤ b.copies) bins n
  cost : (List.zipWith (fun b x => b.cost * ((x : Int) : ℚ)) bins n).sum ≤ budget

end PackingSolver.ColumnGeneration.Spec
