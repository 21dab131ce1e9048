import Mathlib.Data.List.Perm.Subperm

/-!
# Selections of pieces
-/

namespace PackingSolver.Spec

/-- The pieces of a pool of (length, copies) pairs, one entry per copy. -/
def pieces (pool : List (Int × Int)) : List Int :=
  pool.flatMap fun p => List.replicate p.2.toNat p.1

/-- A selection of pieces that fits in a capacity. -/
structure Selection (pool : List (Int × Int)) (capacity : Int) (s : List Int) : Prop where
  available : s.Subperm (pieces pool)
  fits : s.sum ≤ capacity

end PackingSolver.Spec
