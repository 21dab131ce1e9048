import Mathlib.Data.List.Perm.Basic

/-!
# Sorting

`std::sort` is not stable: all that is known of its result is that it is a permutation
of the input in which no element strictly precedes (in the order `lt`) an earlier one.
-/

namespace PackingSolver.Spec

/-- `l'` is a possible result of sorting `l` with the strict comparator `lt`. -/
structure IsSortOf {α : Type} (lt : α → α → Bool) (l l' : List α) : Prop where
  perm : l'.Perm l
  sorted : l'.Pairwise fun a b => lt b a = false

end PackingSolver.Spec
